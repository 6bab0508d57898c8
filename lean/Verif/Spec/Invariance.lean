import Verif.Spec.Rpdf
import Mathlib.LinearAlgebra.Matrix.Determinant.Basic
/-!
# C156: descriptions of the same crystal
-/
namespace Pwtools.Spec
open Pwtools.Cry

/-- `R` is a rotation or a reflection. -/
def IsRotation (R : Matrix (Fin 3) (Fin 3) ℝ) : Prop := R * R.transpose = 1

/-- The atoms `x'` are the atoms `x` in another order `σ`, each possibly in another periodic image, and
all of them shifted by the same vector `s` (fractional coordinates). -/
def SameAtoms {A : Nat} (σ : Equiv.Perm (Fin A)) (s : V3) (x x' : Fin A → V3) : Prop :=
  ∀ i, ∃ n : Fin 3 → Int, ∀ k, x' i k = x (σ i) k + (n k : ℝ) + s k

end Pwtools.Spec
