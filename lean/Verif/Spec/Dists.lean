import Mathlib.Algebra.BigOperators.Fin
import Mathlib.Data.Real.Basic
/-!
# Specification: squared distances
-/
namespace Pwtools.Spec

/-- The matrix of squared distances between the rows of two arrays. -/
def sqDistMatrix {M L N : Nat} (x : Fin M → Fin N → ℝ) (y : Fin L → Fin N → ℝ) : Fin M → Fin L → ℝ :=
  fun i j => ∑ k, (x i k - y j k) ^ 2

/-- The points in other units (factor `c`) and with another origin. -/
def rescaled {M N : Nat} (c : ℝ) (t : Fin N → ℝ) (x : Fin M → Fin N → ℝ) : Fin M → Fin N → ℝ := fun i k => c * x i k + t k

end Pwtools.Spec
