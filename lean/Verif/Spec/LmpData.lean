import Verif.Model.Cell
import Mathlib.LinearAlgebra.Matrix.Determinant.Basic
/-!
# Specification for C101 (LAMMPS data files and calculator)
-/
namespace Pwtools.Spec
open Cry

/-- The point which is the periodic image number `t` of the point `x`. -/
def image (cell : Cell) (t : Fin 3 → ℤ) (x : V3) : V3 := fun k => x k + ∑ i, (t i : ℝ) * cell i k

/-- The distance of two points. -/
noncomputable def pointDist (x y : V3) : ℝ := Real.sqrt (∑ k, (x k - y k) ^ 2)

/-- The box vectors of LAMMPS for `xhi yhi zhi` and `xy xz yz`. -/
def lammpsBox (hi tilt : V3) : Cell := !![hi 0, 0, 0; tilt 0, hi 1, 0; tilt 1, tilt 2, hi 2]

/-- A cell in the form LAMMPS accepts: first vector along x, second in the x-y plane, with positive diagonal. -/
structure Aligned (c : Cell) : Prop where
  h01 : c 0 1 = 0
  h02 : c 0 2 = 0
  h12 : c 1 2 = 0
  d0 : 0 < c 0 0
  d1 : 0 < c 1 1
  d2 : 0 < c 2 2

/-- Laws of nature do not depend on the frame of reference: if the system is rotated or mirrored, the energy stays, and the forces and the stress
are rotated or mirrored with it. -/
structure Covariant {n : Nat} (energy : Cell → (Fin n → V3) → ℝ) (forces : Cell → (Fin n → V3) → Fin n → V3)
    (stress : Cell → (Fin n → V3) → Matrix (Fin 3) (Fin 3) ℝ) : Prop where
  energy : ∀ (q : Cell), q * q.transpose = 1 → ∀ cell x, energy (cell * q) (fun i => Matrix.vecMul (x i) q) = energy cell x
  forces : ∀ (q : Cell), q * q.transpose = 1 → ∀ cell x, forces (cell * q) (fun i => Matrix.vecMul (x i) q) =
    fun i => Matrix.vecMul (forces cell x i) q
  stress : ∀ (q : Cell), q * q.transpose = 1 → ∀ cell x, stress (cell * q) (fun i => Matrix.vecMul (x i) q) =
    q.transpose * stress cell x * q

end Pwtools.Spec
