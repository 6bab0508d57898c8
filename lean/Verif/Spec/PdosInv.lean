import Mathlib.Data.Real.Basic
import Mathlib.Algebra.BigOperators.Fin
import Mathlib.LinearAlgebra.Matrix.ConjTranspose
/-!
# Specification for C158
-/
namespace Pwtools.Spec

/-- Mass weighted scalar product of the velocities at the times `s` and `s'`. -/
def velProd (natoms : Nat) (v : Nat → Nat → Fin 3 → ℝ) (m : Nat → ℝ) (s s' : Nat) : ℝ :=
  ∑ i ∈ Finset.range natoms, m i * ∑ d, v s i d * v s' i d

end Pwtools.Spec
