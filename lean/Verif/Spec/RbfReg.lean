import Mathlib.Data.Real.Basic
import Mathlib.Algebra.BigOperators.Fin
/-!
# Specification for C167
-/
namespace Pwtools.Spec

/-- Sum of the squared differences of values and model. -/
def missSq {M : Nat} (z f : Fin M → ℝ) : ℝ := ∑ i, (z i - f i) ^ 2

/-- `w^T G w`, the squared norm of the function `Σ_j w_j φ(|x - c_j|)` in the space of the kernel: large for functions which change quickly. -/
def bending {M : Nat} (G : Fin M → Fin M → ℝ) (w : Fin M → ℝ) : ℝ := ∑ i, ∑ j, w i * w j * G i j

end Pwtools.Spec
