import Mathlib.Analysis.Calculus.Deriv.Basic
import Mathlib.LinearAlgebra.Matrix.Determinant.Basic
/-!
# Specification: linear solvers, partial derivatives
-/
namespace Pwtools.Spec

/-- An exact linear solver: it finds a solution of `A x = b` if `A` is not singular and raises an exception
otherwise. -/
def IsSolver {M : Nat} (solve : Matrix (Fin M) (Fin M) ℝ → (Fin M → ℝ) → Option (Fin M → ℝ)) : Prop :=
  ∀ A b, (A.det = 0 → solve A b = none) ∧ (A.det ≠ 0 → ∃ x, solve A b = some x ∧ ∀ i, ∑ j, A i j * x j = b i)

/-- An exact least squares solver. -/
def IsLstsq {M : Nat} (lstsq : Matrix (Fin M) (Fin M) ℝ → (Fin M → ℝ) → Fin M → ℝ) : Prop :=
  ∀ A b (x : Fin M → ℝ), ∑ i, (∑ j, A i j * lstsq A b j - b i) ^ 2 ≤ ∑ i, (∑ j, A i j * x j - b i) ^ 2

/-- `g` holds the partial derivatives of `f` at `x`. -/
def IsGradient {N : Nat} (f : (Fin N → ℝ) → ℝ) (x g : Fin N → ℝ) : Prop :=
  ∀ k, HasDerivAt (fun t => f (Function.update x k t)) (g k) (x k)

end Pwtools.Spec
