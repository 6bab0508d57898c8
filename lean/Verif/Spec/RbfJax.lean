import Verif.Model.RbfJax
import Verif.Spec.Rbf
/-!
# Specification for C179: `Rbf` with and without jax
-/
namespace Pwtools.Spec

/-- All quadratic forms are positive. -/
def IsPosDef {M : Nat} (A : Matrix (Fin M) (Fin M) ℝ) : Prop := ∀ v : Fin M → ℝ, v ≠ 0 → 0 < ∑ i, ∑ j, v i * v j * A i j

/-- A solver by Cholesky decomposition: it solves systems with positive definite matrices and fails for all other symmetric ones. -/
def IsPosSolver {M : Nat} (cho : Matrix (Fin M) (Fin M) ℝ → (Fin M → ℝ) → Option (Fin M → ℝ)) : Prop :=
  ∀ A b, (∀ i j, A i j = A j i) →
    (IsPosDef A → ∃ x, cho A b = some x ∧ ∀ i, ∑ j, A i j * x j = b i) ∧ (¬ IsPosDef A → cho A b = none)

/-- Automatic differentiation gives the gradients of functions which have one. -/
def IsAutodiff {N : Nat} (ad : ((Fin N → ℝ) → Option ℝ) → (Fin N → ℝ) → Option (Fin N → ℝ)) : Prop :=
  ∀ (f : (Fin N → ℝ) → Option ℝ) (F : (Fin N → ℝ) → ℝ) (x g : Fin N → ℝ), (∀ y, f y = some (F y)) → IsGradient F x g → ad f x = some g

end Pwtools.Spec
