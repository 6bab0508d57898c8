import Mathlib.Algebra.BigOperators.Group.Finset.Basic
import Mathlib.Data.Real.Basic
/-!
# Specification: integration rules
-/
namespace Pwtools.Spec

/-- An integration rule for sampled data: a weighted sum of the values, with weights which depend on the
abscissas only. -/
def IsQuadrature (integ : List ℝ → List ℝ → ℝ) : Prop :=
  ∀ x : List ℝ, ∃ w : Nat → ℝ, ∀ y : List ℝ, y.length = x.length →
    integ y x = ∑ i ∈ Finset.range x.length, w i * y.getD i 0

end Pwtools.Spec
