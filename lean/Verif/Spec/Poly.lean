import Mathlib.Analysis.SpecialFunctions.Pow.Real
import Mathlib.Algebra.BigOperators.Fin
/-!
# Specification for C28
-/
namespace Pwtools.Spec

/-- `g` is a polynomial in `d` variables with degree at most `deg` in each variable. -/
def IsPoly {d : Nat} (deg : Nat) (g : (Fin d → ℝ) → ℝ) : Prop :=
  ∃ c : (Fin d → Fin (deg + 1)) → ℝ, ∀ x, g x = ∑ p, c p * ∏ j, x j ^ (p j : Nat)

/-- Sum of squared residuals of the function `g` on data. -/
def sumSq {d : Nat} (g : (Fin d → ℝ) → ℝ) (points : List (Fin d → ℝ)) (values : List ℝ) : ℝ :=
  (List.zipWith (fun x v => (g x - v) ^ 2) points values).sum

end Pwtools.Spec
