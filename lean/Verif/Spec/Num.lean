import Mathlib.Algebra.Order.Field.Basic
import Mathlib.Analysis.SpecialFunctions.Pow.Real
import Mathlib.Algebra.BigOperators.Fin
/-!
# Specifications for C21, C22, C26, C27, C29, C30
-/
namespace Pwtools.Spec

/-- The point that divides the way from `a` to `b` in the proportion `j : n`. -/
def between {K ι : Type} [Field K] (a b : ι → K) (j n : Nat) : ι → K :=
  fun i => a i + (j : K) / (n : K) * (b i - a i)

/-- Euclidean distance. -/
noncomputable def euclid {d : Nat} (a b : Fin d → ℝ) : ℝ := Real.sqrt (∑ i, (a i - b i) ^ 2)

/-- Homogeneous integration rule: multiplying `y` by `c` multiplies the integral by `c`, dividing
`x` by `e` divides it by `e`. -/
def Homogeneous {K : Type} [Field K] (func : List K → List K → K) : Prop :=
  ∀ (y x : List K) (c e : K), e ≠ 0 → func (y.map (· * c)) (x.map (· / e)) = func y x * c / e

end Pwtools.Spec
