import Mathlib.Data.Complex.Basic
/-!
# What a normalised array is
-/
namespace Pwtools.Spec

/-- The two arrays have the same length and the same ratios between their entries. -/
def SameRatios {K : Type} [Field K] (a b : List K) : Prop :=
  b.length = a.length ∧ ∀ i j, i < a.length → j < a.length → a.getD i 0 * b.getD j 0 = a.getD j 0 * b.getD i 0

/-- `b` is `a` on the scale on which the largest entry is 1: entries have the same ratios and the same
order, one is 1 and none is larger. -/
def MaxNormalized {K : Type} [Field K] [LinearOrder K] (a b : List K) : Prop :=
  SameRatios a b ∧ 1 ∈ b ∧ (∀ v ∈ b, v ≤ 1) ∧
    ∀ i j, i < a.length → j < a.length → (a.getD i 0 ≤ a.getD j 0 ↔ b.getD i 0 ≤ b.getD j 0)

/-- numpy's order of complex numbers: by the real part, for equal real parts by the imaginary part. -/
def LexLe (z w : ℂ) : Prop := z.re < w.re ∨ (z.re = w.re ∧ z.im ≤ w.im)

end Pwtools.Spec
