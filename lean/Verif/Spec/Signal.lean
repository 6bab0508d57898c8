import Verif.Spec.NdArray
import Mathlib.Analysis.SpecialFunctions.Complex.Circle
/-!
# Specifications for C56-C65
-/
namespace Pwtools.Spec

/-- `b` is `a` with `k` zeros after (`front = false`) or before (`front = true`) it along axis `ax`. -/
def IsPadded {α : Type} [Zero α] (a b : Nd.Arr α) (ax n k : Nat) (front : Bool) : Prop :=
  b.shape = a.shape.set ax (n + k) ∧
  ∀ idx, InShape idx b.shape → b.get idx =
    if front then (if idx.getD ax 0 < k then 0 else a.get (idx.modify ax (· - k)))
    else (if idx.getD ax 0 < n then a.get idx else 0)

/-- Entry `i` of `y` is a strict local maximum with both neighbours inside. -/
def IsPeak {K : Type} [LT K] (y : List K) (i : Nat) : Prop :=
  ∃ l c r, 1 ≤ i ∧ y[i - 1]? = some l ∧ y[i]? = some c ∧ y[i + 1]? = some r ∧ l < c ∧ r < c

/-- The autocorrelation `c(t) = Σ v(j) v(j+t)`, over all `j` for which both times exist. -/
def autocorr (v : List ℝ) (t : Nat) : ℝ := ∑ j ∈ Finset.range (v.length - t), v.getD j 0 * v.getD (j + t) 0

/-- The discrete Fourier transform `y(k) = Σ a(n) exp(-2πi n k / N)`. -/
noncomputable def fourier (a : List ℂ) (k : Nat) : ℂ :=
  ∑ n ∈ Finset.range a.length, a.getD n 0 * Complex.exp (-2 * Real.pi * Complex.I * n * k / a.length)

/-- Position in a sequence of length `n` of the index `i`, reflected at the first and at the last
item (which are not repeated). -/
def reflect (n : Nat) (i : Int) : Nat :=
  if i < 0 then (-i).toNat else if (n : Int) - 1 < i then (2 * ((n : Int) - 1) - i).toNat else i.toNat

/-- Position in a sequence of length `n` of the index `i`, moved to the border if outside. -/
def clamp (n : Nat) (i : Int) : Nat := if i < 0 then 0 else if (n : Int) - 1 < i then n - 1 else i.toNat

end Pwtools.Spec
