import Verif.Model.Num
/-!
# Specification for C184: sorting data into bands
-/
namespace Pwtools.Spec

variable {K : Type} [Field K] [LinearOrder K] [IsStrictOrderedRing K]

/-- The value which band `j` should have after row `i`, by extrapolation with the last one, two or three points (constant, linear, quadratic). -/
def extrapolated (b : Nat → Nat → K) (i j : Nat) : K :=
  match i with
  | 0 => b 0 j
  | 1 => b 1 j + (b 1 j - b 0 j)
  | i + 2 => b (i + 2) j + (b (i + 2) j - b (i + 1) j) + ((b (i + 2) j - b (i + 1) j) - (b (i + 1) j - b i j))

/-- In each of the first `n` rows after the first one, the point of a band is closer to the extrapolated value than the points of the others, except
those at the same place. -/
def Resolved (b : Nat → Nat → K) (n nj : Nat) : Prop :=
  ∀ i, i + 1 < n → ∀ j < nj, ∀ l < nj, b (i + 1) l ≠ b (i + 1) j → |b (i + 1) j - extrapolated b i j| < |b (i + 1) l - extrapolated b i j|

/-- The first `n` points of the bands `b`, one row per point. -/
def bandRows (b : Nat → Nat → K) (n nj : Nat) : List (List K) := (List.range n).map (fun i => (List.range nj).map (b i))

/-- The same points, in any order within each row except the first one. -/
def Shuffled (b : Nat → Nat → K) (n nj : Nat) (arr : List (List K)) : Prop :=
  arr.length = n ∧ (∀ r, arr[0]? = some r → r = (List.range nj).map (b 0)) ∧
    ∀ (i : Nat) (r : List K), arr[i]? = some r → r.Perm ((List.range nj).map (b i))

end Pwtools.Spec
