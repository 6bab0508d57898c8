import Verif.Model.Gofr
/-!
# Specification for C118
-/
namespace Pwtools.Spec

/-- `out` are the entries of `l` with the numbers `first`, `first + step`, `first + 2*step`, … which are at most `last` (`none`: the last one). -/
def EveryNth {α : Type} (l : List α) (first : Nat) (last : Option Nat) (step : Nat) (out : List α) : Prop :=
  ∀ k : Nat, out[k]? = if (∀ m ∈ last, first + k * step ≤ m) then l[first + k * step]? else none

end Pwtools.Spec
