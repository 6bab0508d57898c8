import Verif.Model.Alias
/-!
# Specifications for C104, C105, C107
-/
namespace Pwtools.Spec
open Alias

/-- A sequence of in-place changes of objects in memory. -/
def writes {V : Type} (h : Heap V) : List (Nat × AVal V) → Heap V
  | [] => h
  | (a, v) :: rest => writes (write h a v) rest

/-- All changes are changes of objects which belong to the instance `o`. -/
def ChangesOf {V : Type} (o : Obj) (ws : List (Nat × AVal V)) : Prop := ∀ w ∈ ws, ∃ name, o name = some w.1

/-- All objects of an instance exist. -/
def Valid {V : Type} (h : Heap V) (o : Obj) : Prop := ∀ name a, o name = some a → a < h.next

/-- The value of an attribute after `compress`. -/
def compressed {V : Type} (cast : Nat → V → V) (forget : List Text) (size : Nat) (name : Text) (v : Option (AVal V)) : Option (AVal V) :=
  if name ∈ forget then none
  else match v with
    | some (.floats s x) => some (.floats size (if s = size then x else cast size x))
    | w => w

/-- The keyword of the `scipy` optimizer for the start point or the search range. -/
def startKeyword : Method → Text
  | .fmin => "x0".toList
  | .de => "bounds".toList
  | .brute => "ranges".toList

/-- Every file which is opened is closed afterwards, and is not used after that. -/
def AllClosed (evs : List Ev) : Prop :=
  ∀ (fn : Text) (gz : Bool) (i : Nat), evs[i]? = some (Ev.opened fn gz) → ∃ j : Nat, i < j ∧ evs[j]? = some (Ev.closed fn) ∧ ∀ k : Nat, j < k → evs[k]? ≠ some (Ev.used fn)

end Pwtools.Spec
