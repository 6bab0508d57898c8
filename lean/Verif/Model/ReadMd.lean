import Verif.Model.PwMd
/-!
# `get_traj()` of the MD parsers (`parse.py`, `crys.py`): from parsed attributes to a `Trajectory`
-/
namespace Pwtools.ReadMd
open Gr Tr Units PwMd
variable {K : Type}

/-- `_extend_cc`, `crys.py:2479-2487`. -/
def extendCC (n : Nat) : CC K → CC K
  | .one row => if row.length = 6 then .many (List.replicate n row) else .one row
  | .many [row] => if row.length = 6 then .many (List.replicate n row) else .many [row]
  | c => c

/-- `_extend`, `crys.py:2456-2461`, `cryst_const`. -/
def extendObjCC (o : UObj K (Val K)) : Option (CC K) :=
  match PwMd.nstep o.attr with
  | none => o.cc
  | some n => o.cc.map (extendCC n)

/-- `get_traj()`, `parse.py:279-302`, of a parser of class `k` created with `units=user` after the parsers in `hist`, with parsed attributes `attrs` and
crystallographic constants `cc`: `set_all` of the container (`crys.py:2446-2454`) applies the units, extends cells, and calls the getters `g`, which
fill in what is not set. -/
def toTraj [Field K] [DecidableEq K] (c : Consts K) (hist : List (Kind × UDict K)) (k : Kind) (user : UDict K) (g : Getters K (Val K))
    (attrs : UAttr → Option (Val K)) (cc : Option (CC K)) : Except Err (UObj K (Val K)) :=
  match applyUnits { attr := attrs, cc := cc, units := (create c (after c hist) k user).2, applied := false } with
  | .error e => .error e
  | .ok o =>
    let o' := { o with attr := extend o.attr, cc := extendObjCC o }
    .ok { o' with attr := fun a => (o'.attr a).or (g.attr o' a), cc := o'.cc.or (g.cc o') }

end Pwtools.ReadMd
