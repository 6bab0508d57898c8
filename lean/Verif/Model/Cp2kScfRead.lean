import Verif.Model.ScfOut
import Verif.Model.PwRead
/-!
# `io.read_cp2k_scf`: from the output of a CP2K single point calculation to a `Structure` (`io.py`, `parse.py`, `crys.py`)
-/
namespace Pwtools.Cp2kScfRead
open Gr Tr Units PwRead
variable {K : Type}

/-- `parse()`, `parse.py:275-277`: all getters of `attr_lst`, `parse.py:1759-1765`, in this order; the first exception ends it. -/
def parse (num : Text → Option K) (out : List Text) : Except PErr (UAttr → Option (Val K)) :=
  (Scf.cp2kForces num out).bind fun tbl =>
  (Scf.cp2kEtot num out).bind fun etot =>
  (Scf.cp2kStress num out).bind fun stress =>
  .ok fun
    | .etot => etot.map .num
    | .forces => tbl.map fun t => .mat t.2.2
    | .stress => some (.mat stress)
    | .other n => if n = "symbols" then tbl.map fun t => .words t.2.1 else if n = "natoms" then tbl.map fun t => .nat t.1 else none
    | _ => none

/-- `io.read_cp2k_scf(filename, units=user)`, `io.py:409-412`, after the parsers `hist` were created. `g`: the getters of the container. -/
def readCp2kScf [Field K] [DecidableEq K] (c : Consts K) (hist : List (Kind × UDict K)) (user : UDict K) (g : Getters K (Val K))
    (num : Text → Option K) (out : List Text) : Except (PErr ⊕ Err) (UObj K (Val K)) :=
  match parse num out with
  | .error e => .error (.inl e)
  | .ok attrs => match (Parser.init attrs none (create c (after c hist) .cp2kScf user).2).getCont g with
    | .error e => .error (.inr e)
    | .ok (st, _) => .ok st

end Pwtools.Cp2kScfRead
