import Verif.Model.PwHead
import Verif.Model.ParserUnits
import Verif.Model.Traj
/-!
# `io.read_pw_scf`: from the text of a pw.x output to a `Structure` (`io.py`, `parse.py`, `crys.py`)
-/
namespace Pwtools.PwRead
open Gr Scf PwHead Tr Units

/-- Values of attributes of a `Structure`. -/
inductive Val (K : Type) where
  | num (x : K)
  | mat (m : List (List K))
  | words (w : List Text)
  | nat (n : Nat)

variable {K : Type}

/-- `attr * factor`, `crys.py:2170`; only attributes with numbers are in `units_map`. -/
def Val.scale [Mul K] (s : K) : Val K → Val K
  | .num x => .num (x * s)
  | .mat m => .mat (m.map fun r => r.map (· * s))
  | v => v

/-- `raw_slice_get(name, sl=0, axis=0)`, `base.py:288-307`. -/
def slice0 {A : Type} : Res (List A) → Res A
  | .error e => .error e
  | .ok none => .ok none
  | .ok (some []) => .error .index
  | .ok (some (x :: _)) => .ok (some x)

/-- `PwSCFOutputFile.get_stress`, `parse.py:790-792`. -/
def getStress (num : Text → Option K) (file : List Text) : Res (List (List K)) := slice0 (PwOut.stressRaw num file)

/-- `PwSCFOutputFile.get_etot`, `parse.py:794-796`. -/
def getEtot (num : Text → Option K) (file : List Text) : Res K := slice0 (PwOut.etotRaw num file)

/-- `PwSCFOutputFile.get_forces`, `parse.py:798-808`. -/
def getForces (num : Text → Option K) (file : List Text) : Res (List (List K)) :=
  match PwOut.natoms file with
  | .error e => .error e
  | .ok none => .ok none
  | .ok (some na) => match slice0 (PwOut.forcesRaw num file) with
    | .error e => .error e
    | .ok f => .ok (f.map (·.take na))

/-- `parse()`, `parse.py:275-277`: all getters of `attr_lst`, `parse.py:656-667`, in this order; the first exception ends it. The value
is what `get_cont` copies: the attributes which are also attributes of a `Structure` (not `nstep_scf`, `nkpoints`, `scf_converged`). -/
def parse [One K] [Mul K] (num : Text → Option K) (useAlat : Bool) (file : List Text) : Except PErr (UAttr → Option (Val K)) :=
  (getCoords num useAlat file).bind fun coords =>
  (getSymbols num file).bind fun symbols =>
  (getStress num file).bind fun stress =>
  (getEtot num file).bind fun etot =>
  (getForces num file).bind fun forces =>
  (nstepScf file).bind fun _ =>
  (getCell num useAlat file).bind fun cell =>
  (PwOut.natoms file).bind fun natoms =>
  (nkpoints file).bind fun _ =>
  .ok fun
    | .coords => coords.map .mat
    | .stress => stress.map .mat
    | .etot => etot.map .num
    | .forces => forces.map .mat
    | .cell => cell.map .mat
    | .other n => if n = "symbols" then some (.words symbols) else if n = "natoms" then natoms.map .nat else none
    | _ => none

/-- Multiplication with a unit factor (`crys.py:2170`) in the notation of `Model/Traj`. -/
instance [Mul K] : SMul K (Val K) := ⟨Val.scale⟩

/-- `io.read_pw_scf(filename, units=user, use_alat=useAlat)`, `io.py:389-392`, which is `PwSCFOutputFile(...).get_struct()`: a parser is
created after the parsers in `hist`; `parse.py:254-302`. `g`: the getters of the container, which fill in what is not set. -/
def readPwScf [Field K] [DecidableEq K] (c : Consts K) (hist : List (Kind × UDict K)) (user : UDict K) (g : Getters K (Val K))
    (num : Text → Option K) (useAlat : Bool) (file : List Text) : Except (PErr ⊕ Err) (UObj K (Val K)) :=
  match parse num useAlat file with
  | .error e => .error (.inl e)
  | .ok attrs => match (Parser.init attrs none (create c (after c hist) .pwScf user).2).getCont g with
    | .error e => .error (.inr e)
    | .ok (st, _) => .ok st

end Pwtools.PwRead
