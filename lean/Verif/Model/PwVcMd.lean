import Verif.Model.ReadMd
/-!
# `io.read_pw_vcmd`: from the text of a pw.x output of a variable cell MD to a `Trajectory` (`io.py`, `parse.py`, `crys.py`)
-/
namespace Pwtools.PwVcMd
open Gr Scf PwHead Tr Units PwMd ReadMd
variable {K : Type}

/-- `PwVCMDOutputFile.parse()`: the getters of `PwMDOutputFile` with those for kinetic energy and temperature overridden (`parse.py:1154-1167`),
then `econst` (`parse.py:1139`), which a `Trajectory` does not have. -/
def parse [Field K] (c : Consts K) (num : Text → Option K) (useAlat : Bool) (file : List Text) : Except PErr (UAttr → Option (Val K)) :=
  (parseWith c num useAlat file ((vcmdColumn num 0 file).map some) ((vcmdColumn num 1 file).map some)).bind fun attrs =>
  (vcmdColumn num 2 file).bind fun _ => .ok attrs

/-- `io.read_pw_vcmd(filename, units=user, use_alat=useAlat)`, `io.py:397-400`, after the parsers `hist` were created. -/
def readPwVcMd [Field K] [DecidableEq K] (c : Consts K) (hist : List (Kind × UDict K)) (user : UDict K) (g : Getters K (Val K))
    (num : Text → Option K) (useAlat : Bool) (file : List Text) : Except (PErr ⊕ Err) (UObj K (Val K)) :=
  match parse c num useAlat file with
  | .error e => .error (.inl e)
  | .ok attrs => match toTraj c hist .pwVcMd user g attrs none with
    | .error e => .error (.inr e)
    | .ok tr => .ok tr

end Pwtools.PwVcMd
