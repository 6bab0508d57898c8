import Verif.Model.PwHead
import Verif.Model.Cp2k
import Verif.Model.ArrHeader
/-!
# `Cp2kMDOutputFile`, `Cp2kSCFOutputFile`: what is read from the CP2K output file itself (`parse.py`)
-/
namespace Pwtools.Cp2kOut
open Gr Scf PwHead
variable {K : Type}

/-- `tr -s ' '`: a run of blanks becomes one blank. -/
def squeeze : Text → Text
  | [] => []
  | c :: cs => if c = ' ' ∧ cs.head? = some ' ' then squeeze cs else c :: squeeze cs

/-- The text behind the `n`-th blank. -/
def behind : Nat → Text → Option Text
  | 0, l => some l
  | n + 1, l => match l.dropWhile (· ≠ ' ') with
    | [] => none
    | _ :: t => behind n t

/-- `cut -d ' ' -f5-`: a line without blanks is printed as it is. -/
def cut5 (l : Text) : Text := if ' ' ∈ l then (behind 4 l).getD [] else l

/-- `ATOMIC FORCES in`. -/
def isForceHead (l : Text) : Bool := isInfix "ATOMIC FORCES in".toList l

/-- The lines which `egrep -v -e 'ATOM|--|Kind'` leaves. -/
def isKept (l : Text) : Bool := !(isInfix "ATOM".toList l || isInfix "--".toList l || isInfix "Kind".toList l)

/-- `Cp2kMDOutputFile.get_natoms`, `parse.py:1893-1896`: the text behind the last `:` of the first line with `Number of atoms:`. -/
def natoms (out : List Text) : Except PErr (Option Int) :=
  match out.find? (isInfix "Number of atoms:".toList) with
  | none => .ok none
  | some l => Cp2k.intFromTxt ((lastOcc ":".toList (fun _ t => some t) l).getD l)

/-- `_get_forces_from_outfile`, `parse.py:1913-1925`: `sed '/^\s*$/d' | grep -A<natoms+1> ... | egrep -v ... | tr -s ' ' | cut -d ' ' -f5-`, with the
attribute `natoms`. Simplified: a negative number of atoms is read as 0. -/
def forcesOf (num : Text → Option K) (natoms : Option Int) (out : List Text) : Res (List (List (List K))) :=
  match natoms with
  | none => .ok none
  | some n =>
    let na := n.toNat
    let nstep := (out.filter isForceHead).length
    let lines := (grepA (na + 1) isForceHead (out.filter fun l => !blankLine l) 0 false false).filter isKept
    trajFromTxt num (lines.flatMap fun l => splitWs (cut5 (squeeze l))) nstep na 3

/-- `_get_forces_from_outfile` of the MD parser. -/
def forces (num : Text → Option K) (out : List Text) : Res (List (List (List K))) :=
  match natoms out with
  | .error e => .error e
  | .ok n => forcesOf num n out

/-- `Cp2kMDOutputFile.get_timestep`, `parse.py:1898-1902`: the text behind the last `]`. -/
def timestep (num : Text → Option K) (out : List Text) : Res K :=
  floatTxt num (((out.find? (isInfix "MD| Time Step [fs]".toList)).map fun l => (lastOcc "]".toList (fun _ t => some t) l).getD l).toList)

/-- `_get_run_type`, `parse.py:1768-1771`: `sed -re 's/.*type\s+(.*)\s*/\1/'`, then `strip`. Without such a line the empty text. -/
def runType (out : List Text) : Text :=
  match out.find? (hasSeq ["GLOBAL".toList, "Run type".toList]) with
  | none => []
  | some l => Hdr.strip ((lastOcc "type".toList (fun _ t => if t.head?.map isPySpace = some true then some t else none) l).getD l)

end Pwtools.Cp2kOut
