import Verif.Model.Grep
/-!
# Model of `Cp2kMDOutputFile` and `Cp2kRelaxOutputFile` in `src/pwtools/parse.py`

The getters as functions of the lines of the files they read. Not modelled: forces from the main output file, `get_timestep`, `get_natoms` of the MD
parser, the SCF parser.
-/
namespace Pwtools.Cp2k
open Pwtools.Gr

variable {K : Type}

/-- A line without the comment which `np.loadtxt` removes. -/
def noComment (l : Text) : Text := l.takeWhile (· ≠ '#')

/-- `np.loadtxt(file)`: the rows. -/
def loadtxt (num : Text → Option K) (lines : List Text) : Except PErr (List (List K)) := loadRows num (lines.map fun l => splitWs (noComment l))

/-- The array which `np.loadtxt` returns is 2d only for at least two rows and at least two columns. -/
def is2d (rows : List (List K)) : Bool := 2 ≤ rows.length && 2 ≤ (rows.headD []).length

/-- `arr[:,i]`; `IndexError` for a 1d array or a missing column. -/
def column (junk : K) (rows : List (List K)) (i : Nat) : Except PErr (List K) :=
  if is2d rows && i < (rows.headD []).length then .ok (rows.map fun r => r.getD i junk) else .error .index

/-- `_ener_file_arr[:,i]`, `parse.py:1955-1981`. -/
def enerCol (junk : K) (num : Text → Option K) (ener : List Text) (i : Nat) : Except PErr (List K) :=
  match loadtxt num ener with
  | .error e => .error e
  | .ok rows => column junk rows i

def ekin (junk : K) (num : Text → Option K) (ener : List Text) := enerCol junk num ener 2
def temperature (junk : K) (num : Text → Option K) (ener : List Text) := enerCol junk num ener 3
def etot (junk : K) (num : Text → Option K) (ener : List Text) := enerCol junk num ener 4
def econst (junk : K) (num : Text → Option K) (ener : List Text) := enerCol junk num ener 5

/-- `_cp2k_repack_arr`, `parse.py:1850-1863`. -/
def repack (junk : K) (rows : List (List K)) : Except PErr (List (List (List K))) :=
  if is2d rows && 10 < (rows.headD []).length then
    .ok (rows.map fun r => [[r.getD 2 junk, r.getD 3 junk, r.getD 4 junk], [r.getD 5 junk, r.getD 6 junk, r.getD 7 junk],
      [r.getD 8 junk, r.getD 9 junk, r.getD 10 junk]])
  else .error .index

/-- `get_cell`, `get_stress`, `parse.py:1948-1953`, `1983-1988`. -/
def cell (junk : K) (num : Text → Option K) (file : List Text) : Except PErr (List (List (List K))) :=
  match loadtxt num file with
  | .error e => .error e
  | .ok rows => repack junk rows

def stress (junk : K) (num : Text → Option K) (file : List Text) : Except PErr (List (List (List K))) := cell junk num file

/-- `get_volume`, `parse.py:1990-1995`: the last column. -/
def volume (junk : K) (num : Text → Option K) (file : List Text) : Except PErr (List K) :=
  match loadtxt num file with
  | .error e => .error e
  | .ok rows => column junk rows ((rows.headD []).length - 1)

/-! ## xyz files -/

/-- `i = .*E =`. -/
def isFrame (l : Text) : Bool := hasSeq ["i = ".toList, "E =".toList] l

/-- `^[ ]+[0-9]+`. -/
def isCount (l : Text) : Bool := l.head? = some ' ' && ((l.dropWhile (· = ' ')).head?.map Char.isDigit).getD false

/-- The awk condition in `_cp2k_xyz2arr`: not `/i =.*E =|^[ ]+[0-9]+/`. -/
def isData (l : Text) : Bool := !(hasSeq ["i =".toList, "E =".toList] l || isCount l)

/-- `int_from_txt`, `parse.py:155-159`. -/
def intFromTxt (txt : Text) : Except PErr (Option Int) :=
  match splitWs txt with
  | [] => .ok none
  | [w] => match parseInt w with
    | some i => .ok (some i)
    | none => .error .value
  | _ => .error .value

/-- `_cp2k_xyz2arr`, `parse.py:1865-1873`. `None` as number of atoms is a `TypeError` of `reshape`. Simplified: a negative number of atoms is read as 0. -/
def xyz2arr (num : Text → Option K) (file : List Text) : Except PErr (List (List (List K))) :=
  let nstep := (file.filter isFrame).length
  match intFromTxt (file.headD []) with
  | .error e => .error e
  | .ok none => .error .type
  | .ok (some n) =>
    let na := n.toNat
    let xs := fromString num ((file.filter isData).flatMap (awk [2, 3, 4]))
    if xs.length = nstep * na * 3 then .ok ((chunks (na * 3) xs nstep).map fun c => chunks 3 c na) else .error .value

/-- `get_symbols`, `parse.py:1904-1911`, for the first xyz file which exists: `grep -m1 -A<natoms> 'i ='` prints the first matching line and the
`natoms` lines after it. -/
def symbols (na : Nat) (file : List Text) : List Text :=
  match file.dropWhile (fun l => !isInfix "i =".toList l) with
  | [] => []
  | _ :: rest => ((rest.take na).filter fun l => !isInfix "i =".toList l).flatMap (awk [1])

/-- `Cp2kRelaxOutputFile.get_etot`, `parse.py:2008-2013`. -/
def relaxEtot (num : Text → Option K) (file : List Text) : Res (List K) :=
  arr1d num ((file.filter fun l => hasSeq ["i =".toList, "E".toList] l).map (awk [6]))

/-- Exceptions of `Cp2kRelaxOutputFile.get_cell`. -/
inductive RelaxErr where
  | parser (e : PErr) | offset
  deriving DecidableEq, Repr

/-- `Cp2kRelaxOutputFile.get_cell`, `parse.py:2015-2043`, with an existing cell file; `coords` is the xyz array (`None` without the file). -/
def relaxCell (junk : K) (num : Text → Option K) (cellOpt : Bool) (cellFile : List Text) (coords : Option (List (List (List K)))) :
    Except RelaxErr (Option (List (List (List K)))) :=
  match cell junk num cellFile with
  | .error e => .error (.parser e)
  | .ok c =>
    if cellOpt then
      match coords with
      | none => .ok none
      | some x => if x.length = c.length + 1 then .ok (some (c ++ [c.getLastD []])) else .error .offset
    else .ok (some c)

end Pwtools.Cp2k
