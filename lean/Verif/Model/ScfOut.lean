import Verif.Model.Grep
import Verif.Model.Cpmd
/-!
# Single point outputs: `parse.py`, `CpmdSCFOutputFile`, `Cp2kSCFOutputFile`, convergence flags of `PwSCFOutputFile`
-/
namespace Pwtools.Scf
open Gr
variable {K : Type}

/-- `tail -n<n>`. -/
def tailN {α : Type} (n : Nat) (l : List α) : List α := l.drop (l.length - n)

/-- `float_from_txt`, `parse.py:161-165`, on the lines of a text: nothing is `None`, more than one word is a `ValueError`. -/
def floatTxt (num : Text → Option K) (lines : List Text) : Res K :=
  match lines.flatMap splitWs with
  | [] => .ok none
  | [w] => match num w with
    | some x => .ok (some x)
    | none => .error .value
  | _ => .error .value

/-! ## CPMD -/

/-- `grep -A<n> KEY file | tail -n<n>`: the last block. -/
def lastBlock (n : Nat) (key : Text) (file : List Text) : List Text := tailN n (grepA n (isInfix key) file 0 false false)

/-- `_get_scale_file`, `parse.py:1248-1264`, cell part. -/
def scaleCell (num : Text → Option K) (scale : List Text) : Res (List (List K)) :=
  arr2d num ((lastBlock 3 "CELL MATRIX (BOHR)".toList scale).map splitWs)

/-- `arr2d_from_txt(..., dtype=str)`: rows of words of equal length; `np.loadtxt` skips empty lines. -/
def strRows (rows : List (List Text)) : Res (List (List Text)) := arr2d (fun w => some w) rows

/-- `_get_scale_file`, `parse.py:1248-1264`, atoms: fractional coordinates (first three columns) and symbols (fourth column). A text without
any row makes `arr[:,:3]` a `TypeError`. -/
def scaleAtoms (num : Text → Option K) (natoms : Nat) (scale : List Text) : Except PErr (List (List K) × List Text) :=
  match strRows ((lastBlock natoms "SCALED ATOMIC COORDINATES".toList scale).map splitWs) with
  | .error e => .error e
  | .ok none => .error .type
  | .ok (some rows) =>
    match rows.mapM (fun r => (r.take 3).mapM num), rows.mapM (fun r => r[3]?) with
    | some c, some s => .ok (c, s)
    | none, _ => .error .value
    | _, none => .error .index

/-- `CpmdSCFOutputFile.get_stress`, `parse.py:1280-1284`. -/
def cpmdStress (num : Text → Option K) (out : List Text) : Res (List (List K)) :=
  arr2d num ((lastBlock 3 "TOTAL STRESS TENSOR".toList out).map splitWs)

/-- `CpmdSCFOutputFile.get_etot`, `parse.py:1286-1291`: column 5 of the last line with the key. -/
def cpmdEtot (num : Text → Option K) (out : List Text) : Res K :=
  floatTxt num ((tailN 1 (out.filter (isInfix "TOTAL ENERGY =".toList))).map fun l => ((awk [5] l).headD []))

/-- Matching of `ATOM[ ]+COORDINATES[ ]+GRADIENTS`. -/
def isAtomHead (l : Text) : Bool := hasSpaced ["ATOM".toList, "COORDINATES".toList, "GRADIENTS".toList] l

/-- `_get_coords_forces` and `get_forces`, `parse.py:1228-1246`, `1307-1313`: columns 6 to 8 of the last block. `none` for `None`. -/
def cpmdForces (num : Text → Option K) (natoms : Nat) (out : List Text) : Res (List (List K)) :=
  match arr2d num ((tailN natoms (grepA natoms isAtomHead out 0 false false)).map (awk [3, 4, 5, 6, 7, 8])) with
  | .error e => .error e
  | .ok none => .ok none
  | .ok (some rows) => .ok (some (rows.map (·.drop 3)))

/-- `CpmdSCFOutputFile.get_scf_converged`, `parse.py:1341-1347`. -/
def cpmdConverged (out : List Text) : Bool := !(out.any (isInfix "BUT NO CONVERGENCE".toList))

/-! ## pw.x -/

/-- `PwSCFOutputFile.get_scf_converged`, `parse.py:834-840`. -/
def pwConverged (out : List Text) : Bool := out.any (hasSeq ["convergence has been achieved in".toList, "iterations".toList])

/-! ## CP2K -/

/-- The lines which `sed '1,/p/d'` leaves of the lines which reach the command: the range begins with the first of them, its end is searched
from the next line on. -/
def rangeDel (p : Text → Bool) (ls : List Text) : List Text := (ls.tail.dropWhile fun l => !p l).tail

/-- `/ATOMIC FORCES/`. -/
def isForces (l : Text) : Bool := isInfix "ATOMIC FORCES".toList l
/-- `/Atom\s+Kind\s+Element/`; simplified: `\s` is a blank. -/
def isTableHead (l : Text) : Bool := hasSpaced ["Atom".toList, "Kind".toList, "Element".toList] l
/-- `/SUM OF ATOMIC FORCES/`. -/
def isSum (l : Text) : Bool := isInfix "SUM OF ATOMIC FORCES".toList l

/-- A line of nothing but white space. -/
def blankLine (l : Text) : Bool := l.all isPySpace

/-- `txt.strip()` for the lines of a text: blank lines at both ends are removed (blanks at the ends of the first and last line do not matter for
the words). -/
def stripLines (ls : List Text) : List Text := ((ls.dropWhile blankLine).reverse.dropWhile blankLine).reverse

/-- `_get_natoms_symbols_forces`, `parse.py:1773-1784`. Rows of different lengths raise. -/
def cp2kForces (num : Text → Option K) (out : List Text) : Except PErr (Option (Nat × List Text × List (List K))) :=
  let ls := stripLines ((rangeDel isTableHead (rangeDel isForces out)).takeWhile fun l => !isSum l)
  if ls = [] then .ok none
  else
    let rows := ls.map splitWs
    if rows.all fun r => r.length = (rows.headD []).length then
      match rows.mapM (fun r => r[2]?), rows.mapM (fun r => (r.drop 3).mapM num) with
      | some s, some f => .ok (some (rows.length, s, f))
      | none, _ => .error .index
      | _, none => .error .value
    else .error .value

/-- The text after the last character `c`. -/
def afterLast (c : Char) (l : Text) : Text := (l.reverse.takeWhile (· ≠ c)).reverse

/-- `Cp2kSCFOutputFile.get_etot`, `parse.py:1805-1808`: `sed -nre 's/.*ENERGY.*Total.*energy.*:(.*)/\1/p'`. -/
def cp2kEtot (num : Text → Option K) (out : List Text) : Res K :=
  floatTxt num ((out.filter (hasSeq ["ENERGY".toList, "Total".toList, "energy".toList, ":".toList])).map (afterLast ':'))

/-- `/^[ ]+(X|Y|Z)/`. -/
def isXYZ (l : Text) : Bool :=
  l.head? = some ' ' && (match (l.dropWhile (· = ' ')).head? with
    | some c => c = 'X' || c = 'Y' || c = 'Z'
    | none => false)

/-- `Cp2kSCFOutputFile.get_stress`, `parse.py:1811-1817`. Without a stress tensor `np.array([])[:,1:]` is an `IndexError`. -/
def cp2kStress (num : Text → Option K) (out : List Text) : Except PErr (List (List K)) :=
  let ls := ((grepA 5 (hasSeq ["STRESS TENSOR".toList, "GPa".toList]) out 0 false false).filter fun l => !hasSpaced ["X".toList, "Y".toList, "Z".toList] l).filter isXYZ
  let rows := ls.map splitWs
  if rows = [] then .error .index
  else if rows.all fun r => r.length = (rows.headD []).length then
    match rows.mapM (fun r => (r.drop 1).mapM num) with
    | some v => .ok v
    | none => .error .value
  else .error .value

end Pwtools.Scf
