import Verif.Model.Grep
/-!
# Model of `bin/cut-cp2k.sh` and `bin/cut-cpmd.sh`

A file is the list of its lines. Options, the check of the arguments, the backup copies (`sed -i.bak`) and the lookup of the step in the
restart file are left out.
-/
namespace Pwtools.Cut
open Pwtools.Gr

/-- `sed -re '/p/,$d'`: the first matching line and everything after it are deleted. -/
def sedCut (p : Text → Bool) (file : List Text) : List Text := file.takeWhile fun l => !p l

/-- `^\s+<step>\s`, `cut-cp2k.sh:114` and `cut-cpmd.sh:105`, `107`, `108` (`^\s+<step>\s+` matches the same lines). -/
def lineRe (step : Nat) (l : Text) : Bool :=
  let r := l.dropWhile isPySpace
  (l.takeWhile isPySpace != []) && (strNat step).isPrefixOf r && ((r.drop (strNat step).length).head?.any isPySpace)

/-- `i =\s+<step>,\s+` at the start of a text. -/
def xyzReAt (step : Nat) (t : Text) : Bool :=
  let r := t.drop 3
  let d := r.dropWhile isPySpace
  "i =".toList.isPrefixOf t && (r.takeWhile isPySpace != []) && (strNat step ++ [',']).isPrefixOf d &&
    ((d.drop (strNat step ++ [',']).length).head?.any isPySpace)

/-- `i =\s+<step>,\s+` anywhere in a line, `cut-cp2k.sh:125`. -/
def xyzRe (step : Nat) (l : Text) : Bool := l.tails.any (xyzReAt step)

/-- `[ ]+<natoms>[ ]*$`, `cut-cp2k.sh:126`. -/
def countRe (natoms : Text) (l : Text) : Bool := l.tails.any fun t =>
  (t.head? = some ' ') && (natoms.isPrefixOf (t.dropWhile (· = ' '))) && ((t.dropWhile (· = ' ')).drop natoms.length).all (· = ' ')

/-- `natoms=$(head -n1 $file_pos | tr -d ' ')`, `cut-cp2k.sh:120`. -/
def natomsText (pos : List Text) : Text := (pos.headD []).filter (· ≠ ' ')

/-- The files with one line per step, `cut-cp2k.sh:112-118`. -/
def cp2kLines (step : Nat) (file : List Text) : List Text := sedCut (lineRe step) file

/-- The `xyz` files, `cut-cp2k.sh:120-132`. The last line is deleted if it contains only the number of atoms. -/
def cp2kXyz (natoms : Text) (step : Nat) (file : List Text) : List Text :=
  let f := sedCut (xyzRe step) file
  match f.getLast? with
  | none => f
  | some l => if countRe natoms l then f.dropLast else f

/-- `CELL` and `STRESS`, `cut-cpmd.sh:104`, `106`, with `key` = `CELL PARAMETERS`, `TOTAL STRESS`. -/
def cpmdHeader (key : Text) (step : Nat) (file : List Text) : List Text := sedCut (hasSeq [key, "Step".toList, strNat step]) file

/-- `ENERGIES`, `TRAJECTORY`, `FTRAJECTORY`, `cut-cpmd.sh:105`, `107`, `108`. -/
def cpmdLines (step : Nat) (file : List Text) : List Text := sedCut (lineRe step) file

/-- `^\s+STEP:\s+<step>.*`, `cut-cpmd.sh:109`. -/
def stepRe (step : Nat) (l : Text) : Bool :=
  let r := l.dropWhile isPySpace
  let d := r.drop 5
  (l.takeWhile isPySpace != []) && "STEP:".toList.isPrefixOf r && (d.takeWhile isPySpace != []) &&
    (strNat step).isPrefixOf (d.dropWhile isPySpace)

/-- `TRAJEC.xyz`, `cut-cpmd.sh:109-110`: the second command deletes the last line. -/
def cpmdXyz (step : Nat) (file : List Text) : List Text := (sedCut (stepRe step) file).dropLast

end Pwtools.Cut
