import Verif.Model.Grep
import Mathlib.Algebra.Field.Basic
/-!
# Model of `PwSCFOutputFile` and `PwMDOutputFile` in `src/pwtools/parse.py`

Getters as functions of the lines of the output file. The caching of attributes (`check_set_attr`) is left out: getters are
functions of the file, so a cached value equals a recomputed one (C09-C11 are about the caching). Not modelled: `alat`,
`_cell_2d` and `_cell_3d_factors` (single numbers of the file header, cut out with `sed`), which are parameters here.
-/
namespace Pwtools.PwOut
open Pwtools.Gr

def kPos : Text := "ATOMIC_POSITIONS".toList
def kCell : Text := "CELL_PARAMETERS".toList
def kStress : Text := "P=".toList

/-- `^!` (`parse.py:688`). -/
def isEnergy (l : Text) : Bool := l.head? = some '!'
/-- `Forces[ ]+acting[ ]+on[ ]+atoms.*$` (`parse.py:696-697`). -/
def isForceHead (l : Text) : Bool := hasSpaced ["Forces".toList, "acting".toList, "on".toList, "atoms".toList] l
/-- `atom.*type.*force` (`parse.py:703`). -/
def isForce (l : Text) : Bool := hasSeq ["atom".toList, "type".toList, "force".toList] l
/-- `number.*atoms/cell` (`parse.py:824`). -/
def isNatoms (l : Text) : Bool := hasSeq ["number".toList, "atoms/cell".toList] l

/-- `sed -re 's/.*=\s+([0-9]+).*/\1/'` (`parse.py:825`), the group: `.*` is greedy, so the last `=` that is followed by white space and
a digit counts. `none` if the expression does not match. -/
def sedNat : Text → Option Text
  | [] => none
  | c :: cs =>
    match sedNat cs with
    | some r => some r
    | none =>
      if c = '=' then
        let rest := cs.dropWhile isPySpace
        let ds := rest.takeWhile Char.isDigit
        if (cs.head?.map isPySpace) = some true ∧ ds ≠ [] then some ds else none
      else none

/-- `get_natoms`, `parse.py:822-826`. If `sed` does not match then the line itself is passed on to `int(...)`. -/
def natoms (file : List Text) : Res Nat :=
  match file.find? isNatoms with
  | none => .ok none
  | some l => match sedNat l with
    | none => .error .value
    | some ds => match parseInt ds with
      | some i => .ok (some i.toNat)
      | none => .error .value

variable {K : Type}

/-- `_get_stress_raw`, `parse.py:671-684`. -/
def stressRaw (num : Text → Option K) (file : List Text) : Res (List (List (List K))) :=
  let nstep := (file.filter (isInfix kStress)).length
  if nstep > 0 then trajFromTxt num ((grepAfter 3 kStress file).flatMap (awk [4, 5, 6])) nstep 3 3 else .ok none

/-- `_get_etot_raw`, `parse.py:686-689`. -/
def etotRaw (num : Text → Option K) (file : List Text) : Res (List K) := arr1d num ((file.filter isEnergy).map (awk [5]))

/-- `_get_forces_raw`, `parse.py:691-717`, with `arr2d_to_3d` (`arrayio.py:208-246`) for `axis=0`. -/
def forcesRaw (num : Text → Option K) (file : List Text) : Res (List (List (List K))) :=
  match natoms file with
  | .error e => .error e
  | .ok none => .ok none
  | .ok (some na) =>
    let nstep := (file.filter isForceHead).length
    if nstep > 0 then
      match arr2d num ((file.filter isForce).map (awk [7, 8, 9])) with
      | .error e => .error e
      | .ok none => .error .attr
      | .ok (some arr) =>
        let nblock := arr.length / nstep
        if na = 0 then .error .zeroDiv
        else if nblock % na ≠ 0 then .error .assertion
        else if arr.length = nblock * nstep ∧ (arr.headD []).length = 3 then
          .ok (some ((List.range nstep).map fun i => (arr.drop (i * nblock)).take nblock))
        else .error .assertion
    else .ok none

/-- `PwMDOutputFile._get_coords`, `parse.py:928-947`. -/
def coordsRaw (num : Text → Option K) (file : List Text) : Res (List (List (List K))) :=
  match natoms file with
  | .error e => .error e
  | .ok none => .ok none
  | .ok (some na) =>
    trajFromTxt num ((grepAfter na kPos file).flatMap (awk [2, 3, 4])) (file.filter (isInfix kPos)).length na 3

/-- `PwMDOutputFile._get_cell_3d`, `parse.py:949-965`. -/
def cell3d (num : Text → Option K) (file : List Text) : Res (List (List (List K))) :=
  trajFromTxt num ((grepAfter 3 kCell file).flatMap splitWs) (file.filter (isInfix kCell)).length 3 3

/-- `PwMDOutputFile._match_nstep`, `parse.py:999-1017`; `slicetake(arr, slice(-nstep,None,None))`. -/
def matchNstep {A : Type} (coords : Res (List (List (List K)))) (arr : Option (List A)) : Res (List A) :=
  match arr with
  | none => .ok none
  | some a => match coords with
    | .error e => .error e
    | .ok none => .ok none
    | .ok (some c) =>
      let nstep := c.length
      if a.length > nstep then .ok (some (if nstep = 0 then a else a.drop (a.length - nstep))) else .ok (some a)

/-- `PwMDOutputFile.get_stress`, `parse.py:1115-1117`. -/
def getStress (num : Text → Option K) (file : List Text) : Res (List (List (List K))) :=
  match stressRaw num file with
  | .error e => .error e
  | .ok s => matchNstep (coordsRaw num file) s

/-- `PwMDOutputFile.get_etot`, `parse.py:1119-1121`. -/
def getEtot (num : Text → Option K) (file : List Text) : Res (List K) :=
  match etotRaw num file with
  | .error e => .error e
  | .ok s => matchNstep (coordsRaw num file) s

/-- `PwMDOutputFile.get_forces`, `parse.py:1123-1129`: `forces[:,:self.natoms,:]`, a `TypeError` if `forces` is `None`. -/
def getForces (num : Text → Option K) (file : List Text) : Res (List (List (List K))) :=
  match natoms file with
  | .error e => .error e
  | .ok none => .ok none
  | .ok (some na) =>
    match forcesRaw num file with
    | .error e => .error e
    | .ok s => match matchNstep (coordsRaw num file) s with
      | .error e => .error e
      | .ok none => .error .type
      | .ok (some f) => .ok (some (f.map fun x => x.take na))

/-- `PwMDOutputFile._get_block_header_unit`, `parse.py:900-926`. -/
def headerUnit (key : Text) (file : List Text) : Option Text :=
  match file.find? (isInfix key) with
  | none => none
  | some l =>
    match splitWs (l.filter fun c => c ≠ '(' ∧ c ≠ ')' ∧ c ≠ '{' ∧ c ≠ '}') with
    | _ :: u :: _ => some (u.takeWhile (· ≠ '='))
    | _ => none

section units
variable [Field K]

/-- An array times a number. -/
def scale (s : K) (a : List (List (List K))) : List (List (List K)) := a.map fun m => m.map fun r => r.map (· * s)

/-- `PwMDOutputFile.get_coords`, `parse.py:1027-1040`: `check_set_attr_lst` fails if any of the three attributes is `None`, so the test
for `None` in the first branch never succeeds. -/
def getCoords (num : Text → Option K) (ang bohr : K) (alat : Option K) (file : List Text) : Res (List (List (List K))) :=
  match coordsRaw num file with
  | .error e => .error e
  | .ok c => match c, headerUnit kPos file, alat with
    | some c, some u, some a =>
      if u = "bohr".toList then .ok (some c)
      else if u = "alat".toList then .ok (some (scale a c))
      else if u = "angstrom".toList then .ok (some (scale (1 / bohr) (scale ang c)))
      else .ok none
    | _, _, _ => .ok none

/-- `PwMDOutputFile.get_coords_frac`, `parse.py:1084-1092`. -/
def getCoordsFrac (num : Text → Option K) (file : List Text) : Res (List (List (List K))) :=
  match coordsRaw num file with
  | .error e => .error e
  | .ok c => match c, headerUnit kPos file with
    | some c, some u => if u = "crystal".toList then .ok (some c) else .ok none
    | _, _ => .ok none

/-- What `get_cell` returns: one cell per step, or the start cell. -/
inductive CellRes (K : Type) where
  | steps (c : List (List (List K)))
  | start (c : List (List K))

/-- `_cell_3d * _cell_3d_factors[:,None,None]`. Simplified: a length mismatch is an error also where one length is 1. -/
def scaleSteps (f : List K) (c : List (List (List K))) : Res (CellRes K) :=
  if f.length = c.length then .ok (some (.steps (List.zipWith (fun s m => m.map fun r => r.map (· * s)) f c))) else .error .value

/-- `PwMDOutputFile.get_cell`, `parse.py:1042-1082`; `factors` is `_cell_3d_factors`, `cell2d` is `_cell_2d`. -/
def getCell (num : Text → Option K) (ang bohr : K) (alat : Option K) (factors : Option (List K)) (cell2d : Option (List (List K)))
    (file : List Text) : Res (CellRes K) :=
  match cell3d num file with
  | .error e => .error e
  | .ok (some c) =>
    match headerUnit kCell file with
    | some u =>
      if u = "bohr".toList then .ok (some (.steps c))
      else if u = "alat".toList then
        match factors, alat with
        | some f, _ => scaleSteps f c
        | none, some a => .ok (some (.steps (scale a c)))
        | none, none => .ok none
      else if u = "angstrom".toList then .ok (some (.steps (scale (1 / bohr) (scale ang c))))
      else .ok none
    | none => match alat with
      | some a => .ok (some (.steps (scale a c)))
      | none => .ok none
  | .ok none => match cell2d, alat with
    | some c2, some a => .ok (some (.start (c2.map fun r => r.map (· * a))))
    | _, _ => .ok none

end units

end Pwtools.PwOut
