import Verif.Model.ScfOut
import Verif.Model.PwOut
/-!
# Header of a pw.x output: `PwSCFOutputFile`, and the tables of `PwMDOutputFile` and `PwVCMDOutputFile` (`parse.py`)

Regular expressions of `sed`: `.*` takes as much as possible, so it ends at the last place where the rest of the expression matches.
-/
namespace Pwtools.PwHead
open Gr Scf
variable {K : Type}

/-- All places where the text `w` (not empty) occurs: the text before and after it, from left to right. -/
def occ (w : Text) : Text → List (Text × Text)
  | [] => []
  | c :: t => (if w.isPrefixOf (c :: t) then [([], (c :: t).drop w.length)] else []) ++ (occ w t).map fun p => (c :: p.1, p.2)

/-- The last place where `w` occurs and the rest is accepted by `f`. -/
def lastOcc {β : Type} (w : Text) (f : Text → Text → Option β) (l : Text) : Option β := (occ w l).reverse.findSome? fun p => f p.1 p.2

/-- `egrep -m1 -A<n> p file | tail -n<n>`. Simplified: old versions of `grep` end the context at a line which matches again. -/
def firstBlock (n : Nat) (p : Text → Bool) (file : List Text) : List Text :=
  tailN n ((file.dropWhile fun l => !p l).take (n + 1))

/-- `crystal.*axes.*units.*(a_0|alat)`. -/
def isAxes (l : Text) : Bool :=
  hasSeq ["crystal".toList, "axes".toList, "units".toList, "a_0".toList] l || hasSeq ["crystal".toList, "axes".toList, "units".toList, "alat".toList] l

/-- `_get_cell_2d`, `parse.py:744-756`. -/
def cell2d (num : Text → Option K) (file : List Text) : Res (List (List K)) := arr2d num ((firstBlock 3 isAxes file).map (awk [4, 5, 6]))

/-- `sed -re 's/.*=(.*)\s+a\.u\./\1/'`, `parse.py:769-770`; the line itself where this does not match. -/
def sedAlat (l : Text) : Text :=
  (lastOcc "=".toList (fun _ post => lastOcc "a.u.".toList (fun pre rest =>
    if (pre.getLast?.map isPySpace) = some true then some (pre.dropLast ++ rest) else none) post) l).getD l

/-- `get_alat`, `parse.py:758-773`. -/
def alat [One K] (num : Text → Option K) (useAlat : Bool) (file : List Text) : Res K :=
  if useAlat then floatTxt num (((file.find? (isInfix "lattice parameter".toList)).map sedAlat).toList) else .ok (some 1)

/-- `get_cell`, `parse.py:813-820`; an exception of a getter is passed on. -/
def getCell [One K] [Mul K] (num : Text → Option K) (useAlat : Bool) (file : List Text) : Res (List (List K)) :=
  match cell2d num file with
  | .error e => .error e
  | .ok c => match alat num useAlat file with
    | .error e => .error e
    | .ok a => match c, a with
      | some c, some a => .ok (some (c.map fun r => r.map (· * a)))
      | _, _ => .ok none

/-- `site.*atom.*positions.*units.*\)`. -/
def isSite (l : Text) : Bool := hasSeq ["site".toList, "atom".toList, "positions".toList, "units".toList, ")".toList] l

/-- `sed -re 's/.*\((.*)\)/\1/g'`, `parse.py:735`. -/
def sedParen (l : Text) : Text :=
  (lastOcc ")".toList (fun pre rest => lastOcc "(".toList (fun _ body => some (body ++ rest)) pre) l).getD l

/-- `_get_coords_symbols`, `parse.py:725-742`. Without a number of atoms `'-A%i' % None` is a `TypeError`. -/
def coordsSymbols (num : Text → Option K) (file : List Text) : Except PErr (Option (List (List K)) × List Text) :=
  match PwOut.natoms file with
  | .error e => .error e
  | .ok none => .error .type
  | .ok (some n) => match arr2d num ((firstBlock n isSite file).map fun l => splitWs (sedParen l)) with
    | .error e => .error e
    | .ok c => .ok (c, (firstBlock n isSite file).flatMap (awk [2]))

/-- `get_coords`, `parse.py:775-781`. Without a block of positions `None * alat` is a `TypeError`. -/
def getCoords [One K] [Mul K] (num : Text → Option K) (useAlat : Bool) (file : List Text) : Res (List (List K)) :=
  match coordsSymbols num file with
  | .error e => .error e
  | .ok (c, _) => match alat num useAlat file with
    | .error e => .error e
    | .ok none => .ok none
    | .ok (some a) => match c with
      | some c => .ok (some (c.map fun r => r.map (· * a)))
      | none => .error .type

/-- `get_symbols`, `parse.py:783-788`. -/
def getSymbols (num : Text → Option K) (file : List Text) : Except PErr (List Text) := (coordsSymbols num file).map (·.2)

/-- `sed -re 's/.*points=\s*([0-9]+)\s*.*/\1/'`, `parse.py:830-831`, the group. -/
def sedPoints (l : Text) : Option Text :=
  lastOcc "points=".toList (fun _ rest =>
    let ds := (rest.dropWhile isPySpace).takeWhile Char.isDigit
    if ds = [] then none else some ds) l

/-- `get_nkpoints`, `parse.py:828-832`. If `sed` does not match then the line itself is passed on to `int(...)`. -/
def nkpoints (file : List Text) : Res Nat :=
  match file.find? (isInfix "number of k points=".toList) with
  | none => .ok none
  | some l => match sedPoints l with
    | none => .error .value
    | some ds => match parseInt ds with
      | some i => .ok (some i.toNat)
      | none => .error .value

/-- `_get_nstep_scf_raw`, `parse.py:719-723`. -/
def nstepScfRaw (file : List Text) : Res (List Int) :=
  arr1d parseInt ((file.filter (isInfix "convergence has been achieved in".toList)).map (awk [6]))

/-- `get_nstep_scf`, `parse.py:810-811` with `raw_slice_get(sl=0, axis=0)`, `base.py:288-307`: the first one. -/
def nstepScf (file : List Text) : Res Int :=
  match nstepScfRaw file with
  | .error e => .error e
  | .ok none => .ok none
  | .ok (some v) => match v with
    | x :: _ => .ok (some x)
    | [] => .error .index

/-! ## MD -/

/-- The characters of `regex.float_re`, `regex.py:13`. -/
def floatChar (c : Char) : Bool := c.isDigit || c = '.' || c = 'e' || c = 'E' || c = 'd' || c = 'D' || c = '+' || c = '-'

/-- `sed -re 's/.*alat.*=\s*(FLOAT)\)*.*/\1/g'`, `parse.py:993-994`; the line itself where this does not match. -/
def sedFactor (l : Text) : Text :=
  (lastOcc "=".toList (fun pre rest =>
    let ds := (rest.dropWhile isPySpace).takeWhile floatChar
    if isInfix "alat".toList pre && !ds.isEmpty then some ds else none) l).getD l

/-- `_get_cell_3d_factors`, `parse.py:967-997`. -/
def cellFactors (num : Text → Option K) (useAlat : Bool) (file : List Text) : Res (List K) :=
  if file.any (hasSeq ["CELL_PARAMETERS".toList, "alat".toList, "=".toList]) then
    if useAlat then arr1d num ((file.filter (isInfix "CELL_PARAMETERS".toList)).map fun l => splitWs (sedFactor l)) else .ok none
  else .ok none

/-- `PwVCMDOutputFile._get_datadct`, `parse.py:1141-1152`: one row (ekin, temperature, econst) per line. -/
def dataRows (num : Text → Option K) (file : List Text) : Res (List (List K)) :=
  arr2d num ((file.filter (hasSeq ["Ekin".toList, "T".toList, "Etot".toList])).map (awk [3, 7, 11]))

/-- `get_ekin`, `get_temperature`, `get_econst`, `parse.py:1154-1167`: column 0, 1, 2. `None['ekin']` is a `TypeError`. -/
def vcmdColumn (num : Text → Option K) (j : Nat) (file : List Text) : Except PErr (List K) :=
  match dataRows num file with
  | .error e => .error e
  | .ok none => .error .type
  | .ok (some rows) => match rows.mapM (·[j]?) with
    | some c => .ok c
    | none => .error .index

end Pwtools.PwHead
