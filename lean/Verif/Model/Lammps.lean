import Verif.Model.Grep
import Mathlib.Order.Lattice
import Mathlib.Order.Defs.LinearOrder
import Mathlib.Algebra.Field.Basic
/-!
# Model of `LammpsTextMDOutputFile` in `src/pwtools/parse.py`

Getters as functions of the lines of the dump file and of the log file (both exist). `get_timestep`, missing files and
the `dump_modify ... element` line of the log are in `Model/LammpsRead.lean`.
-/
namespace Pwtools.Lmp
open Pwtools.Gr

def kStep : Text := "ITEM: TIMESTEP".toList
def kNum : Text := "ITEM: NUMBER OF ATOMS".toList
def kBox : Text := "ITEM: BOX BOUNDS".toList
def kAtoms : Text := "ITEM: ATOMS".toList

/-- `grep -A<n> KEY file | egrep -ve '--|ITEM'` (`parse.py:2294-2295`, `2437-2438`). -/
def grepItem (n : Nat) (key : Text) (file : List Text) : List Text :=
  (grepA n (isInfix key) file 0 false false).filter fun l => !isInfix "--".toList l && !isInfix "ITEM".toList l

/-- What follows the last `key` in a text, if there is one. -/
def lastKey (key : Text) : Text → Option Text
  | [] => none
  | c :: cs =>
    match lastKey key cs with
    | some r => some r
    | none => if key.isPrefixOf (c :: cs) then some ((c :: cs).drop key.length) else none

/-- `sed -re 's/.*KEY//'`: what follows the last `KEY`; the line itself if there is none. -/
def afterLast (key : Text) (l : Text) : Text := (lastKey key l).getD l

/-- `get_natoms`, `parse.py:2317-2322`: `grep -A1 -m1 KEY | tail -n1`, then `nstep_from_txt` (`parse.py:167-171`): `0` for an empty text. The
last line printed is the one after the first matching line, or the matching line itself at the end of the file. -/
def natoms (dump : List Text) : Except PErr Nat :=
  match dump.dropWhile (fun l => !isInfix kNum l) with
  | [] => .ok 0
  | l :: rest =>
    match splitWs (rest.headD l) with
    | [] => .ok 0
    | [w] => match parseInt w with
      | some i => .ok i.toNat
      | none => .error .value
    | _ => .error .value

variable {K : Type}

/-- The header of `_get_dump_dct`, `parse.py:2292-2293`. -/
def dumpHeader (dump : List Text) : List Text :=
  match dump.find? (isInfix kAtoms) with
  | none => []
  | some l => splitWs (afterLast "TOMS ".toList l)

/-- `_get_dump_dct`, `parse.py:2287-2301`: the header and the rows of the 2d array; the dict is the lookup in the header. -/
def dumpArr (num : Text → Option K) (dump : List Text) : Except PErr (List Text × List (List K)) :=
  match natoms dump with
  | .error e => .error e
  | .ok na =>
    let nstep := (dump.filter (isInfix kStep)).length
    let header := dumpHeader dump
    let xs := fromString num ((grepItem na kAtoms dump).flatMap splitWs)
    if xs.length = nstep * na * header.length then
      if na = 0 then .error .zeroDiv
      else .ok (header, chunks header.length xs (nstep * na))
    else .error .value

/-- The column a dict lookup finds: the last one with this name (later entries of `dict(...)` replace earlier ones). -/
def column (header : List Text) (key : Text) : Option Nat :=
  ((List.range header.length).filter fun i => header[i]? = some key).getLast?

/-- `_lmp_dump2arr3d(_dump_dct, keys)`, `parse.py:2303-2315`; `junk` is unused filling of the row accessor. -/
def dump3d (junk : K) (num : Text → Option K) (dump : List Text) (kx ky kz : Text) : Res (List (List (List K))) :=
  match dumpArr num dump with
  | .error e => .error e
  | .ok (header, rows) =>
    match natoms dump with
    | .error e => .error e
    | .ok na =>
      match column header kx, column header ky, column header kz with
      | some i, some j, some k =>
        let nstep := rows.length / na
        .ok (some ((List.range nstep).map fun s => ((rows.map fun r => [r.getD i junk, r.getD j junk, r.getD k junk]).drop (s * na)).take na))
      | _, _, _ => .ok none

/-- `get_coords_frac`, `get_coords`, `get_forces`, `get_velocity`, `parse.py:2378-2404`. -/
def coordsFrac (junk : K) (num : Text → Option K) (dump : List Text) := dump3d junk num dump "xsu".toList "ysu".toList "zsu".toList
def coords (junk : K) (num : Text → Option K) (dump : List Text) := dump3d junk num dump "xu".toList "yu".toList "zu".toList
def forces (junk : K) (num : Text → Option K) (dump : List Text) := dump3d junk num dump "fx".toList "fy".toList "fz".toList
def velocity (junk : K) (num : Text → Option K) (dump : List Text) := dump3d junk num dump "vx".toList "vy".toList "vz".toList

/-- The branch of `get_symbols` with `order`, `parse.py:2414-2431`: `revorder[int(ii)]` for the first `natoms` entries of the `type` column; `order`
is the list of items. `toInt` is `int(...)` of a float. A type without symbol is a `KeyError`. -/
def symbols (junk : K) (toInt : K → Int) (num : Text → Option K) (dump : List Text) (order : List (Text × Int)) : Res (List Text) :=
  match dumpArr num dump with
  | .error e => .error e
  | .ok (header, rows) =>
    match natoms dump with
    | .error e => .error e
    | .ok na =>
      match column header "type".toList with
      | none => .ok none
      | some i =>
        match ((rows.map fun r => r.getD i junk).take na).mapM fun t => (order.reverse.find? fun p => p.2 = toInt t).map Prod.fst with
        | some syms => .ok (some syms)
        | none => .error .index

section cell
variable [Field K] [LinearOrder K]

/-- One pass of the loop in `get_cell`, `parse.py:2441-2463`. -/
def boxCell (m : List (List K)) : List (List K) :=
  let a : Nat → Nat → K := fun i j => (m.getD i []).getD j 0
  let xy := a 0 2
  let xz := a 1 2
  let yz := a 2 2
  let xlo := a 0 0 - min (min (min 0 xy) xz) (xy + xz)
  let xhi := a 0 1 - max (max (max 0 xy) xz) (xy + xz)
  let ylo := a 1 0 - min 0 yz
  let yhi := a 1 1 - max 0 yz
  [[xhi - xlo, 0, 0], [xy, yhi - ylo, 0], [xz, yz, a 2 1 - a 2 0]]

/-- `get_cell`, `parse.py:2433-2466`. -/
def cell (num : Text → Option K) (dump : List Text) : Except PErr (List (List (List K))) :=
  let nstep := (dump.filter (isInfix kBox)).length
  let xs := fromString num ((grepItem 3 kBox dump).flatMap splitWs)
  if xs.length = nstep * 3 * 3 then .ok (((chunks 9 xs nstep).map fun c => chunks 3 c 3).map boxCell) else .error .value

end cell

/-! ## the log file -/

/-- `sed -nre '/^Step/,/^Loop/p'`: `on` while in a range. The line that starts a range does not end it. -/
def sedRange : Bool → List Text → List Text
  | _, [] => []
  | false, l :: ls => if "Step".toList.isPrefixOf l then l :: sedRange true ls else sedRange false ls
  | true, l :: ls => l :: sedRange (!"Loop".toList.isPrefixOf l) ls

/-- `_get_thermo_dct`, `parse.py:2255-2285`: header and rows. No data: `arr` is `None` and `arr[:,ii]` a `TypeError` (with a non-empty header); fewer
columns than header entries: an `IndexError`. -/
def thermo (num : Text → Option K) (log : List Text) : Except PErr (List Text × List (List K)) :=
  let header := match log.find? (isInfix "Step".toList) with
    | none => []
    | some l => splitWs l
  let lines := (sedRange false log).filter fun l => !isInfix "Step".toList l && !isInfix "Loop".toList l
  match arr2d num (lines.map splitWs) with
  | .error e => .error e
  | .ok none => if header = [] then .ok ([], []) else .error .type
  | .ok (some rows) => if header.length ≤ (rows.headD []).length then .ok (header, rows) else .error .index

/-- `_get_from_dct(_thermo_dct, key)`, `parse.py:2240-2245`: `get_etot` (`PotEng`), `get_ekin` (`KinEng`), `get_temperature` (`Temp`), `get_volume`
(`Volume`), `parse.py:2336-2362`. -/
def thermoCol (junk : K) (num : Text → Option K) (log : List Text) (key : Text) : Res (List K) :=
  match thermo num log with
  | .error e => .error e
  | .ok (header, rows) => .ok ((column header key).map fun i => rows.map fun r => r.getD i junk)

def etot (junk : K) (num : Text → Option K) (log : List Text) := thermoCol junk num log "PotEng".toList
def ekin (junk : K) (num : Text → Option K) (log : List Text) := thermoCol junk num log "KinEng".toList
def temperature (junk : K) (num : Text → Option K) (log : List Text) := thermoCol junk num log "Temp".toList
def volume (junk : K) (num : Text → Option K) (log : List Text) := thermoCol junk num log "Volume".toList

/-- `get_cryst_const`, `parse.py:2364-2376`. -/
def crystConst (junk : K) (num : Text → Option K) (log : List Text) : Res (List (List K)) :=
  match thermo num log with
  | .error e => .error e
  | .ok (header, rows) =>
    match ["Cella", "Cellb", "Cellc", "CellAlpha", "CellBeta", "CellGamma"].mapM fun k => column header k.toList with
    | none => .ok none
    | some cols => .ok (some (rows.map fun r => cols.map fun i => r.getD i junk))

/-- `get_stress`, `parse.py:2324-2334`, with `crys.voigt2tensor3d` (`crys.py:3405-3429`). -/
def stress (junk : K) (num : Text → Option K) (log : List Text) : Res (List (List (List K))) :=
  match thermo num log with
  | .error e => .error e
  | .ok (header, rows) =>
    match ["Pxx", "Pyy", "Pzz", "Pyz", "Pxz", "Pxy"].mapM fun k => column header k.toList with
    | none => .ok none
    | some cols => .ok (some (rows.map fun r =>
        let v : Nat → K := fun n => r.getD (cols.getD n 0) junk
        [[v 0, v 5, v 4], [v 5, v 1, v 3], [v 4, v 3, v 2]]))

end Pwtools.Lmp
