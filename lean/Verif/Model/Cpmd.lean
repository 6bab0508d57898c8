import Verif.Model.Cp2k
/-!
# Model of `CpmdMDOutputFile` (and `get_natoms` of `CpmdSCFOutputFile`) in `src/pwtools/parse.py`

The getters as functions of the lines of the files they read (which exist). Not modelled: the main output file, `GEOMETRY.scale`.
-/
namespace Pwtools.Cpmd
open Pwtools.Gr

variable {K : Type}

/-- Exceptions: those of `PErr` and `Exception("only ... columns supported")`. -/
inductive CErr where
  | py (e : PErr) | columns
  deriving DecidableEq, Repr

/-- `self._energies_order`, `parse.py:1494-1521`: position to name. -/
def energiesOrder (ncols : Nat) : Option (List String) :=
  if ncols = 9 then some ["nfi", "ekinc", "ekinh", "tempp", "eks", "eclassic", "eham", "dis", "tcpu"]
  else if ncols = 8 then some ["nfi", "ekinc", "tempp", "eks", "eclassic", "eham", "dis", "tcpu"]
  else if ncols = 6 then some ["nfi", "tempp", "eks", "eclassic", "dis", "tcpu"]
  else none

/-- `arr.shape[-1]` of the array that `np.loadtxt` makes of the rows. -/
def lastDim (rows : List (List K)) : Nat :=
  let n := rows.length
  let m := (rows.headD []).length
  if n = 0 then 0 else if m = 1 then n else m

/-- `_get_energies_file`, `parse.py:1523-1540`: the dict, as names and columns. For a 1d array `arr[:,idx]` is an `IndexError`. -/
def energiesFile (junk : K) (num : Text → Option K) (file : List Text) : Except CErr (List (String × List K)) :=
  match Cp2k.loadtxt num file with
  | .error e => .error (.py e)
  | .ok rows =>
    match energiesOrder (lastDim rows) with
    | none => .error .columns
    | some order =>
      if Cp2k.is2d rows then .ok ((order.zip (List.range order.length)).map fun p => (p.1, rows.map fun r => r.getD p.2 junk))
      else .error (.py .index)

/-- A lookup in this dict. -/
def energy (junk : K) (num : Text → Option K) (file : List Text) (key : String) : Except CErr (Option (List K)) :=
  match energiesFile junk num file with
  | .error e => .error e
  | .ok dct => .ok (dct.lookup key)

/-- `get_ekin`, `get_etot`, `get_temperature`, `parse.py:1591-1595`, `1652-1658`, `1717-1723`. -/
def ekin (junk : K) (num : Text → Option K) (file : List Text) := energy junk num file "eclassic"
def etot (junk : K) (num : Text → Option K) (file : List Text) := energy junk num file "eks"
def temperature (junk : K) (num : Text → Option K) (file : List Text) := energy junk num file "tempp"
/-- `get_ekin_elec`, `get_ekin_cell`, `parse.py:1642-1650`, `1660-1683`. -/
def ekinElec (junk : K) (num : Text → Option K) (file : List Text) := energy junk num file "ekinc"
def ekinCell (junk : K) (num : Text → Option K) (file : List Text) := energy junk num file "ekinh"

/-- `get_econst`, `parse.py:1629-1640`. -/
def econst (junk : K) (num : Text → Option K) (file : List Text) : Except CErr (Option (List K)) :=
  match energy junk num file "eham" with
  | .error e => .error e
  | .ok (some x) => .ok (some x)
  | .ok none => etot junk num file

/-! ## TRAJECTORY, FTRAJECTORY -/

/-- What `np.loadtxt(..., comments='<<<<')` keeps of a line. -/
def cutMark : Text → Text
  | [] => []
  | c :: cs => if "<<<<".toList.isPrefixOf (c :: cs) then [] else c :: cutMark cs

structure Traj (K : Type) where
  coords : List (List (List K))
  velocity : List (List (List K))
  forces : Option (List (List (List K)))
  deriving DecidableEq

/-- `_get_coords_vel_forces`, `parse.py:1542-1589`, with `arrayio.readtxt` (`arrayio.py:134-246`, `axis=0`): an empty array if the first 20 lines hold
neither data nor a mark; `AssertionError` if the array is not 2d or has the wrong shape. `ftraj`: the file is `FTRAJECTORY`. -/
def trajectory (junk : K) (num : Text → Option K) (natoms : Nat) (ftraj : Bool) (file : List Text) : Except PErr (Traj K) :=
  let ncols := if ftraj then 10 else 7
  let nlines := (file.filter fun l => !isInfix "<<<<".toList l).length
  if natoms = 0 then .error .zeroDiv
  else if nlines % natoms ≠ 0 then .error .assertion
  else
    let nstep := nlines / natoms
    if (file.take 20).all (fun l => splitWs l = [] || ((l.dropWhile isPySpace).head? = some '#')) then
      .ok ⟨[], [], if ftraj then some [] else none⟩
    else match loadRows num (file.map fun l => splitWs (cutMark l)) with
      | .error e => .error e
      | .ok rows =>
        if Cp2k.is2d rows && rows.length = natoms * nstep && (rows.headD []).length = ncols then
          let part := fun (a : Nat) => (List.range nstep).map fun s => ((rows.drop (s * natoms)).take natoms).map fun r =>
            [r.getD a junk, r.getD (a + 1) junk, r.getD (a + 2) junk]
          .ok ⟨part 1, part 4, if ftraj then some (part 7) else none⟩
        else .error .assertion

/-! ## CELL, STRESS -/

/-- `get_cell`, `parse.py:1597-1619`, with the file `CELL`: the number of columns is that of the second line; the first three columns. -/
def cell (num : Text → Option K) (file : List Text) : Except PErr (List (List (List K))) :=
  let key := "CELL PARAMETERS".toList
  let ncols := (splitWs ((file.take 2).getLastD [])).length
  let nstep := (file.filter (isInfix key)).length
  let lines := (grepA 3 (isInfix key) file 0 false false).filter fun l => !isInfix "CELL".toList l
  match trajFromTxt num (lines.flatMap splitWs) nstep 3 ncols with
  | .error e => .error e
  | .ok none => .error .type
  | .ok (some arr) => .ok (arr.map fun m => m.map fun r => r.take 3)

/-- `get_stress`, `parse.py:1703-1715`, with the file `STRESS`. -/
def stress (num : Text → Option K) (file : List Text) : Res (List (List (List K))) :=
  let nstep := (file.filter (isInfix "TOTAL STRESS".toList)).length
  let lines := (grepA 3 (isInfix "TOTAL STRESS TENSOR".toList) file 0 false false).filter fun l => !isInfix "TOTAL".toList l
  trajFromTxt num (lines.flatMap splitWs) nstep 3 3

/-! ## GEOMETRY -/

/-- The number of places where a blank follows a digit. -/
def digitBlank : Text → Nat
  | c :: d :: cs => (if c.isDigit && d = ' ' then 1 else 0) + digitBlank (d :: cs)
  | _ => 0

/-- `get_natoms`, `parse.py:1315-1327`: the number of lines which match `([0-9][ ]+.*){5,}`, i.e. with at least five such places. -/
def natoms (file : List Text) : Nat := (file.filter fun l => 5 ≤ digitBlank l).length

end Pwtools.Cpmd
