import Verif.Model.CpmdRead
import Verif.Model.PwRead
/-!
# `io.read_cpmd_scf`: from the files of a CPMD single point calculation to a `Structure` (`io.py`, `parse.py`, `crys.py`)
-/
namespace Pwtools.CpmdScfRead
open Gr Tr Units PwRead Cpmd

/-- The files of a calculation: the output file, `GEOMETRY` and `GEOMETRY.scale` in its directory if they exist. -/
structure Files where
  out : List Text
  geometry : Option (List Text)
  scale : Option (List Text)

variable {K : Type}

/-- `int_from_txt`, `parse.py:155-159`, on the lines of a text: nothing is `None`, more than one word is a `ValueError`. -/
def intTxt (lines : List Text) : Res Int :=
  match lines.flatMap splitWs with
  | [] => .ok none
  | [w] => match parseInt w with
    | some x => .ok (some x)
    | none => .error .value
  | _ => .error .value

/-- `sed -re 's/.*COORDINATES\):\s*([0-9]+)\s*.*/\1/'`: the digits after the last `COORDINATES):` which has some behind it; the line itself where there is
none. -/
def sedPoints (l : Text) : Text :=
  (PwHead.lastOcc "COORDINATES):".toList (fun _ t => match (t.dropWhile isPySpace).takeWhile Char.isDigit with
    | [] => none
    | ds => some ds) l).getD l

/-- `get_nkpoints`, `parse.py:1329-1333`: all lines with the text. -/
def nkpoints (out : List Text) : Res Int := intTxt ((out.filter (isInfix "NUMBER OF SPECIAL K POINTS".toList)).map sedPoints)

/-- `grep -B2 p file | head -n1`: two lines before the first line which matches (or the first line of the file). -/
def before2 (p : Text → Bool) (out : List Text) : List Text :=
  match out.dropWhile fun l => !p l with
  | [] => []
  | hd :: _ =>
    let pre := out.takeWhile fun l => !p l
    ((pre ++ [hd]).drop (pre.length - 2)).take 1

/-- `get_nstep_scf`, `parse.py:1335-1339`. -/
def nstepScf (out : List Text) : Res Int :=
  intTxt ((before2 (isInfix "RESTART INFORMATION WRITTEN".toList) out).map fun l => (awk [1] l).headD [])

/-- `get_natoms`, `parse.py:1315-1327`. -/
def natoms (fs : Files) : Option Nat := fs.geometry.map Cpmd.natoms

/-- `_get_scale_file`, `parse.py:1248-1264`: first the cell, then `assert_set_attr('natoms')`, then the atoms. -/
def scaleFile (num : Text → Option K) (fs : Files) : Res (CpmdRead.ScaleFile K) :=
  match fs.scale with
  | none => .ok none
  | some f =>
    (Scf.scaleCell num f).bind fun cell =>
    match natoms fs with
    | none => .error .assertion
    | some n => (Scf.scaleAtoms num n f).bind fun a => .ok (some ⟨cell, a.1, a.2⟩)

/-- `get_forces`, `parse.py:1307-1313`, with `_get_coords_forces`, `parse.py:1228-1246`: nothing without the number of atoms. -/
def getForces (num : Text → Option K) (fs : Files) : Res (List (List K)) :=
  match natoms fs with
  | none => .ok none
  | some n => Scf.cpmdForces num n fs.out

/-- `parse()`, `parse.py:275-277`: all getters of `attr_lst`, `parse.py:1214-1225`, in this order; the first exception ends it. The value is what
`get_cont` copies: the attributes which are also attributes of a `Structure` (not `nkpoints`, `nstep_scf`, `scf_converged`). -/
def parse (num : Text → Option K) (fs : Files) : Except PErr (UAttr → Option (Val K)) :=
  (scaleFile num fs).bind fun sf =>
  (Scf.cpmdStress num fs.out).bind fun stress =>
  (Scf.cpmdEtot num fs.out).bind fun etot =>
  (getForces num fs).bind fun forces =>
  (nkpoints fs.out).bind fun _ =>
  (nstepScf fs.out).bind fun _ =>
  .ok fun
    | .cell => (sf.bind CpmdRead.ScaleFile.cell).map .mat
    | .stress => stress.map .mat
    | .etot => etot.map .num
    | .forces => forces.map .mat
    | .other n => if n = "coords_frac" then sf.map fun s => .mat s.coordsFrac
        else if n = "symbols" then sf.map fun s => .words s.symbols
        else if n = "natoms" then (natoms fs).map .nat else none
    | _ => none

/-- `np.dot(coords_frac, cell)`. -/
def dot [Zero K] [Add K] [Mul K] (f c : List (List K)) : List (List K) :=
  f.map fun r => (List.range 3).map fun j => ((List.range r.length).map fun i => r.getD i 0 * (c.getD i []).getD j 0).sum

/-- `Structure.get_coords`, `crys.py:2588-2596`. Simplified: `cell` has been set (it is set before, or computed from `cryst_const`). -/
def getCoords [Zero K] [Add K] [Mul K] (o : UObj K (Val K)) : Option (Val K) :=
  match o.attr .coords with
  | some v => some v
  | none => match o.attr (.other "coords_frac"), o.attr .cell with
    | some (.mat f), some (.mat c) => some (.mat (dot f c))
    | _, _ => none

/-- `io.read_cpmd_scf(filename, units=user)`, `io.py:401-404`, after the parsers `hist` were created. `g`: the getters of the container. -/
def readCpmdScf [Field K] [DecidableEq K] (c : Consts K) (hist : List (Kind × UDict K)) (user : UDict K) (g : Getters K (Val K))
    (num : Text → Option K) (fs : Files) : Except (PErr ⊕ Err) (UObj K (Val K)) :=
  match parse num fs with
  | .error e => .error (.inl e)
  | .ok attrs => match (Parser.init attrs none (create c (after c hist) .cpmdScf user).2).getCont g with
    | .error e => .error (.inr e)
    | .ok (st, _) => .ok st

end Pwtools.CpmdScfRead
