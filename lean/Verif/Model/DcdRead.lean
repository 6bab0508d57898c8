import Verif.Model.Cp2kRead
import Verif.Model.LammpsRead
import Verif.Model.Dcd
import Verif.Model.Cell
/-!
# `io.read_cp2k_md_dcd`, `io.read_lammps_md_dcd`: from a dcd file and text files to a `Trajectory` (`io.py`, `parse.py`, `dcd.py`, `crys.py`)
-/
namespace Pwtools.DcdRead
open Gr Tr Units PwMd ReadMd

/-- Exceptions of the text parsers and of the dcd reader. -/
inductive RErr where
  | parser (e : PErr)
  | dcd (e : Dcd.DErr)
  deriving DecidableEq, Repr

/-- How numbers are read from bytes: 8 byte and 4 byte floats, and the conversion of a cosine to an angle in degrees (`dcd.py:223`). -/
structure Fmt (K : Type) where
  f8 : Dcd.Bytes → K
  f4 : Dcd.Bytes → K
  acos : K → K

variable {K : Type}

/-- The dict of `_get_dcd_data`. -/
structure Data (K : Type) where
  cc : List (List K)
  coords : List (List (List K))
  natoms : Nat

/-- `DcdOutputFile._get_dcd_data`, `parse.py:2051-2060`. Not modelled: the entries `nstep` and `timestep`, which no attribute of the list uses. -/
def dcdData (m : Fmt K) (convang : Bool) (file : Option Dcd.Bytes) : Except RErr (Option (Data K)) :=
  match file with
  | none => .ok none
  | some b =>
    match Dcd.readFast m.f8 m.f4 m.acos b convang with
    | .error e => .error (.dcd e)
    | .ok steps => match Dcd.readNatoms b with
      | .error e => .error (.dcd e)
      | .ok (n, _) => .ok (some ⟨steps.map fun s => s.crystConst, steps.map fun s => s.coords.map fun p => [p.1, p.2.1, p.2.2], n.toNat⟩)

/-- Exceptions of the text parsers. -/
def lift {A : Type} (x : Except PErr A) : Except RErr A := match x with
  | .error e => .error (.parser e)
  | .ok v => .ok v

/-! ## CP2K -/

/-- The text files of `Cp2kMDOutputFile`, and `PROJECT-pos-1.dcd` if it exists. -/
structure Cp2kFiles where
  txt : Cp2kRead.Files
  dcd : Option Dcd.Bytes

/-- `get_forces`, `parse.py:1934-1939`, with the number of atoms of the dcd file. -/
def cp2kForces (num : Text → Option K) (na : Option Nat) (fs : Cp2kRead.Files) : Res (List (List (List K))) :=
  match fs.frc with
  | some f => (Cp2k.xyz2arr num f).map some
  | none => Cp2kOut.forcesOf num (na.map fun n => (n : Int)) fs.out

/-- `parse()` of `Cp2kDcdMDOutputFile`: the getters of `attr_lst`, `parse.py:2105-2118`, in this order; those of `DcdOutputFile` (`parse.py:2062-2094`) come first in
the method resolution order. The first exception ends it. The value is what `get_cont` copies (not `econst`), and the crystallographic constants. -/
def parseCp2k (m : Fmt K) (junk : K) (num : Text → Option K) (fs : Cp2kFiles) : Except RErr ((UAttr → Option (Val K)) × Option (CC K)) :=
  (dcdData m false fs.dcd).bind fun d =>
  (lift (Cp2kRead.ifExists fs.txt.ener (Cp2k.econst junk num))).bind fun _ =>
  (lift (Cp2kRead.ifExists fs.txt.ener (Cp2k.ekin junk num))).bind fun ekin =>
  (lift (Cp2kRead.ifExists fs.txt.ener (Cp2k.etot junk num))).bind fun etot =>
  (lift (cp2kForces num (d.map Data.natoms) fs.txt)).bind fun frc =>
  (lift (Cp2kRead.ifExists fs.txt.stress (Cp2k.stress junk num))).bind fun stress =>
  (lift (Cp2kRead.ifExists fs.txt.ener (Cp2k.temperature junk num))).bind fun temperature =>
  (lift (Cp2kOut.timestep num fs.txt.out)).bind fun timestep =>
  (lift (Cp2kRead.ifExists fs.txt.vel (Cp2k.xyz2arr num))).bind fun velocity =>
  .ok (fun
    | .coords => d.map fun d => .arr d.coords
    | .ekin => ekin.map .vec
    | .etot => etot.map .vec
    | .forces => frc.map .arr
    | .stress => stress.map .arr
    | .temperature => temperature.map .vec
    | .timestep => timestep.map .num
    | .velocity => velocity.map .arr
    | .other n => if n = "symbols" then (Cp2kRead.symbols (d.map Data.natoms) fs.txt).map .words
        else if n = "natoms" then d.map fun d => .nat d.natoms else none
    | _ => none, d.map fun d => .many d.cc)

/-- `io.read_cp2k_md_dcd(filename, units=user)`, `io.py:417-420`, after the parsers `hist` were created. -/
def readCp2kMdDcd [Field K] [DecidableEq K] (c : Consts K) (hist : List (Kind × UDict K)) (user : UDict K) (g : Getters K (Val K)) (m : Fmt K) (junk : K)
    (num : Text → Option K) (fs : Cp2kFiles) : Except (RErr ⊕ Err) (UObj K (Val K)) :=
  match parseCp2k m junk num fs with
  | .error e => .error (.inl e)
  | .ok (attrs, cc) => match toTraj c hist .cp2kDcd user g attrs cc with
    | .error e => .error (.inr e)
    | .ok tr => .ok tr

/-! ## LAMMPS -/

/-- The text files of `LammpsTextMDOutputFile`, and `lmp.out.dcd` if it exists. -/
structure LmpFiles where
  txt : LmpRead.Files
  dcd : Option Dcd.Bytes

/-- `_get_dump_dct`, `parse.py:2287-2301`, with the number of atoms of the dcd file. -/
def dumpArr (num : Text → Option K) (na : Nat) (dump : List Text) : Except PErr (List Text × List (List K)) :=
  let nstep := (dump.filter (isInfix Lmp.kStep)).length
  let header := Lmp.dumpHeader dump
  let xs := fromString num ((Lmp.grepItem na Lmp.kAtoms dump).flatMap splitWs)
  if xs.length = nstep * na * header.length then
    if na = 0 then .error .zeroDiv else .ok (header, chunks header.length xs (nstep * na))
  else .error .value

/-- `get_symbols`, `parse.py:2414-2431`, with the number of atoms of the dcd file; `order` is the list of items of the keyword `order`. -/
def lmpSymbols (junk : K) (toInt : K → Int) (num : Text → Option K) (order : Option (List (Text × Int))) (na : Option Nat) (fs : LmpRead.Files) :
    Res (List Text) :=
  match fs.symbols with
  | some t => .ok (some (splitWs t))
  | none =>
    match na, fs.dump with
    | some n, some dump =>
      match dumpArr num n dump with
      | .error e => .error e
      | .ok (header, rows) =>
        match Lmp.column header "type".toList with
        | none => .ok none
        | some i =>
          match ((rows.map fun r => r.getD i junk).take n).mapM fun t =>
              ((order.getD (LmpRead.elementOrder fs.log)).reverse.find? fun p => p.2 = toInt t).map Prod.fst with
          | some syms => .ok (some syms)
          | none => .error .index
    | _, _ => .ok none

/-- `parse()` of `LammpsDcdMDOutputFile`: the getters of `attr_lst`, `parse.py:2487-2498`, in this order; `get_volume` of `DcdOutputFile` returns `None`. -/
def parseLmp (m : Fmt K) (junk : K) (toInt : K → Int) (num : Text → Option K) (order : Option (List (Text × Int))) (fs : LmpFiles) :
    Except RErr ((UAttr → Option (Val K)) × Option (CC K)) :=
  (dcdData m true fs.dcd).bind fun d =>
  (lift (Lmp.ekin junk num fs.txt.log)).bind fun ekin =>
  (lift (Lmp.etot junk num fs.txt.log)).bind fun etot =>
  (lift (Lmp.stress junk num fs.txt.log)).bind fun stress =>
  (lift (lmpSymbols junk toInt num order (d.map Data.natoms) fs.txt)).bind fun symbols =>
  (lift (Lmp.temperature junk num fs.txt.log)).bind fun temperature =>
  (lift (LmpRead.timestep num fs.txt.log)).bind fun timestep =>
  .ok (fun
    | .coords => d.map fun d => .arr d.coords
    | .ekin => ekin.map .vec
    | .etot => etot.map .vec
    | .stress => stress.map .arr
    | .temperature => temperature.map .vec
    | .timestep => timestep.map .num
    | .other n => if n = "symbols" then symbols.map .words else if n = "natoms" then d.map fun d => .nat d.natoms else none
    | _ => none, d.map fun d => .many d.cc)

/-- `io.read_lammps_md_dcd(filename, order=order, units=user)`, `io.py:429-432`. -/
def readLammpsMdDcd [Field K] [DecidableEq K] (c : Consts K) (hist : List (Kind × UDict K)) (user : UDict K) (g : Getters K (Val K)) (m : Fmt K) (junk : K)
    (toInt : K → Int) (num : Text → Option K) (order : Option (List (Text × Int))) (fs : LmpFiles) : Except (RErr ⊕ Err) (UObj K (Val K)) :=
  match parseLmp m junk toInt num order fs with
  | .error e => .error (.inl e)
  | .ok (attrs, cc) => match toTraj c hist .lammpsDcd user g attrs cc with
    | .error e => .error (.inr e)
    | .ok tr => .ok tr

/-! ## cells of a `Trajectory` -/

/-- `cc2cell` on a row of lattice constants. -/
noncomputable def rowCell (r : List ℝ) : List (List ℝ) :=
  let c := Cry.cc2cell ⟨r.getD 0 0, r.getD 1 0, r.getD 2 0, r.getD 3 0, r.getD 4 0, r.getD 5 0⟩
  [[c 0 0, c 0 1, c 0 2], [c 1 0, c 1 1, c 1 2], [c 2 0, c 2 1, c 2 2]]

/-- `Trajectory.get_cell`, `crys.py:2652-2663`, with `cc2cell3d`, `crys.py:252-267`. -/
noncomputable def getCell (cc : Option (CC ℝ)) : Option (Val ℝ) :=
  match cc with
  | some (.many rows) => some (.arr (rows.map rowCell))
  | _ => none

end Pwtools.DcdRead
