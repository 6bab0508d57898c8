import Verif.Model.ReadMd
import Verif.Model.Cpmd
import Verif.Model.ScfOut
import Verif.Model.PwHead
/-!
# `io.read_cpmd_md`: from the files of a CPMD run to a `Trajectory` (`io.py`, `parse.py`, `crys.py`)
-/
namespace Pwtools.CpmdRead
open Gr Tr Units PwMd ReadMd Cpmd

/-- The files of a run: the output file, and those of `GEOMETRY`, `GEOMETRY.scale`, `TRAJECTORY`, `FTRAJECTORY`, `ENERGIES`, `CELL`, `STRESS` in its
directory which exist (`parse.py:1250`, `1322`, `1525`, `1557-1558`, `1604`, `1706`). -/
structure Files where
  out : List Text
  geometry : Option (List Text)
  scale : Option (List Text)
  traj : Option (List Text)
  ftraj : Option (List Text)
  energies : Option (List Text)
  cell : Option (List Text)
  stress : Option (List Text)

variable {K : Type}

/-- An exception of a parser for numbers. -/
def lift {A : Type} : Except PErr A → Except CErr A
  | .error e => .error (.py e)
  | .ok x => .ok x

/-- `get_natoms`, `parse.py:1315-1327`. -/
def natoms (fs : Files) : Option Nat := fs.geometry.map Cpmd.natoms

/-- What is read from `GEOMETRY.scale`. -/
structure ScaleFile (K : Type) where
  cell : Option (List (List K))
  coordsFrac : List (List K)
  symbols : List Text

/-- `_get_scale_file`, `parse.py:1248-1264`: first the cell, then `assert_set_attr('natoms')`, then the atoms. -/
def scaleFile (num : Text → Option K) (fs : Files) : Except CErr (Option (ScaleFile K)) :=
  match fs.scale with
  | none => .ok none
  | some f =>
    (lift (Scf.scaleCell num f)).bind fun cell =>
    match natoms fs with
    | none => .error (.py .assertion)
    | some n => (lift (Scf.scaleAtoms num n f)).bind fun a => .ok (some ⟨cell, a.1, a.2⟩)

/-- `get_cell`, `parse.py:1597-1619`: 3d from `CELL`, or else 2d from `GEOMETRY.scale`. -/
def getCell (num : Text → Option K) (fs : Files) : Except CErr (Option (Val K)) :=
  match fs.cell with
  | some f => (lift (Cpmd.cell num f)).bind fun a => .ok (some (.arr a))
  | none => (scaleFile num fs).bind fun s => .ok ((s.bind ScaleFile.cell).map .mat)

/-- `_get_coords_vel_forces`, `parse.py:1542-1589`: `assert_set_attr('natoms')`, then `FTRAJECTORY` or else `TRAJECTORY`. -/
def coordsVelForces (junk : K) (num : Text → Option K) (fs : Files) : Except CErr (Option (Traj K)) :=
  match natoms fs with
  | none => .error (.py .assertion)
  | some n =>
    match fs.ftraj, fs.traj with
    | some f, _ => (lift (Cpmd.trajectory junk num n true f)).bind fun t => .ok (some t)
    | none, some f => (lift (Cpmd.trajectory junk num n false f)).bind fun t => .ok (some t)
    | none, none => .ok none

/-- A getter which reads the table `ENERGIES`. -/
def fromEnergies {A : Type} (fs : Files) (f : List Text → Except CErr (Option A)) : Except CErr (Option A) :=
  match fs.energies with
  | none => .ok none
  | some l => f l

/-- `get_stress`, `parse.py:1703-1715`. -/
def getStress (num : Text → Option K) (fs : Files) : Except CErr (Option (List (List (List K)))) :=
  match fs.stress with
  | none => .ok none
  | some f => lift (Cpmd.stress num f)

/-- `sed -re 's/.*IONS:\s+(.*)$/\1/'`: the greedy `.*` ends at the last `IONS:` with white space behind it; a line without one is kept. -/
def afterIons (l : Text) : Text :=
  (PwHead.lastOcc "IONS:".toList (fun _ t => if (t.head?.map isPySpace) = some true then some t else none) l).getD l

/-- `get_timestep`, `parse.py:1733-1737`: all lines with the text are read as one number. -/
def timestep (num : Text → Option K) (out : List Text) : Res K :=
  Scf.floatTxt num ((out.filter (isInfix "TIME STEP FOR IONS".toList)).map afterIons)

/-- `parse()`, `parse.py:275-277`: all getters of `attr_lst`, `parse.py:1475-1491`, in this order; the first exception ends it (`get_natoms` and
`temperature_cell` have none of their own). The value is what `get_cont` copies: the attributes which are also attributes of a `Trajectory` (not `econst`,
`ekin_cell`, `ekin_elec`, `temperature_cell`). -/
def parse (junk : K) (num : Text → Option K) (fs : Files) : Except CErr (UAttr → Option (Val K)) :=
  (getCell num fs).bind fun cell =>
  (coordsVelForces junk num fs).bind fun tr =>
  (fromEnergies fs (Cpmd.econst junk num)).bind fun _ =>
  (fromEnergies fs (Cpmd.ekin junk num)).bind fun ekin =>
  (fromEnergies fs (Cpmd.ekinCell junk num)).bind fun _ =>
  (fromEnergies fs (Cpmd.ekinElec junk num)).bind fun _ =>
  (fromEnergies fs (Cpmd.etot junk num)).bind fun etot =>
  (getStress num fs).bind fun stress =>
  (scaleFile num fs).bind fun sf =>
  (fromEnergies fs (Cpmd.temperature junk num)).bind fun temperature =>
  (lift (timestep num fs.out)).bind fun dt =>
  .ok fun
    | .cell => cell
    | .coords => tr.map fun t => .arr t.coords
    | .velocity => tr.map fun t => .arr t.velocity
    | .forces => (tr.bind Traj.forces).map .arr
    | .ekin => ekin.map .vec
    | .etot => etot.map .vec
    | .temperature => temperature.map .vec
    | .stress => stress.map .arr
    | .timestep => dt.map .num
    | .other n => if n = "symbols" then sf.map fun s => .words s.symbols else if n = "natoms" then (natoms fs).map .nat else none
    | _ => none

/-- `io.read_cpmd_md(filename, units=user)`, `io.py:405-408`, after the parsers `hist` were created. -/
def readCpmdMd [Field K] [DecidableEq K] (c : Consts K) (hist : List (Kind × UDict K)) (user : UDict K) (g : Getters K (Val K)) (junk : K)
    (num : Text → Option K) (fs : Files) : Except (CErr ⊕ Err) (UObj K (Val K)) :=
  match parse junk num fs with
  | .error e => .error (.inl e)
  | .ok attrs => match toTraj c hist .cpmdMd user g attrs none with
    | .error e => .error (.inr e)
    | .ok tr => .ok tr

end Pwtools.CpmdRead
