import Verif.Model.ReadMd
import Verif.Model.Cp2kOut
/-!
# `io.read_cp2k_md`, `io.read_cp2k_relax`: from the files of a CP2K run to a `Trajectory` (`io.py`, `parse.py`, `crys.py`)
-/
namespace Pwtools.Cp2kRead
open Gr Tr Units PwMd ReadMd

/-- The files of a run: the output file, and those of `PROJECT-1.cell`, `PROJECT-1.ener`, `PROJECT-1.stress`, `PROJECT-pos-1.xyz`, `PROJECT-frc-1.xyz`,
`PROJECT-vel-1.xyz` (`parse.py:1842-1847`) which exist. -/
structure Files where
  out : List Text
  cell : Option (List Text)
  ener : Option (List Text)
  stress : Option (List Text)
  pos : Option (List Text)
  frc : Option (List Text)
  vel : Option (List Text)

variable {K : Type}

/-- `if os.path.exists(fn): return <f of the file> else: return None`. -/
def ifExists {A : Type} (file : Option (List Text)) (f : List Text → Except PErr A) : Except PErr (Option A) :=
  match file with
  | none => .ok none
  | some l => (f l).map some

/-- `get_symbols`, `parse.py:1904-1911`; `na` is the attribute `natoms`. -/
def symbols (na : Option Nat) (fs : Files) : Option (List Text) :=
  match na, fs.pos.or (fs.frc.or fs.vel) with
  | some n, some f => some (Cp2k.symbols n f)
  | _, _ => none

/-- `get_forces`, `parse.py:1934-1939`, of the MD parser. -/
def forces (num : Text → Option K) (fs : Files) : Res (List (List (List K))) :=
  match fs.frc with
  | some f => (Cp2k.xyz2arr num f).map some
  | none => Cp2kOut.forces num fs.out

/-- `parse()`, `parse.py:275-277`: all getters of `attr_lst`, `parse.py:1828-1841`, in this order; the first exception ends it. The value is what `get_cont`
copies: the attributes which are also attributes of a `Trajectory` (not `econst`). Simplified: a negative number of atoms is read as 0. -/
def parse (junk : K) (num : Text → Option K) (fs : Files) : Except PErr (UAttr → Option (Val K)) :=
  (ifExists fs.cell (Cp2k.cell junk num)).bind fun cell =>
  (ifExists fs.pos (Cp2k.xyz2arr num)).bind fun coords =>
  (ifExists fs.ener (Cp2k.econst junk num)).bind fun _ =>
  (ifExists fs.ener (Cp2k.ekin junk num)).bind fun ekin =>
  (ifExists fs.ener (Cp2k.etot junk num)).bind fun etot =>
  (forces num fs).bind fun frc =>
  (Cp2kOut.natoms fs.out).bind fun na =>
  (ifExists fs.stress (Cp2k.stress junk num)).bind fun stress =>
  (ifExists fs.ener (Cp2k.temperature junk num)).bind fun temperature =>
  (Cp2kOut.timestep num fs.out).bind fun timestep =>
  (ifExists fs.vel (Cp2k.xyz2arr num)).bind fun velocity =>
  .ok fun
    | .cell => cell.map .arr
    | .coords => coords.map .arr
    | .ekin => ekin.map .vec
    | .etot => etot.map .vec
    | .forces => frc.map .arr
    | .stress => stress.map .arr
    | .temperature => temperature.map .vec
    | .timestep => timestep.map .num
    | .velocity => velocity.map .arr
    | .other n => if n = "symbols" then (symbols (na.map Int.toNat) fs).map .words else if n = "natoms" then na.map fun i => .nat i.toNat else none
    | _ => none

/-- `io.read_cp2k_md(filename, units=user)`, `io.py:413-416`, after the parsers `hist` were created. -/
def readCp2kMd [Field K] [DecidableEq K] (c : Consts K) (hist : List (Kind × UDict K)) (user : UDict K) (g : Getters K (Val K)) (junk : K)
    (num : Text → Option K) (fs : Files) : Except (PErr ⊕ Err) (UObj K (Val K)) :=
  match parse junk num fs with
  | .error e => .error (.inl e)
  | .ok attrs => match toTraj c hist .cp2kMd user g attrs none with
    | .error e => .error (.inr e)
    | .ok tr => .ok tr

/-! ## relaxations -/

/-- `Cp2kRelaxOutputFile.get_natoms`, `parse.py:2001-2006`. -/
def relaxNatoms (fs : Files) : Except PErr (Option Int) :=
  match fs.pos with
  | none => .ok none
  | some f => Cp2k.intFromTxt (f.headD [])

/-- `Cp2kRelaxOutputFile.get_etot`, `parse.py:2008-2013`. -/
def relaxEtot (num : Text → Option K) (fs : Files) : Res (List K) :=
  match fs.pos with
  | none => .ok none
  | some f => Cp2k.relaxEtot num f

/-- `Cp2kRelaxOutputFile.get_cell`, `parse.py:2015-2043`: `coords` and the run type are read only if they are needed. -/
def relaxCell (junk : K) (num : Text → Option K) (fs : Files) : Except Cp2k.RelaxErr (Option (List (List (List K)))) :=
  match fs.cell with
  | none => .ok none
  | some f =>
    match Cp2k.cell junk num f with
    | .error e => .error (.parser e)
    | .ok _ =>
      if Cp2kOut.runType fs.out = "CELL_OPT".toList then
        match ifExists fs.pos (Cp2k.xyz2arr num) with
        | .error e => .error (.parser e)
        | .ok coords => Cp2k.relaxCell junk num true f coords
      else Cp2k.relaxCell junk num false f none

/-- `Cp2kMDOutputFile._get_forces_from_outfile` with the number of atoms of the relaxation parser, `parse.py:1913-1925`. -/
def relaxForces (num : Text → Option K) (fs : Files) : Res (List (List (List K))) :=
  match fs.frc with
  | some f => (Cp2k.xyz2arr num f).map some
  | none => match relaxNatoms fs with
    | .error e => .error e
    | .ok na => Cp2kOut.forcesOf num na fs.out

/-- Errors of the parser in one type. -/
def lift {A : Type} (x : Except PErr A) : Except Cp2k.RelaxErr A := match x with
  | .error e => .error (.parser e)
  | .ok v => .ok v

/-- `parse()` of `Cp2kRelaxOutputFile`: the list of attributes of the MD parser. -/
def parseRelax (junk : K) (num : Text → Option K) (fs : Files) : Except Cp2k.RelaxErr (UAttr → Option (Val K)) :=
  (relaxCell junk num fs).bind fun cell =>
  (lift (ifExists fs.pos (Cp2k.xyz2arr num))).bind fun coords =>
  (lift (ifExists fs.ener (Cp2k.econst junk num))).bind fun _ =>
  (lift (ifExists fs.ener (Cp2k.ekin junk num))).bind fun ekin =>
  (lift (relaxEtot num fs)).bind fun etot =>
  (lift (relaxForces num fs)).bind fun frc =>
  (lift (relaxNatoms fs)).bind fun na =>
  (lift (ifExists fs.stress (Cp2k.stress junk num))).bind fun stress =>
  (lift (ifExists fs.ener (Cp2k.temperature junk num))).bind fun temperature =>
  (lift (Cp2kOut.timestep num fs.out)).bind fun timestep =>
  (lift (ifExists fs.vel (Cp2k.xyz2arr num))).bind fun velocity =>
  .ok fun
    | .cell => cell.map .arr
    | .coords => coords.map .arr
    | .ekin => ekin.map .vec
    | .etot => etot.map .vec
    | .forces => frc.map .arr
    | .stress => stress.map .arr
    | .temperature => temperature.map .vec
    | .timestep => timestep.map .num
    | .velocity => velocity.map .arr
    | .other n => if n = "symbols" then (symbols (na.map Int.toNat) fs).map .words else if n = "natoms" then na.map fun i => .nat i.toNat else none
    | _ => none

/-- `io.read_cp2k_relax(filename, units=user)`, `io.py:421-424`. -/
def readCp2kRelax [Field K] [DecidableEq K] (c : Consts K) (hist : List (Kind × UDict K)) (user : UDict K) (g : Getters K (Val K)) (junk : K)
    (num : Text → Option K) (fs : Files) : Except (Cp2k.RelaxErr ⊕ Err) (UObj K (Val K)) :=
  match parseRelax junk num fs with
  | .error e => .error (.inl e)
  | .ok attrs => match toTraj c hist .cp2kRelax user g attrs none with
    | .error e => .error (.inr e)
    | .ok tr => .ok tr

end Pwtools.Cp2kRead
