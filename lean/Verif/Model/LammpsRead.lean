import Verif.Model.ReadMd
import Verif.Model.Lammps
/-!
# `io.read_lammps_md_txt`: from the files of a LAMMPS run to a `Trajectory` (`io.py`, `parse.py`, `crys.py`)
-/
namespace Pwtools.LmpRead
open Gr Tr Units PwMd ReadMd

/-- The files of a run: the log file, which exists, and the dump file and the text of the file of symbols if they exist (`parse.py:2235-2238`). -/
structure Files where
  log : List Text
  dump : Option (List Text)
  symbols : Option Text

variable {K : Type}

/-- A getter which returns `None` without the dump file. -/
def ifDump {A : Type} (fs : Files) (f : List Text → Res A) : Res A :=
  match fs.dump with
  | none => .ok none
  | some d => f d

/-- `get_timestep`, `parse.py:2406-2412`: `grep -m1 timestep | sed -re 's/.*step (.*)/\1/'`, the text behind the last `step ` of the first line with
`timestep`; the whole line if there is none. Then `float_from_txt`, `parse.py:161-165`. -/
def timestep (num : Text → Option K) (log : List Text) : Res K :=
  match log.find? (isInfix "timestep".toList) with
  | none => .ok none
  | some l => match splitWs (Lmp.afterLast "step ".toList l) with
    | [] => .ok none
    | [w] => match num w with
      | some x => .ok (some x)
      | none => .error .value
    | _ => .error .value

/-- `parse.py:2419-2423`: `grep -m1 'dump_modify.*element' | sed -re 's/.*ment (.*)/\1/'`, split into words, with the numbers from 1 on. -/
def elementOrder (log : List Text) : List (Text × Int) :=
  match log.find? (hasSeq ["dump_modify".toList, "element".toList]) with
  | none => []
  | some l => (splitWs (Lmp.afterLast "ment ".toList l)).zipIdx.map fun p => (p.1, (p.2 : Int) + 1)

/-- `get_symbols`, `parse.py:2414-2431`; `order` is the list of items of the keyword `order`. -/
def symbols (junk : K) (toInt : K → Int) (num : Text → Option K) (order : Option (List (Text × Int))) (fs : Files) : Res (List Text) :=
  match fs.symbols with
  | some t => .ok (some (splitWs t))
  | none => ifDump fs fun d => Lmp.symbols junk toInt num d (order.getD (elementOrder fs.log))

/-- `parse()`, `parse.py:275-277`: all getters of `attr_lst`, `parse.py:2217-2232`, in this order; the first exception ends it. The value is what
`get_cont` copies, and the crystallographic constants. -/
def parse [Field K] [LinearOrder K] (junk : K) (toInt : K → Int) (num : Text → Option K) (order : Option (List (Text × Int))) (fs : Files) :
    Except PErr ((UAttr → Option (Val K)) × Option (CC K)) :=
  (ifDump fs fun d => (Lmp.cell num d).map some).bind fun cell =>
  (ifDump fs (Lmp.coordsFrac junk num)).bind fun coordsFrac =>
  (ifDump fs (Lmp.coords junk num)).bind fun coords =>
  (Lmp.crystConst junk num fs.log).bind fun cc =>
  (Lmp.ekin junk num fs.log).bind fun ekin =>
  (Lmp.etot junk num fs.log).bind fun etot =>
  (ifDump fs (Lmp.forces junk num)).bind fun forces =>
  (ifDump fs fun d => (Lmp.natoms d).map some).bind fun natoms =>
  (Lmp.stress junk num fs.log).bind fun stress =>
  (symbols junk toInt num order fs).bind fun symbols =>
  (Lmp.temperature junk num fs.log).bind fun temperature =>
  (timestep num fs.log).bind fun timestep =>
  (ifDump fs (Lmp.velocity junk num)).bind fun velocity =>
  (Lmp.volume junk num fs.log).bind fun volume =>
  .ok (fun
    | .cell => cell.map .arr
    | .coords => coords.map .arr
    | .ekin => ekin.map .vec
    | .etot => etot.map .vec
    | .forces => forces.map .arr
    | .stress => stress.map .arr
    | .temperature => temperature.map .vec
    | .timestep => timestep.map .num
    | .velocity => velocity.map .arr
    | .other n =>
      if n = "symbols" then symbols.map .words else if n = "natoms" then natoms.map .nat
      else if n = "coords_frac" then coordsFrac.map .arr else if n = "volume" then volume.map .vec else none
    | _ => none, cc.map .many)

/-- `io.read_lammps_md_txt(filename, order=order, units=user)`, `io.py:425-428`, after the parsers `hist` were created. -/
def readLammpsMdTxt [Field K] [LinearOrder K] (c : Consts K) (hist : List (Kind × UDict K)) (user : UDict K) (g : Getters K (Val K)) (junk : K)
    (toInt : K → Int) (num : Text → Option K) (order : Option (List (Text × Int))) (fs : Files) : Except (PErr ⊕ Err) (UObj K (Val K)) :=
  match parse junk toInt num order fs with
  | .error e => .error (.inl e)
  | .ok (attrs, cc) => match toTraj c hist .lammpsTxt user g attrs cc with
    | .error e => .error (.inr e)
    | .ok tr => .ok tr

end Pwtools.LmpRead
