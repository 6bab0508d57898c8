import Verif.Model.PwHead
import Verif.Model.ParserUnits
import Verif.Model.Traj
/-!
# `io.read_pw_md`: from the text of a pw.x output to a `Trajectory` (`io.py`, `parse.py`, `crys.py`)
-/
namespace Pwtools.PwMd
open Gr Scf PwHead Tr Units

/-- Values of attributes of a `Trajectory`. -/
inductive Val (K : Type) where
  | num (x : K)
  | vec (v : List K)
  | mat (m : List (List K))
  | arr (a : List (List (List K)))
  | words (w : List Text)
  | nat (n : Nat)

variable {K : Type}

/-- `attr * factor`, `crys.py:2170`; only attributes with numbers are in `units_map`. -/
def Val.scale [Mul K] (s : K) : Val K → Val K
  | .num x => .num (x * s)
  | .vec v => .vec (v.map (· * s))
  | .mat m => .mat (m.map fun r => r.map (· * s))
  | .arr a => .arr (a.map fun m => m.map fun r => r.map (· * s))
  | v => v

/-- Multiplication with a unit factor in the notation of `Model/Traj`. -/
instance [Mul K] : SMul K (Val K) := ⟨Val.scale⟩

/-- `PwMDOutputFile.get_ekin`, `parse.py:1094-1099`. -/
def getEkin (num : Text → Option K) (file : List Text) : Res (List K) :=
  arr1d num ((file.filter (isInfix "kinetic energy".toList)).map (awk [5]))

/-- `egrep 'temperature[ ]*='`. -/
def isTemp (l : Text) : Bool := (occ "temperature".toList l).any fun p => (p.2.dropWhile (· = ' ')).head? = some '='

/-- `sed -re 's/.*temp.*=\s*(FLOAT)\s*K/\1/'`, `parse.py:1105-1106`: what follows the `K` is kept; the line itself where this does not match. -/
def sedTemp (l : Text) : Text :=
  (lastOcc "=".toList (fun pre rest =>
    let r := rest.dropWhile isPySpace
    match (r.dropWhile floatChar).dropWhile isPySpace with
    | 'K' :: tail => if isInfix "temp".toList pre && !(r.takeWhile floatChar).isEmpty then some (r.takeWhile floatChar ++ tail) else none
    | _ => none) l).getD l

/-- `PwMDOutputFile.get_temperature`, `parse.py:1101-1107`. -/
def getTemperature (num : Text → Option K) (file : List Text) : Res (List K) :=
  arr1d num ((file.filter isTemp).map fun l => splitWs (sedTemp l))

/-- `(.*)a.u..*`, the group: the text before the last `a` which is followed by any character, `u` and any character. -/
def beforeAu (l : Text) : Option Text :=
  lastOcc "a".toList (fun pre rest => match rest with
    | _ :: 'u' :: _ :: _ => some pre
    | _ => none) l

/-- `sed -re 's/.*step\s+=\s+(.*)a.u..*/\1/'`, `parse.py:1111-1112`; the line itself where this does not match. -/
def sedStep (l : Text) : Text :=
  (lastOcc "step".toList (fun _ rest =>
    match rest.dropWhile isPySpace with
    | '=' :: r => if rest.head?.map isPySpace = some true ∧ r.head?.map isPySpace = some true then beforeAu (r.dropWhile isPySpace) else none
    | _ => none) l).getD l

/-- `PwMDOutputFile.get_timestep`, `parse.py:1109-1113`. -/
def getTimestep (num : Text → Option K) (file : List Text) : Res K :=
  floatTxt num (((file.find? (hasSeq ["Time".toList, "step".toList])).map sedStep).toList)

section
variable [Field K]

/-- `PwMDOutputFile.get_cell`, `parse.py:1042-1082` (`PwOut.getCell`) with the attributes it looks for: `_cell_3d_factors` only for the unit
`alat`, `_cell_2d` only if there are no cell blocks. -/
def getCell (c : Consts K) (num : Text → Option K) (useAlat : Bool) (alat : Option K) (file : List Text) : Res (PwOut.CellRes K) :=
  match PwOut.cell3d num file with
  | .error e => .error e
  | .ok none => match cell2d num file with
    | .error e => .error e
    | .ok c2 => PwOut.getCell num c.Ang c.Bohr alat none c2 file
  | .ok (some _) =>
    if PwOut.headerUnit PwOut.kCell file = some "alat".toList then
      match cellFactors num useAlat file with
      | .error e => .error e
      | .ok f => PwOut.getCell num c.Ang c.Bohr alat f none file
    else PwOut.getCell num c.Ang c.Bohr alat none none file

/-- The cell as an attribute. -/
def cellVal : PwOut.CellRes K → Val K
  | .steps a => .arr a
  | .start m => .mat m

/-- `parse()`, `parse.py:275-277`: all getters of `attr_lst`, `parse.py:881-895`, in this order; the first exception ends it. The value
is what `get_cont` copies: the attributes which are also attributes of a `Trajectory` (not `nstep_scf`, `nkpoints`). The results of `get_ekin` and
`get_temperature`, which differ between parsers, are arguments. -/
def parseWith (c : Consts K) (num : Text → Option K) (useAlat : Bool) (file : List Text) (ekinRes tempRes : Res (List K)) :
    Except PErr (UAttr → Option (Val K)) :=
  (PwOut.coordsRaw num file).bind fun _ =>
  (alat num useAlat file).bind fun a =>
  (PwOut.getCoords num c.Ang c.Bohr a file).bind fun coords =>
  (PwOut.getCoordsFrac num file).bind fun coordsFrac =>
  (getSymbols num file).bind fun symbols =>
  (PwOut.getStress num file).bind fun stress =>
  (PwOut.getEtot num file).bind fun etot =>
  ekinRes.bind fun ekin =>
  tempRes.bind fun temperature =>
  (PwOut.getForces num file).bind fun forces =>
  (nstepScfRaw file).bind fun _ =>
  (getCell c num useAlat a file).bind fun cell =>
  (PwOut.natoms file).bind fun natoms =>
  (nkpoints file).bind fun _ =>
  (getTimestep num file).bind fun timestep =>
  .ok fun
    | .coords => coords.map .arr
    | .stress => stress.map .arr
    | .etot => etot.map .vec
    | .ekin => ekin.map .vec
    | .temperature => temperature.map .vec
    | .forces => forces.map .arr
    | .cell => cell.map cellVal
    | .timestep => timestep.map .num
    | .other n => if n = "symbols" then some (.words symbols) else if n = "natoms" then natoms.map .nat
        else if n = "coords_frac" then coordsFrac.map .arr else none
    | _ => none

/-- `PwMDOutputFile.parse()`. -/
def parse (c : Consts K) (num : Text → Option K) (useAlat : Bool) (file : List Text) : Except PErr (UAttr → Option (Val K)) :=
  parseWith c num useAlat file (getEkin num file) (getTemperature num file)

end

/-- `Trajectory.get_nstep`, `crys.py:2706-2712`. -/
def nstep (attr : UAttr → Option (Val K)) : Option Nat :=
  match attr .coords with
  | some (.arr a) => some a.length
  | some _ => none
  | none => match attr (.other "coords_frac") with
    | some (.arr a) => some a.length
    | _ => none

/-- The shape `(3,3)`. -/
def is33 (m : List (List K)) : Bool := m.length = 3 && m.all fun r => r.length = 3

/-- `_extend_cell`, `crys.py:2469-2477`. -/
def extendCell (n : Nat) : Val K → Val K
  | .mat m => if is33 m then .arr (List.replicate n m) else .mat m
  | .arr [m] => if is33 m then .arr (List.replicate n m) else .arr [m]
  | v => v

/-- `_extend`, `crys.py:2456-2461`; `check_set_attr('nstep')` also sets it. `cryst_const` is not set here. -/
def extend (attr : UAttr → Option (Val K)) : UAttr → Option (Val K) :=
  match nstep attr with
  | none => attr
  | some n => fun a => if a = .cell then (attr .cell).map (extendCell n) else if a = .other "nstep" then some (.nat n) else attr a

/-- `io.read_pw_md(filename, units=user, use_alat=useAlat)`, `io.py:393-396`, which is `PwMDOutputFile(...).get_traj()`: a parser is
created after the parsers in `hist`, `parse.py:254-302`; `set_all` of the container (`crys.py:2446-2454`) applies the units, extends the cell
and calls the getters `g`, which fill in what is not set. -/
def readPwMd [Field K] [DecidableEq K] (c : Consts K) (hist : List (Kind × UDict K)) (user : UDict K) (g : Getters K (Val K))
    (num : Text → Option K) (useAlat : Bool) (file : List Text) : Except (PErr ⊕ Err) (UObj K (Val K)) :=
  match parse c num useAlat file with
  | .error e => .error (.inl e)
  | .ok attrs =>
    match applyUnits { attr := attrs, cc := none, units := (create c (after c hist) .pwMd user).2, applied := false } with
    | .error e => .error (.inr e)
    | .ok o => .ok { o with attr := fun a => (extend o.attr a).or (g.attr { o with attr := extend o.attr } a),
                            cc := o.cc.or (g.cc { o with attr := extend o.attr }) }

end Pwtools.PwMd
