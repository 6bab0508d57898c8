import Verif.Model.Pbc
import Mathlib.LinearAlgebra.Pi
/-!
# Model of the derived attributes of `crys.Structure` and `crys.Trajectory`

The constructor / `set_all` (`crys.py:2281-2454`) with the getters for cell, coordinates, volume, pressure, number of atoms and steps, masses,
velocities, kinetic energy, temperature and times. Units are all 1 (they are modelled in `Model/Traj.lean`); `forces`, `etot` and the species lists
(`Model/Traj.lean`) are left out. Real numbers instead of floats; `cc2cell` of impossible lattice constants and division by zero atoms (NaN in the
program) are numbers here.
-/
namespace Pwtools.Drv
open Pwtools.Cry

/-! ## Structure -/

/-- The attributes of a `Structure`; `none` is `None`. -/
structure St where
  cell : Option Cell := none
  cc : Option CrystConst := none
  coords : Option (List V3) := none
  coordsFrac : Option (List V3) := none
  stress : Option Cell := none
  pressure : Option ℝ := none
  volume : Option ℝ := none
  symbols : Option (List String) := none
  natoms : Option Nat := none

/-- `try_set_attr('cell')` (`base.py:215-231`) with `get_cell`, `crys.py:2652-2663`. -/
noncomputable def St.setCell (s : St) : St :=
  match s.cell with
  | some _ => s
  | none => { s with cell := s.cc.map cc2cell }

/-- `coords`: `get_coords`, `crys.py:2588-2596`. -/
noncomputable def St.setCoords (s : St) : St :=
  match s.coords, s.coordsFrac with
  | none, some f =>
    let s := s.setCell
    { s with coords := s.cell.map fun c => f.map (frac2cart c) }
  | _, _ => s

/-- `coords_frac`: `get_coords_frac`, `crys.py:2614-2622`. -/
noncomputable def St.setCoordsFrac (s : St) : St :=
  match s.coordsFrac, s.coords with
  | none, some r =>
    let s := s.setCell
    { s with coordsFrac := s.cell.map fun c => r.map (cart2frac c) }
  | _, _ => s

/-- `cryst_const`: `get_cryst_const`, `crys.py:2665-2676`. -/
noncomputable def St.setCC (s : St) : St :=
  match s.cc with
  | some _ => s
  | none => { s with cc := s.cell.map cell2cc }

/-- `np.trace(stress)/3.0`. -/
noncomputable def trace3 (m : Cell) : ℝ := (∑ k, m k k) / 3

/-- `pressure`: `get_pressure`, `crys.py:2678-2689`. -/
noncomputable def St.setPressure (s : St) : St :=
  match s.pressure with
  | some _ => s
  | none => { s with pressure := s.stress.map trace3 }

/-- `volume`: `get_volume`, `crys.py:2640-2650`. -/
noncomputable def St.setVolume (s : St) : St :=
  match s.volume with
  | some _ => s
  | none =>
    let s := s.setCell
    { s with volume := s.cell.map volumeCell }

/-- `natoms`: `get_natoms`, `crys.py:2574-2586`. -/
def St.setNatoms (s : St) : St :=
  match s.natoms with
  | some _ => s
  | none => { s with natoms :=
      match s.symbols, s.coords, s.coordsFrac with
      | some l, _, _ => some l.length
      | none, some r, _ => some r.length
      | none, none, some f => some f.length
      | none, none, none => none }

/-- `Structure.set_all`, `crys.py:2446-2449` and `base.py:139-143`, in the order of `attr_lst` (`crys.py:2339-2369`). -/
noncomputable def St.setAll (s : St) : St :=
  s.setCell.setCoords.setCoordsFrac.setCC.setPressure.setVolume.setNatoms

/-! ## Trajectory -/

/-- An array of shape `(nstep, natoms, 3)`. -/
structure Arr3 where
  natoms : Nat
  steps : List (Fin natoms → V3)

/-- An array with one item per step, or one item for all steps: `cell` of shape `(nstep,3,3)` or `(3,3)`; `cryst_const` of shape `(nstep,6)` or
`(6,)`. -/
inductive Ext (α : Type) where
  | one (x : α)
  | many (l : List α)

/-- The attributes of a `Trajectory`. -/
structure Trj where
  cell : Option (Ext Cell) := none
  cc : Option (Ext CrystConst) := none
  coords : Option Arr3 := none
  coordsFrac : Option Arr3 := none
  stress : Option (List Cell) := none
  pressure : Option (List ℝ) := none
  volume : Option (List ℝ) := none
  symbols : Option (List String) := none
  natoms : Option Nat := none
  nstep : Option Nat := none
  timestep : Option ℝ := none
  velocity : Option Arr3 := none
  mass : Option (List ℝ) := none
  ekin : Option (List ℝ) := none
  temperature : Option (List ℝ) := none
  time : Option (List ℝ) := none

/-- Exceptions: `AssertionError`, `IndexError`, `KeyError`, `ValueError`. -/
inductive DErr where
  | assertion | index | key | value
deriving DecidableEq, Repr

/-- `constants.py` -/
structure Consts where
  ang : ℝ
  fs : ℝ
  amu : ℝ
  eV : ℝ
  kb : ℝ

/-- `nstep`: `get_nstep`, `crys.py:2706-2714`. -/
def Trj.setNstep (t : Trj) : Trj :=
  match t.nstep with
  | some _ => t
  | none => { t with nstep :=
      match t.coords, t.coordsFrac with
      | some a, _ => some a.steps.length
      | none, some a => some a.steps.length
      | none, none => none }

/-- `_extend_cell`, `_extend_cc`, `crys.py:2469-2487`, with `nstep` set. -/
def Ext.extend {α : Type} (n : Nat) : Ext α → Ext α
  | .one x => .many (List.replicate n x)
  | .many [x] => .many (List.replicate n x)
  | .many l => .many l

/-- The same with `assert_set_attr('nstep')`, `crys.py:2463-2467`. -/
def Ext.extendA {α : Type} : Option Nat → Ext α → Except DErr (Ext α)
  | some n, x => .ok (x.extend n)
  | none, .one _ => .error .assertion
  | none, .many [_] => .error .assertion
  | none, .many l => .ok (.many l)

/-- `_extend`, `crys.py:2456-2461`. -/
def Trj.extend (t : Trj) : Trj :=
  let t := t.setNstep
  match t.nstep with
  | none => t
  | some n => { t with cell := t.cell.map (Ext.extend n), cc := t.cc.map (Ext.extend n) }

/-- `cc2cell3d`, `cell2cc3d`, `volume_cell3d` (`crys.py:82-96`, `179-193`, `252-267`): `AssertionError` if there is no time axis. -/
def perStep {α β : Type} (f : α → β) : Ext α → Except DErr (List β)
  | .one _ => .error .assertion
  | .many l => .ok (l.map f)

/-- `cell`: `get_cell`, `crys.py:2652-2663`. -/
noncomputable def Trj.setCell (t : Trj) : Except DErr Trj :=
  match t.cell, t.cc with
  | some _, _ => .ok t
  | none, none => .ok t
  | none, some cc =>
    let t := t.setNstep
    cc.extendA t.nstep >>= perStep cc2cell >>= fun l => .ok { t with cell := some (.many l) }

/-- `get_natoms`, `crys.py:2574-2586`. -/
def Trj.getNatoms (t : Trj) : Option Nat :=
  match t.symbols, t.coords, t.coordsFrac with
  | some l, _, _ => some l.length
  | none, some a, _ => some a.natoms
  | none, none, some a => some a.natoms
  | none, none, none => none

/-- `natoms`: `try_set_attr('natoms')`. -/
def Trj.setNatoms (t : Trj) : Trj :=
  match t.natoms with
  | some _ => t
  | none => { t with natoms := t.getNatoms }

/-- The two assertions in `get_coords` and `get_coords_frac`, `crys.py:2601-2608`, and `frac2cart_traj` / `cart2frac_traj` (`flib.f90:580-603`). -/
def convert (f : Cell → V3 → V3) (a : Arr3) (natoms : Nat) : Ext Cell → Except DErr Arr3
  | .one _ => .error .assertion
  | .many cells =>
    if a.natoms = natoms ∧ cells.length = a.steps.length then
      .ok ⟨a.natoms, List.zipWith (fun c x => fun j => f c (x j)) cells a.steps⟩
    else .error .assertion

/-- `coords`: `get_coords`, `crys.py:2597-2612`. -/
noncomputable def Trj.setCoords (t : Trj) : Except DErr Trj :=
  match t.coords, t.coordsFrac with
  | none, some a => t.setCell >>= fun t =>
    let t := t.setNatoms
    match t.cell, t.natoms with
    | some c, some na => convert frac2cart a na c >>= fun r => .ok { t with coords := some r }
    | _, _ => .ok t
  | _, _ => .ok t

/-- `coords_frac`: `get_coords_frac`, `crys.py:2623-2638`. -/
noncomputable def Trj.setCoordsFrac (t : Trj) : Except DErr Trj :=
  match t.coordsFrac, t.coords with
  | none, some a => t.setCell >>= fun t =>
    let t := t.setNatoms
    match t.cell, t.natoms with
    | some c, some na => convert cart2frac a na c >>= fun r => .ok { t with coordsFrac := some r }
    | _, _ => .ok t
  | _, _ => .ok t

/-- `cryst_const`: `get_cryst_const`, `crys.py:2665-2676`. -/
noncomputable def Trj.setCC (t : Trj) : Except DErr Trj :=
  match t.cc, t.cell with
  | none, some c =>
    let t := t.setNstep
    c.extendA t.nstep >>= perStep cell2cc >>= fun l => .ok { t with cc := some (.many l) }
  | _, _ => .ok t

/-- `velocity`: `get_velocity`, `crys.py:2528-2541`, with `velocity_traj`. -/
noncomputable def Trj.setVelocity (t : Trj) : Except DErr Trj :=
  match t.velocity with
  | some _ => .ok t
  | none => t.setCoords >>= fun t =>
    match t.coords, t.timestep with
    | some a, some dt =>
      match velocityTraj a.steps dt true with
      | none => .error .index
      | some v => .ok { t with velocity := some ⟨a.natoms, v⟩ }
    | _, _ => .ok t

/-- `mass`: `get_mass`, `crys.py:2802-2809`; `table` is the periodic table. -/
def Trj.setMass (table : String → Option ℝ) (t : Trj) : Except DErr Trj :=
  match t.mass, t.symbols with
  | none, some syms =>
    match syms.mapM table with
    | none => .error .key
    | some m => .ok { t with mass := some m }
  | _, _ => .ok t

/-- `((vv**2.0).sum(axis=2)*mm[None,:]/2.0).sum(axis=1)` for one step; numpy broadcasts a length of one. -/
noncomputable def kinetic {na : Nat} (v : Fin na → V3) (m : List ℝ) : Except DErr ℝ :=
  let w : Fin na → ℝ := fun j => ∑ k, v j k ^ 2
  if m.length = na then .ok (∑ j, w j * m.getD j 0 / 2)
  else if m.length = 1 then .ok (∑ j, w j * m.getD 0 0 / 2)
  else if h : na = 1 then .ok (m.map fun x => w ⟨0, by omega⟩ * x / 2).sum
  else .error .value

/-- `ekin`: `get_ekin`, `crys.py:2543-2560`. -/
noncomputable def Trj.setEkin (c : Consts) (table : String → Option ℝ) (t : Trj) : Except DErr Trj :=
  match t.ekin with
  | some _ => .ok t
  | none => t.setMass table >>= Trj.setVelocity >>= fun t =>
    match t.mass, t.velocity with
    | some m, some v =>
      match v.steps.mapM fun x => kinetic x m with
      | .error e => .error e
      | .ok es => .ok { t with ekin := some (es.map fun e => e * (c.ang / c.fs) ^ 2 * c.amu / c.eV) }
    | _, _ => .ok t

/-- `pressure`: `get_pressure`, `crys.py:2678-2689`. -/
noncomputable def Trj.setPressure (t : Trj) : Trj :=
  match t.pressure with
  | some _ => t
  | none => { t with pressure := t.stress.map fun l => l.map trace3 }

/-- `temperature`: `get_temperature`, `crys.py:2562-2572`. -/
noncomputable def Trj.setTemperature (c : Consts) (table : String → Option ℝ) (t : Trj) : Except DErr Trj :=
  match t.temperature with
  | some _ => .ok t
  | none => t.setEkin c table >>= fun t =>
    let t := t.setNatoms
    match t.ekin, t.natoms with
    | some es, some na => .ok { t with temperature := some (es.map fun e => e * c.eV / na / c.kb * (2 / 3)) }
    | _, _ => .ok t

/-- `volume`: `get_volume`, `crys.py:2640-2650`. -/
noncomputable def Trj.setVolume (t : Trj) : Except DErr Trj :=
  match t.volume with
  | some _ => .ok t
  | none => t.setCell >>= fun t =>
    match t.cell with
    | none => .ok t
    | some c => perStep volumeCell c >>= fun l => .ok { t with volume := some l }

/-- `time`: `get_time`, `crys.py:2691-2698`, `np.linspace(0, (nstep-1)*timestep, nstep)`. -/
noncomputable def Trj.setTime (t : Trj) : Trj :=
  match t.time with
  | some _ => t
  | none =>
    let t := t.setNstep
    match t.timestep, t.nstep with
    | some dt, some n => { t with time := some ((List.range n).map fun i : Nat => (i : ℝ) * ((((n : ℝ) - 1) * dt) / ((n : ℝ) - 1))) }
    | _, _ => t

/-- `Trajectory.set_all`, `crys.py:2446-2449`, in the order of `attr_lst` (`crys.py:2339-2369`). -/
noncomputable def Trj.setAll (c : Consts) (table : String → Option ℝ) (t : Trj) : Except DErr Trj :=
  t.extend.setCell >>= Trj.setCoords >>= Trj.setCoordsFrac >>= Trj.setCC >>= Trj.setEkin c table >>= fun t =>
  t.setPressure.setTemperature c table >>= Trj.setVelocity >>= Trj.setVolume >>= Trj.setMass table >>= fun t =>
  .ok t.setNatoms.setNstep.setTime

end Pwtools.Drv
