import Verif.Model.Derived
/-!
# Specification for C93: what the derived attributes of structures and trajectories mean
-/
namespace Pwtools.Spec
open Pwtools.Cry Pwtools.Drv

/-- `cc` are the lengths of the cell vectors and the angles (degrees) between them. -/
structure LatticeConst (m : Cell) (cc : CrystConst) : Prop where
  a : cc.a = Real.sqrt (m 0 0 ^ 2 + m 0 1 ^ 2 + m 0 2 ^ 2)
  b : cc.b = Real.sqrt (m 1 0 ^ 2 + m 1 1 ^ 2 + m 1 2 ^ 2)
  c : cc.c = Real.sqrt (m 2 0 ^ 2 + m 2 1 ^ 2 + m 2 2 ^ 2)
  alpha : m 1 0 * m 2 0 + m 1 1 * m 2 1 + m 1 2 * m 2 2 = cc.b * cc.c * Real.cos (cc.alpha * Real.pi / 180)
  beta : m 0 0 * m 2 0 + m 0 1 * m 2 1 + m 0 2 * m 2 2 = cc.a * cc.c * Real.cos (cc.beta * Real.pi / 180)
  gamma : m 0 0 * m 1 0 + m 0 1 * m 1 1 + m 0 2 * m 1 2 = cc.a * cc.b * Real.cos (cc.gamma * Real.pi / 180)
  range : (0 ≤ cc.alpha ∧ cc.alpha ≤ 180) ∧ (0 ≤ cc.beta ∧ cc.beta ≤ 180) ∧ (0 ≤ cc.gamma ∧ cc.gamma ≤ 180)

/-- The cartesian position of the fractional coordinates `s`. -/
def CartOf (c : Cell) (s r : V3) : Prop := ∀ k, r k = s 0 * c 0 k + s 1 * c 1 k + s 2 * c 2 k

/-- The attributes of a structure fit together. -/
structure Consistent (s : St) : Prop where
  lattice : ∀ c cc, s.cell = some c → s.cc = some cc → LatticeConst c cc
  coords : ∀ c r f, s.cell = some c → s.coords = some r → s.coordsFrac = some f → List.Forall₂ (fun f r => CartOf c f r) f r
  volume : ∀ c v, s.cell = some c → s.volume = some v → v = |c.det|
  pressure : ∀ m p, s.stress = some m → s.pressure = some p → p = (m 0 0 + m 1 1 + m 2 2) / 3
  natoms : ∀ n, s.natoms = some n → (∀ l, s.symbols = some l → n = l.length) ∧ (∀ l, s.coords = some l → n = l.length) ∧
    (∀ l, s.coordsFrac = some l → n = l.length)

/-- Everything that can be known is there. -/
structure Complete (inp out : St) : Prop where
  cell : inp.cell.isSome ∨ inp.cc.isSome ↔ out.cell.isSome
  cc : inp.cell.isSome ∨ inp.cc.isSome ↔ out.cc.isSome
  volume : inp.cell.isSome ∨ inp.cc.isSome ∨ inp.volume.isSome ↔ out.volume.isSome
  coords : inp.coords.isSome ∨ (inp.coordsFrac.isSome ∧ (inp.cell.isSome ∨ inp.cc.isSome)) ↔ out.coords.isSome
  coordsFrac : inp.coordsFrac.isSome ∨ (inp.coords.isSome ∧ (inp.cell.isSome ∨ inp.cc.isSome)) ↔ out.coordsFrac.isSome
  pressure : inp.pressure.isSome ∨ inp.stress.isSome ↔ out.pressure.isSome
  natoms : inp.natoms.isSome ∨ inp.symbols.isSome ∨ inp.coords.isSome ∨ inp.coordsFrac.isSome ↔ out.natoms.isSome

/-- Nothing that was given has been changed. -/
structure Kept (inp out : St) : Prop where
  cell : ∀ x, inp.cell = some x → out.cell = some x
  cc : ∀ x, inp.cc = some x → out.cc = some x
  coords : ∀ x, inp.coords = some x → out.coords = some x
  coordsFrac : ∀ x, inp.coordsFrac = some x → out.coordsFrac = some x
  stress : out.stress = inp.stress
  symbols : out.symbols = inp.symbols
  pressure : ∀ x, inp.pressure = some x → out.pressure = some x
  volume : ∀ x, inp.volume = some x → out.volume = some x
  natoms : ∀ x, inp.natoms = some x → out.natoms = some x

/-- Lattice constants of a cell which exists. -/
def PossibleCC (cc : CrystConst) : Prop :=
  0 < cc.a ∧ 0 < cc.b ∧ 0 < cc.c ∧ (0 < cc.alpha ∧ cc.alpha < 180) ∧ (0 < cc.beta ∧ cc.beta < 180) ∧ (0 < cc.gamma ∧ cc.gamma < 180) ∧
  0 < 1 + 2 * Real.cos (cc.alpha * Real.pi / 180) * Real.cos (cc.beta * Real.pi / 180) * Real.cos (cc.gamma * Real.pi / 180)
    - Real.cos (cc.alpha * Real.pi / 180) ^ 2 - Real.cos (cc.beta * Real.pi / 180) ^ 2 - Real.cos (cc.gamma * Real.pi / 180) ^ 2

/-- What the user gives does not contradict itself: an existing cell, and what is redundant fits. -/
structure GoodInput (s : St) : Prop where
  consistent : Consistent s
  cell : ∀ c, s.cell = some c → c.det ≠ 0
  cc : s.cell = none → ∀ cc, s.cc = some cc → PossibleCC cc
  coordsCC : s.cell = none → s.cc ≠ none → s.coords = none ∨ s.coordsFrac = none
  volumeCC : s.cell = none → s.volume ≠ none → s.cc = none
  sizes : (∀ l r, s.symbols = some l → s.coords = some r → l.length = r.length) ∧
    (∀ l f, s.symbols = some l → s.coordsFrac = some f → l.length = f.length) ∧
    (∀ r f, s.coords = some r → s.coordsFrac = some f → r.length = f.length)

/-! ## trajectories -/

/-- The item for step `i`; one item stands for all steps. -/
def itemAt {α : Type} : Ext α → Nat → Option α
  | .one x, _ => some x
  | .many [x], _ => some x
  | .many l, i => l[i]?

/-- The atoms of step `i`. -/
def atomsAt (a : Arr3) (i : Nat) : Option (List V3) := (a.steps[i]?).map fun x => List.ofFn x

/-- Step `i` of the attributes of a trajectory, as attributes of a structure. -/
def stepAt (t : Trj) (i : Nat) : St where
  cell := t.cell.bind (itemAt · i)
  cc := t.cc.bind (itemAt · i)
  coords := t.coords.bind (atomsAt · i)
  coordsFrac := t.coordsFrac.bind (atomsAt · i)
  stress := t.stress.bind (·[i]?)
  pressure := t.pressure.bind (·[i]?)
  volume := t.volume.bind (·[i]?)
  symbols := t.symbols
  natoms := t.natoms

/-- One item, or one per step. -/
def ExtOk {α : Type} (n : Nat) (e : Ext α) : Prop := (∃ x, e = .one x) ∨ ∃ l, e = .many l ∧ (l.length = n ∨ l.length = 1)

/-- Input for a trajectory of `n` steps of `na` atoms: coordinates of one kind at least, everything with that many steps and atoms, nothing
derived. -/
structure TrajInput (n na : Nat) (t : Trj) : Prop where
  some : t.coords ≠ none ∨ t.coordsFrac ≠ none
  coords : ∀ a, t.coords = .some a → a.natoms = na ∧ a.steps.length = n
  coordsFrac : ∀ a, t.coordsFrac = .some a → a.natoms = na ∧ a.steps.length = n
  velocity : ∀ a, t.velocity = .some a → a.natoms = na ∧ a.steps.length = n
  cell : ∀ e, t.cell = .some e → ExtOk n e
  cc : ∀ e, t.cc = .some e → ExtOk n e
  stress : ∀ l, t.stress = .some l → l.length = n
  pressure : ∀ l, t.pressure = .some l → l.length = n
  volume : ∀ l, t.volume = .some l → l.length = n
  ekin : ∀ l, t.ekin = .some l → l.length = n
  temperature : ∀ l, t.temperature = .some l → l.length = n
  symbols : ∀ l, t.symbols = .some l → l.length = na
  fresh : t.natoms = none ∧ t.nstep = none ∧ t.mass = none ∧ t.time = none

/-- The position (or velocity) of atom `j` in step `i`. -/
def posAt (a : Arr3) (i j : Nat) : Option V3 := (atomsAt a i).bind (·[j]?)

/-- `v` are the velocities for the positions `a`: central differences; the first and the last step repeat their neighbours. -/
structure VelocityOf (dt : ℝ) (n na : Nat) (a v : Arr3) : Prop where
  size : v.natoms = na ∧ v.steps.length = n
  inner : ∀ i j x y, 1 ≤ i → posAt a (i - 1) j = some x → posAt a (i + 1) j = some y →
    posAt v i j = some (fun k => (y k - x k) / (2 * dt))
  ends : atomsAt v 0 = atomsAt v 1 ∧ atomsAt v (n - 1) = atomsAt v (n - 2)

/-- The kinetic energy in eV of masses (amu) with velocities (Å/fs): the sum of `m v²/2`. -/
noncomputable def kineticEnergy (c : Consts) (m : List ℝ) (v : List V3) : ℝ :=
  (List.zipWith (fun m (v : V3) => m * (v 0 ^ 2 + v 1 ^ 2 + v 2 ^ 2) / 2) m v).sum * (c.ang / c.fs) ^ 2 * c.amu / c.eV

/-- The attributes which are not about one step only. -/
structure TrajDerived (c : Consts) (table : String → Option ℝ) (n na : Nat) (inp out : Trj) : Prop where
  nstep : out.nstep = some n
  natoms : out.natoms = some na
  timestep : out.timestep = inp.timestep
  symbols : out.symbols = inp.symbols
  mass : out.mass = inp.symbols.bind fun l => l.mapM table
  time : out.time = inp.timestep.map fun dt => (List.range n).map fun i : Nat => (i : ℝ) * dt
  velocityGiven : ∀ v, inp.velocity = some v → out.velocity = some v
  velocity : inp.velocity = none → ∀ a dt, out.coords = some a → inp.timestep = some dt →
    ∃ v, out.velocity = some v ∧ VelocityOf dt n na a v
  velocityNone : inp.velocity = none → out.coords = none ∨ inp.timestep = none → out.velocity = none
  ekinGiven : ∀ e, inp.ekin = some e → out.ekin = some e
  ekin : inp.ekin = none → ∀ m v, out.mass = some m → out.velocity = some v →
    ∃ es, out.ekin = some es ∧ es.length = n ∧ ∀ i < n, ∃ l, atomsAt v i = some l ∧ l.length = na ∧ m.length = na ∧
      es[i]? = some (kineticEnergy c m l)
  ekinNone : inp.ekin = none → out.mass = none ∨ out.velocity = none → out.ekin = none
  temperatureGiven : ∀ e, inp.temperature = some e → out.temperature = some e
  temperature : inp.temperature = none → out.temperature = out.ekin.map fun es => es.map fun e => 2 * (e * c.eV) / (3 * na * c.kb)

end Pwtools.Spec
