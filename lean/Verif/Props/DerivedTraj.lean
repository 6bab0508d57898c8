import Verif.Props.Derived
import Verif.Props.Scell
/-!
# C93: derived attributes of trajectories
-/
namespace Pwtools.Drv
open Pwtools.Cry Pwtools.Spec

/-- What all states after `_extend` have in common. -/
structure Inv (n na : Nat) (t : Trj) : Prop where
  some : t.coords ≠ none ∨ t.coordsFrac ≠ none
  coords : ∀ a, t.coords = .some a → a.natoms = na ∧ a.steps.length = n
  coordsFrac : ∀ a, t.coordsFrac = .some a → a.natoms = na ∧ a.steps.length = n
  cell : ∀ e, t.cell = .some e → ∃ l, e = .many l ∧ l.length = n
  cc : ∀ e, t.cc = .some e → ∃ l, e = .many l ∧ l.length = n
  stress : ∀ l, t.stress = .some l → l.length = n
  pressure : ∀ l, t.pressure = .some l → l.length = n
  volume : ∀ l, t.volume = .some l → l.length = n
  symbols : ∀ l, t.symbols = .some l → l.length = na
  nstep : t.nstep = .some n
  natoms : ∀ k, t.natoms = .some k → k = na

/-- A structure without the number of atoms. -/
def bare (s : St) : St := ⟨s.cell, s.cc, s.coords, s.coordsFrac, s.stress, s.pressure, s.volume, s.symbols, none⟩

/-- The state stands for these structures. -/
def Rel (n na : Nat) (t : Trj) (s : Nat → St) : Prop := Inv n na t ∧ ∀ i < n, bare (stepAt t i) = s i

/-- The kinetic attributes are the same. -/
structure Frame (t t' : Trj) : Prop where
  velocity : t'.velocity = t.velocity
  ekin : t'.ekin = t.ekin
  temperature : t'.temperature = t.temperature
  timestep : t'.timestep = t.timestep
  time : t'.time = t.time
  mass : t'.mass = t.mass
  symbols : t'.symbols = t.symbols

theorem Frame.refl (t : Trj) : Frame t t := ⟨rfl, rfl, rfl, rfl, rfl, rfl, rfl⟩

theorem Frame.trans {a b c : Trj} (h : Frame a b) (k : Frame b c) : Frame a c :=
  ⟨k.1.trans h.1, k.2.trans h.2, k.3.trans h.3, k.4.trans h.4, k.5.trans h.5, k.6.trans h.6, k.7.trans h.7⟩

theorem itemAt_many {α : Type} (l : List α) (i : Nat) (h : i < l.length) : itemAt (.many l) i = l[i]? := by
  match l with
  | [] => rfl
  | [x] =>
    obtain rfl : i = 0 := by simpa using h
    rfl
  | _ :: _ :: _ => rfl

theorem extendA_many {α : Type} (l : List α) : (Ext.many l).extendA (some l.length) = .ok (.many l) := by
  match l with
  | [] => rfl
  | [x] => rfl
  | _ :: _ :: _ => rfl

theorem setNstep_eq {n na : Nat} {t : Trj} (h : Inv n na t) : t.setNstep = t := by
  unfold Trj.setNstep
  rw [h.nstep]

theorem setCell_rel {n na : Nat} {t : Trj} {s : Nat → St} (h : Rel n na t s) :
    ∃ t', t.setCell = .ok t' ∧ Rel n na t' (fun i => (s i).setCell) ∧ Frame t t' ∧ t'.coords = t.coords ∧ t'.coordsFrac = t.coordsFrac := by
  obtain ⟨hi, hs⟩ := h
  unfold Trj.setCell
  cases hc : t.cell with
  | some e =>
    refine ⟨t, rfl, ⟨hi, fun i hl => ?_⟩, .refl t, rfl, rfl⟩
    beta_reduce
    rw [← hs i hl]
    obtain ⟨l, rfl, hlen⟩ := hi.cell e hc
    have : (stepAt t i).cell = some l[i] := by
      simp only [bare, stepAt, hc, Option.bind_some]
      rw [itemAt_many l i (by omega), List.getElem?_eq_getElem (by omega)]
    simp [St.setCell, bare, this]
  | none =>
    cases hcc : t.cc with
    | none =>
      refine ⟨t, rfl, ⟨hi, fun i hl => ?_⟩, .refl t, rfl, rfl⟩
      beta_reduce
      rw [← hs i hl]
      simp [St.setCell, bare, stepAt, hc, hcc]
    | some e =>
      obtain ⟨l, rfl, hlen⟩ := hi.cc e hcc
      simp only
      subst hlen
      have e : (Ext.many l).extendA t.nstep = .ok (.many l) := by rw [hi.nstep, extendA_many]
      rw [setNstep_eq hi, e]
      refine ⟨_, rfl, ⟨{ hi with cell := ?_ }, fun i hl => ?_⟩, ⟨rfl, rfl, rfl, rfl, rfl, rfl, rfl⟩, rfl, rfl⟩
      · rintro e ⟨⟩
        exact ⟨_, rfl, by rw [List.length_map]⟩
      · beta_reduce
        rw [← hs i hl]
        simp only [St.setCell, bare, stepAt, hc, hcc, Option.bind_some, Option.bind_none]
        rw [itemAt_many (l.map _) i (by rw [List.length_map]; omega), itemAt_many l i (by omega), List.getElem?_map]

theorem setNatoms_rel {n na : Nat} {t : Trj} {s : Nat → St} (h : Rel n na t s) :
    Rel n na t.setNatoms s ∧ Frame t t.setNatoms ∧ t.setNatoms.natoms = some na ∧ t.setNatoms.cell = t.cell ∧ t.setNatoms.coords = t.coords ∧
      t.setNatoms.coordsFrac = t.coordsFrac ∧ t.setNatoms.ekin = t.ekin := by
  obtain ⟨hi, hs⟩ := h
  cases hn : t.natoms with
  | some k =>
    have e : t.setNatoms = t := by
      unfold Trj.setNatoms
      rw [hn]
    rw [hi.natoms k hn] at hn
    rw [e]
    exact ⟨⟨hi, hs⟩, .refl t, hn, rfl, rfl, rfl, rfl⟩
  | none =>
    have key : t.getNatoms = some na := by
      unfold Trj.getNatoms
      cases h1 : t.symbols with
      | some l => simp [hi.symbols l h1]
      | none =>
        cases h2 : t.coords with
        | some a => simp [(hi.coords a h2).1]
        | none =>
          cases h3 : t.coordsFrac with
          | some a => simp [(hi.coordsFrac a h3).1]
          | none => rcases hi.some with h | h <;> contradiction
    have e : t.setNatoms = { t with natoms := some na } := by
      unfold Trj.setNatoms
      rw [hn, key]
    rw [e]
    refine ⟨⟨{ hi with natoms := ?_ }, fun i hl => ?_⟩, ⟨rfl, rfl, rfl, rfl, rfl, rfl, rfl⟩, rfl, rfl, rfl, rfl, rfl⟩
    · rintro k ⟨⟩; rfl
    · beta_reduce
      rw [← hs i hl]
      rfl

theorem convert_ok (f : Cell → V3 → V3) (a : Arr3) (n na : Nat) (h : a.natoms = na ∧ a.steps.length = n) (cells : List Cell)
    (hc : cells.length = n) : ∃ r, convert f a na (.many cells) = .ok r ∧ r.natoms = na ∧ r.steps.length = n ∧
      ∀ i < n, atomsAt r i = ((cells[i]?).bind fun c => (atomsAt a i).map fun l => l.map (f c)) := by
  unfold convert
  simp only
  rw [if_pos ⟨h.1, by omega⟩]
  refine ⟨_, rfl, h.1, by simp; omega, fun i hi => ?_⟩
  unfold atomsAt
  simp only
  rw [List.getElem?_zipWith, List.getElem?_eq_getElem (by omega : i < cells.length), List.getElem?_eq_getElem (by omega : i < a.steps.length)]
  simp [List.map_ofFn, Function.comp_def]

theorem atoms_some {a : Arr3} {n i : Nat} (h : a.steps.length = n) (hi : i < n) : ∃ l, atomsAt a i = some l := by
  unfold atomsAt
  rw [List.getElem?_eq_getElem (by omega)]
  exact ⟨_, rfl⟩

theorem setCoords_rel {n na : Nat} {t : Trj} {s : Nat → St} (h : Rel n na t s) :
    ∃ t', t.setCoords = .ok t' ∧ Rel n na t' (fun i => (s i).setCoords) ∧ Frame t t' := by
  unfold Trj.setCoords
  cases hc : t.coords with
  | some a =>
    refine ⟨t, by simp, ⟨h.1, fun i hl => ?_⟩, .refl t⟩
    obtain ⟨l, hl'⟩ := atoms_some (h.1.coords a hc).2 hl
    beta_reduce
    rw [← h.2 i hl]
    unfold St.setCoords
    simp [bare, stepAt, hc, hl']
  | none =>
    cases hf : t.coordsFrac with
    | none => rcases h.1.some with h' | h' <;> contradiction
    | some a =>
      obtain ⟨t1, e1, r1, f1, c1, c1'⟩ := setCell_rel h
      have hr1 : ∀ i < n, bare (stepAt t1 i) = (s i).setCell := r1.2
      obtain ⟨r2, f2, n2, d2, c2, c2', -⟩ := setNatoms_rel r1
      simp only
      rw [e1]
      simp only [bind, Except.bind]
      rw [n2, d2]
      cases hcell : t1.cell with
      | none =>
        refine ⟨_, rfl, ⟨r2.1, fun i hl => ?_⟩, f1.trans f2⟩
        rw [r2.2 i hl]
        have h1 : ((s i).setCell).cell = none := by
          rw [← hr1 i hl]
          simp [bare, stepAt, hcell]
        have h2 : (s i).coords = none := by
          beta_reduce
          rw [← h.2 i hl]
          simp [bare, stepAt, hc]
        have h3 : ∃ l, (s i).coordsFrac = some l := by
          obtain ⟨l, hl'⟩ := atoms_some (h.1.coordsFrac a hf).2 hl
          exact ⟨l, by rw [← h.2 i hl]; simp [bare, stepAt, hf, hl']⟩
        obtain ⟨l, h3⟩ := h3
        show (s i).setCell = (s i).setCoords
        unfold St.setCoords
        rw [h2, h3]
        have h4 : ((s i).setCell).coords = none := by
          unfold St.setCell
          cases (s i).cell <;> exact h2
        simp only
        generalize (s i).setCell = x at h1 h4
        obtain ⟨⟩ := x
        simp_all
      | some e =>
        obtain ⟨cells, rfl, hlen⟩ := r1.1.cell e hcell
        obtain ⟨r, e3, hk1, hr2, hr3⟩ := convert_ok frac2cart a n na (h.1.coordsFrac a hf) cells hlen
        simp only
        rw [e3]
        refine ⟨_, rfl, ⟨{ r2.1 with coords := ?_, some := Or.inl (by simp), cell := ?_, natoms := ?_ }, fun i hl => ?_⟩, f1.trans ⟨f2.1, f2.2, f2.3, f2.4, f2.5, f2.6, f2.7⟩⟩
        · rintro _ ⟨⟩
          exact ⟨hk1, hr2⟩
        · rintro _ ⟨⟩
          exact ⟨_, rfl, hlen⟩
        · rintro _ ⟨⟩
          rfl
        · have h0 : bare (stepAt t1.setNatoms i) = (s i).setCell := r2.2 i hl
          have h1 := h.2 i hl
          obtain ⟨l, hl'⟩ := atoms_some (h.1.coordsFrac a hf).2 hl
          have h2 : (s i).coords = none := by rw [← h1]; simp [bare, stepAt, hc]
          have h3 : (s i).coordsFrac = some l := by rw [← h1]; simp [bare, stepAt, hf, hl']
          have h4 : ((s i).setCell).cell = some cells[i] := by
            rw [← hr1 i hl]
            simp only [bare, stepAt, hcell, Option.bind_some]
            rw [itemAt_many cells i (by omega), List.getElem?_eq_getElem (by omega)]
          show _ = (s i).setCoords
          unfold St.setCoords
          rw [h2, h3]
          simp only [h4, Option.map_some]
          rw [← h0]
          simp only [bare, stepAt, d2, hcell, Option.bind_some, hr3 i hl, hl', List.getElem?_eq_getElem (by omega : i < cells.length), Option.map_some, itemAt_many cells i (by omega)]

theorem setCoordsFrac_rel {n na : Nat} {t : Trj} {s : Nat → St} (h : Rel n na t s) :
    ∃ t', t.setCoordsFrac = .ok t' ∧ Rel n na t' (fun i => (s i).setCoordsFrac) ∧ Frame t t' := by
  unfold Trj.setCoordsFrac
  cases hc : t.coordsFrac with
  | some a =>
    refine ⟨t, by simp, ⟨h.1, fun i hl => ?_⟩, .refl t⟩
    obtain ⟨l, hl'⟩ := atoms_some (h.1.coordsFrac a hc).2 hl
    beta_reduce
    rw [← h.2 i hl]
    unfold St.setCoordsFrac
    simp [bare, stepAt, hc, hl']
  | none =>
    cases hf : t.coords with
    | none => rcases h.1.some with h' | h' <;> contradiction
    | some a =>
      obtain ⟨t1, e1, r1, f1, c1, c1'⟩ := setCell_rel h
      have hr1 : ∀ i < n, bare (stepAt t1 i) = (s i).setCell := r1.2
      obtain ⟨r2, f2, n2, d2, c2, c2', -⟩ := setNatoms_rel r1
      simp only
      rw [e1]
      simp only [bind, Except.bind]
      rw [n2, d2]
      cases hcell : t1.cell with
      | none =>
        refine ⟨_, rfl, ⟨r2.1, fun i hl => ?_⟩, f1.trans f2⟩
        rw [r2.2 i hl]
        have h1 : ((s i).setCell).cell = none := by
          rw [← hr1 i hl]
          simp [bare, stepAt, hcell]
        have h2 : (s i).coordsFrac = none := by
          beta_reduce
          rw [← h.2 i hl]
          simp [bare, stepAt, hc]
        have h3 : ∃ l, (s i).coords = some l := by
          obtain ⟨l, hl'⟩ := atoms_some (h.1.coords a hf).2 hl
          exact ⟨l, by rw [← h.2 i hl]; simp [bare, stepAt, hf, hl']⟩
        obtain ⟨l, h3⟩ := h3
        show (s i).setCell = (s i).setCoordsFrac
        unfold St.setCoordsFrac
        rw [h2, h3]
        have h4 : ((s i).setCell).coordsFrac = none := by
          unfold St.setCell
          cases (s i).cell <;> exact h2
        simp only
        generalize (s i).setCell = x at h1 h4
        obtain ⟨⟩ := x
        simp_all
      | some e =>
        obtain ⟨cells, rfl, hlen⟩ := r1.1.cell e hcell
        obtain ⟨r, e3, hk1, hr2, hr3⟩ := convert_ok cart2frac a n na (h.1.coords a hf) cells hlen
        simp only
        rw [e3]
        refine ⟨_, rfl, ⟨{ r2.1 with coordsFrac := ?_, some := Or.inr (by simp), cell := ?_, natoms := ?_ }, fun i hl => ?_⟩,
          f1.trans ⟨f2.1, f2.2, f2.3, f2.4, f2.5, f2.6, f2.7⟩⟩
        · rintro _ ⟨⟩
          exact ⟨hk1, hr2⟩
        · rintro _ ⟨⟩
          exact ⟨_, rfl, hlen⟩
        · rintro _ ⟨⟩
          rfl
        · have h0 : bare (stepAt t1.setNatoms i) = (s i).setCell := r2.2 i hl
          have h1 := h.2 i hl
          obtain ⟨l, hl'⟩ := atoms_some (h.1.coords a hf).2 hl
          have h2 : (s i).coordsFrac = none := by rw [← h1]; simp [bare, stepAt, hc]
          have h3 : (s i).coords = some l := by rw [← h1]; simp [bare, stepAt, hf, hl']
          have h4 : ((s i).setCell).cell = some cells[i] := by
            rw [← hr1 i hl]
            simp only [bare, stepAt, hcell, Option.bind_some]
            rw [itemAt_many cells i (by omega), List.getElem?_eq_getElem (by omega)]
          show _ = (s i).setCoordsFrac
          unfold St.setCoordsFrac
          rw [h2, h3]
          simp only [h4, Option.map_some]
          rw [← h0]
          simp only [bare, stepAt, d2, hcell, Option.bind_some, hr3 i hl, hl', List.getElem?_eq_getElem (by omega : i < cells.length), Option.map_some, itemAt_many cells i (by omega)]

theorem setCC_rel {n na : Nat} {t : Trj} {s : Nat → St} (h : Rel n na t s) :
    ∃ t', t.setCC = .ok t' ∧ Rel n na t' (fun i => (s i).setCC) ∧ Frame t t' := by
  obtain ⟨hi, hs⟩ := h
  unfold Trj.setCC
  cases hc : t.cc with
  | some e =>
    refine ⟨t, by simp, ⟨hi, fun i hl => ?_⟩, .refl t⟩
    beta_reduce
    rw [← hs i hl]
    obtain ⟨l, rfl, hlen⟩ := hi.cc e hc
    have : (stepAt t i).cc = some l[i] := by
      simp only [bare, stepAt, hc, Option.bind_some]
      rw [itemAt_many l i (by omega), List.getElem?_eq_getElem (by omega)]
    simp [St.setCC, bare, this]
  | none =>
    cases hcc : t.cell with
    | none =>
      refine ⟨t, rfl, ⟨hi, fun i hl => ?_⟩, .refl t⟩
      beta_reduce
      rw [← hs i hl]
      simp [St.setCC, bare, stepAt, hc, hcc]
    | some e =>
      obtain ⟨l, rfl, hlen⟩ := hi.cell e hcc
      simp only
      subst hlen
      have e : (Ext.many l).extendA t.nstep = .ok (.many l) := by rw [hi.nstep, extendA_many]
      rw [setNstep_eq hi, e]
      refine ⟨_, rfl, ⟨{ hi with cc := ?_ }, fun i hl => ?_⟩, ⟨rfl, rfl, rfl, rfl, rfl, rfl, rfl⟩⟩
      · rintro e ⟨⟩
        exact ⟨_, rfl, by rw [List.length_map]⟩
      · beta_reduce
        rw [← hs i hl]
        simp only [St.setCC, bare, stepAt, hc, hcc, Option.bind_some, Option.bind_none]
        rw [itemAt_many (l.map _) i (by rw [List.length_map]; omega), itemAt_many l i (by omega), List.getElem?_map]

theorem setPressure_rel {n na : Nat} {t : Trj} {s : Nat → St} (h : Rel n na t s) :
    Rel n na t.setPressure (fun i => (s i).setPressure) ∧ Frame t t.setPressure := by
  obtain ⟨hi, hs⟩ := h
  unfold Trj.setPressure
  cases hp : t.pressure with
  | some l =>
    refine ⟨⟨hi, fun i hl => ?_⟩, .refl t⟩
    beta_reduce
    rw [← hs i hl]
    have : (stepAt t i).pressure = some (l[i]'(by have := hi.pressure l hp; omega)) := by
      simp only [bare, stepAt, hp, Option.bind_some]
      exact List.getElem?_eq_getElem _
    simp [St.setPressure, bare, this]
  | none =>
    simp only
    refine ⟨⟨{ hi with pressure := ?_ }, fun i hl => ?_⟩, ⟨rfl, rfl, rfl, rfl, rfl, rfl, rfl⟩⟩
    · intro l hl
      obtain ⟨m, hm, rfl⟩ := Option.map_eq_some_iff.1 hl
      rw [List.length_map]
      exact hi.stress m hm
    · beta_reduce
      rw [← hs i hl]
      cases hst : t.stress <;> simp [St.setPressure, bare, stepAt, hp, hst]

theorem setVolume_rel {n na : Nat} {t : Trj} {s : Nat → St} (h : Rel n na t s) :
    ∃ t', t.setVolume = .ok t' ∧ Rel n na t' (fun i => (s i).setVolume) ∧ Frame t t' ∧ t'.coords = t.coords := by
  unfold Trj.setVolume
  cases hv : t.volume with
  | some l =>
    refine ⟨t, rfl, ⟨h.1, fun i hl => ?_⟩, .refl t, rfl⟩
    beta_reduce
    rw [← h.2 i hl]
    have : (stepAt t i).volume = some (l[i]'(by have := h.1.volume l hv; omega)) := by
      simp only [bare, stepAt, hv, Option.bind_some]
      exact List.getElem?_eq_getElem _
    simp [St.setVolume, bare, this]
  | none =>
    obtain ⟨t1, e1, r1, f1, co, -⟩ := setCell_rel h
    have hr1 : ∀ i < n, bare (stepAt t1 i) = (s i).setCell := r1.2
    simp only
    rw [e1]
    simp only [bind, Except.bind]
    have hs : ∀ i < n, (s i).volume = none := fun i hl => by rw [← h.2 i hl]; simp [bare, stepAt, hv]
    cases hc : t1.cell with
    | none =>
      refine ⟨_, rfl, ⟨r1.1, fun i hl => ?_⟩, f1, co⟩
      show bare (stepAt t1 i) = (s i).setVolume
      rw [hr1 i hl]
      have h1 : ((s i).setCell).cell = none := by
        rw [← hr1 i hl]
        simp [bare, stepAt, hc]
      unfold St.setVolume
      rw [hs i hl]
      have h4 : ((s i).setCell).volume = none := by
        unfold St.setCell
        cases (s i).cell <;> exact hs i hl
      simp only
      generalize (s i).setCell = x at h1 h4
      obtain ⟨⟩ := x
      simp_all
    | some e =>
      obtain ⟨cells, rfl, hlen⟩ := r1.1.cell e hc
      refine ⟨_, rfl, ⟨{ r1.1 with volume := ?_, cell := ?_ }, fun i hl => ?_⟩, ⟨f1.1, f1.2, f1.3, f1.4, f1.5, f1.6, f1.7⟩, co⟩
      rotate_left
      · rintro _ ⟨⟩
        rw [List.length_map, hlen]
      rotate_left
      · rintro _ ⟨⟩
        exact ⟨_, rfl, hlen⟩
      · have h4 : ((s i).setCell).cell = some cells[i] := by
          rw [← hr1 i hl]
          simp only [bare, stepAt, hc, Option.bind_some]
          rw [itemAt_many cells i (by omega), List.getElem?_eq_getElem (by omega)]
        show _ = (s i).setVolume
        unfold St.setVolume
        rw [hs i hl]
        simp only [h4, Option.map_some]
        rw [← hr1 i hl]
        simp only [bare, stepAt, hc, Option.bind_some, List.getElem?_map, List.getElem?_eq_getElem (by omega : i < cells.length), Option.map_some, itemAt_many cells i (by omega)]

/-! ## the kinetic part -/

/-- Without a cell there are no lattice constants, and without cartesian coordinates there is no cell. -/
def Settled (t : Trj) : Prop := (t.coords = none → t.cell = none ∧ t.cc = none)

theorem setCell_none {t t' : Trj} (h : t.setCell = .ok t') (hc : t'.cell = none) : t' = t ∧ t.cc = none := by
  unfold Trj.setCell at h
  cases h1 : t.cell with
  | some e =>
    rw [h1] at h
    cases h
    rw [h1] at hc
    cases hc
  | none =>
    cases h2 : t.cc with
    | none =>
      rw [h1, h2] at h
      cases h
      exact ⟨rfl, rfl⟩
    | some e =>
      rw [h1, h2] at h
      simp only [bind, Except.bind] at h
      split at h
      · cases h
      · cases h
        cases hc

theorem setCoords_settled {n na : Nat} {t t' : Trj} (hi : Inv n na t) (h : t.setCoords = .ok t') : Settled t' := by
  intro hc
  unfold Trj.setCoords at h
  cases h1 : t.coords with
  | some a =>
    rw [h1] at h
    cases h
    rw [h1] at hc
    cases hc
  | none =>
    cases h2 : t.coordsFrac with
    | none => rcases hi.some with h' | h' <;> contradiction
    | some a =>
      rw [h1, h2] at h
      simp only [bind, Except.bind] at h
      cases e : t.setCell with
      | error e' =>
        rw [e] at h
        cases h
      | ok t1 =>
        obtain ⟨t1', e1, r1, -⟩ := setCell_rel (s := fun i => bare (stepAt t i)) ⟨hi, fun _ _ => rfl⟩
        obtain rfl : t1 = t1' := by
          rw [e] at e1
          cases e1
          rfl
        obtain ⟨-, -, g1, g2, -⟩ := setNatoms_rel r1
        rw [e] at h
        simp only at h
        cases hcell : t1.cell with
        | none =>
          obtain ⟨rfl, hcc⟩ := setCell_none e hcell
          rw [g2, hcell] at h
          cases h
          have : t1.setNatoms.cc = t1.cc := by
            unfold Trj.setNatoms
            cases t1.natoms <;> rfl
          rw [g2, this]
          exact ⟨hcell, hcc⟩
        | some c =>
          rw [g2, g1, hcell] at h
          simp only at h
          split at h
          · cases h
          · cases h
            cases hc

theorem setCoords_of_settled {n na : Nat} {t : Trj} {s : Nat → St} (h : Rel n na t s) (hs : Settled t) :
    ∃ t', t.setCoords = .ok t' ∧ Rel n na t' s ∧ Frame t t' ∧ t'.coords = t.coords ∧ Settled t' := by
  unfold Trj.setCoords
  cases h1 : t.coords with
  | some a => exact ⟨t, rfl, h, .refl t, h1, hs⟩
  | none =>
    cases h2 : t.coordsFrac with
    | none => rcases h.1.some with h' | h' <;> contradiction
    | some a =>
      obtain ⟨c1, c2⟩ := hs h1
      have e : t.setCell = .ok t := by
        unfold Trj.setCell
        rw [c1, c2]
      obtain ⟨r2, f2, g1, g2, g3, g4, -⟩ := setNatoms_rel h
      simp only
      rw [e]
      simp only [bind, Except.bind]
      rw [g2, c1]
      have : t.setNatoms.cc = t.cc := by
        unfold Trj.setNatoms
        cases t.natoms <;> rfl
      exact ⟨_, rfl, r2, f2, g3.trans h1, fun _ => ⟨g2.trans c1, this.trans c2⟩⟩

theorem setCoordsFrac_settled {n na : Nat} {t t' : Trj} (hi : Inv n na t) (hs : Settled t) (h : t.setCoordsFrac = .ok t') :
    Settled t' := by
  intro hc
  unfold Trj.setCoordsFrac at h
  cases h1 : t.coords with
  | none =>
    cases h2 : t.coordsFrac with
    | none => rcases hi.some with h' | h' <;> contradiction
    | some a =>
      rw [h1, h2] at h
      cases h
      exact hs h1
  | some a =>
    exfalso
    cases h2 : t.coordsFrac with
    | some a =>
      rw [h1, h2] at h
      cases h
      rw [h1] at hc
      cases hc
    | none =>
      obtain ⟨t1, e1, r1, -, c1, -⟩ := setCell_rel (s := fun i => bare (stepAt t i)) ⟨hi, fun _ _ => rfl⟩
      obtain ⟨-, -, g1, g2, g3, -⟩ := setNatoms_rel r1
      have hsome : t1.setNatoms.coords = some a := by rw [g3, c1, h1]
      rw [h1, h2, e1] at h
      simp only [bind, Except.bind] at h
      split at h
      · split at h
        · cases h
        · cases h
          rw [hsome] at hc
          cases hc
      · cases h
        rw [hsome] at hc
        cases hc

theorem setCC_settled {t t' : Trj} (hs : Settled t) (h : t.setCC = .ok t') (hn : t.setNstep = t) : Settled t' ∧ t'.coords = t.coords := by
  unfold Trj.setCC at h
  cases h1 : t.cc with
  | some e =>
    rw [h1] at h
    cases h
    exact ⟨hs, rfl⟩
  | none =>
    cases h2 : t.cell with
    | none =>
      rw [h1, h2] at h
      cases h
      exact ⟨hs, rfl⟩
    | some c =>
      rw [h1, h2, hn] at h
      simp only [bind, Except.bind] at h
      split at h
      · cases h
      · cases h
        refine ⟨fun hc => ?_, rfl⟩
        have := (hs hc).1
        rw [h2] at this
        cases this

section kin
variable (c : Consts) (table : String → Option ℝ) (n na : Nat) (inp : Trj) (C : Option Arr3)

/-- The masses. -/
def tgtM : Option (List ℝ) := inp.symbols.bind fun l => l.mapM table

/-- Velocities from coordinates. -/
noncomputable def velFrom : Option Arr3 → Option ℝ → Option Arr3
  | some a, some dt => (velocityTraj a.steps dt true).map fun v => ⟨a.natoms, v⟩
  | _, _ => none

/-- The velocities for the coordinates `C`. -/
noncomputable def tgtV : Option Arr3 :=
  match inp.velocity with
  | some v => some v
  | none => velFrom C inp.timestep

/-- The kinetic energies. -/
noncomputable def tgtE : Option (List ℝ) :=
  match inp.ekin with
  | some e => some e
  | none =>
    match tgtM table inp, tgtV inp C with
    | some m, some v =>
      match v.steps.mapM fun x => kinetic x m with
      | .error _ => none
      | .ok es => some (es.map fun e => e * (c.ang / c.fs) ^ 2 * c.amu / c.eV)
    | _, _ => none

/-- The temperatures. -/
noncomputable def tgtT : Option (List ℝ) :=
  match inp.temperature with
  | some e => some e
  | none => (tgtE c table inp C).map fun es => es.map fun e => e * c.eV / na / c.kb * (2 / 3)

/-- The state on the way. -/
structure Ph (t : Trj) : Prop where
  coords : t.coords = C
  settled : Settled t
  timestep : t.timestep = inp.timestep
  symbols : t.symbols = inp.symbols
  time : t.time = none
  mass : t.mass = none ∨ t.mass = tgtM table inp
  velocity : t.velocity = inp.velocity ∨ t.velocity = tgtV inp C
  ekin : t.ekin = inp.ekin ∨ t.ekin = tgtE c table inp C
  temperature : t.temperature = inp.temperature ∨ t.temperature = tgtT c table na inp C

/-- What makes the calculation possible. -/
structure Able : Prop where
  mass : ∀ l, inp.symbols = some l → ∃ m, l.mapM table = some m
  symbols : ∀ l, inp.symbols = some l → l.length = na
  vel : ∀ v, inp.velocity = some v → v.natoms = na ∧ v.steps.length = n
  steps : inp.velocity = none → inp.timestep ≠ none → 3 ≤ n

variable {c table n na inp C}

theorem mapM_len {α β : Type} (f : α → Option β) (l : List α) (m : List β) (h : l.mapM f = some m) : m.length = l.length := by
  induction l generalizing m with
  | nil => simp at h; simp [← h]
  | cons a l ih =>
    simp only [List.mapM_cons, Option.bind_eq_bind, Option.pure_def, Option.bind_eq_some_iff, Option.some.injEq] at h
    obtain ⟨b, -, bs, h2, rfl⟩ := h
    simp [ih bs h2]

theorem tgtM_len (ha : Able table n na inp) (m : List ℝ) (h : tgtM table inp = some m) : m.length = na := by
  obtain ⟨l, h1, h2⟩ := Option.bind_eq_some_iff.1 h
  rw [mapM_len _ _ _ h2, ha.symbols l h1]

theorem setMass_ph {t : Trj} {s : Nat → St} (ha : Able table n na inp) (h : Rel n na t s) (p : Ph c table na inp C t) :
    ∃ t', t.setMass table = .ok t' ∧ Rel n na t' s ∧ Ph c table na inp C t' ∧ t'.mass = tgtM table inp ∧ t'.velocity = t.velocity ∧
      t'.ekin = t.ekin ∧ t'.temperature = t.temperature := by
  unfold Trj.setMass
  cases h1 : t.mass with
  | some m =>
    have : t.mass = tgtM table inp := by
      rcases p.mass with h | h
      · rw [h1] at h
        cases h
      · exact h
    exact ⟨t, rfl, h, p, this, rfl, rfl, rfl⟩
  | none =>
    cases h2 : t.symbols with
    | none =>
      refine ⟨t, rfl, h, p, ?_, rfl, rfl, rfl⟩
      rw [h1]
      unfold tgtM
      rw [← p.symbols, h2]
      rfl
    | some l =>
      obtain ⟨m, hm⟩ := ha.mass l (by rw [← p.symbols, h2])
      simp only
      rw [hm]
      have : some m = tgtM table inp := by
        unfold tgtM
        rw [← p.symbols, h2]
        exact hm.symm
      exact ⟨_, rfl, ⟨{ h.1 with symbols := h2 ▸ h.1.symbols }, fun i hl => by rw [← h.2 i hl]; simp [bare, stepAt, h2]⟩,
        { p with mass := Or.inr this, symbols := h2 ▸ p.symbols }, this, rfl, rfl, rfl⟩

theorem setVelocity_ph {t : Trj} {s : Nat → St} (ha : Able table n na inp) (h : Rel n na t s) (p : Ph c table na inp C t) :
    ∃ t', t.setVelocity = .ok t' ∧ Rel n na t' s ∧ Ph c table na inp C t' ∧ t'.velocity = tgtV inp C ∧ t'.mass = t.mass ∧
      t'.ekin = t.ekin ∧ t'.temperature = t.temperature := by
  unfold Trj.setVelocity
  cases h1 : t.velocity with
  | some v =>
    have : t.velocity = tgtV inp C := by
      rcases p.velocity with h | h
      · unfold tgtV
        rw [← h, h1]
      · exact h
    exact ⟨t, rfl, h, p, this, rfl, rfl, rfl⟩
  | none =>
    have hv : inp.velocity = none := by
      rcases p.velocity with h | h
      · rw [← h, h1]
      · rw [h1] at h
        cases hv : inp.velocity with
        | none => rfl
        | some v =>
          unfold tgtV at h
          rw [hv] at h
          cases h
    have hV : tgtV inp C = velFrom C inp.timestep := by
      unfold tgtV
      rw [hv]
    obtain ⟨t1, e1, r1, f1, c1, s1⟩ := setCoords_of_settled h p.settled
    have p1 : Ph c table na inp C t1 := ⟨c1.trans p.coords, s1, f1.timestep.trans p.timestep, f1.symbols.trans p.symbols, f1.time.trans p.time,
      by rw [f1.mass]; exact p.mass, by rw [f1.velocity]; exact p.velocity, by rw [f1.ekin]; exact p.ekin,
      by rw [f1.temperature]; exact p.temperature⟩
    simp only
    rw [e1]
    simp only [bind, Except.bind]
    cases hc : t1.coords with
    | none =>
      refine ⟨t1, rfl, r1, p1, ?_, f1.mass, f1.ekin, f1.temperature⟩
      rw [hV, ← p1.coords, hc, f1.velocity, h1]
      rfl
    | some a =>
      cases hd : t1.timestep with
      | none =>
        refine ⟨t1, rfl, r1, p1, ?_, f1.mass, f1.ekin, f1.temperature⟩
        rw [hV, ← p1.coords, hc, ← p1.timestep, hd, f1.velocity, h1]
        rfl
      | some dt =>
        have h3 : 3 ≤ n := ha.steps hv (by rw [← p1.timestep, hd]; simp)
        obtain ⟨v, hv', -⟩ := C46_velocity a.steps dt (by rw [(r1.1.coords a hc).2]; exact h3)
        simp only
        rw [hv']
        have : some (⟨a.natoms, v⟩ : Arr3) = tgtV inp C := by
          rw [hV, ← p1.coords, hc, ← p1.timestep, hd]
          simp [velFrom, hv']
        have e : ({ t1 with velocity := some ⟨a.natoms, v⟩ } : Trj).velocity = tgtV inp C := this
        exact ⟨{ t1 with velocity := some ⟨a.natoms, v⟩ }, by simp [hc, hd], ⟨{ r1.1 with }, r1.2⟩, { p1 with velocity := Or.inr this, settled := s1 }, this,
          f1.mass, f1.ekin, f1.temperature⟩

end kin

end Pwtools.Drv
