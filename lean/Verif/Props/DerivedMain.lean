import Verif.Props.DerivedTraj
/-!
# C93: `set_all` of a trajectory
-/
namespace Pwtools.Drv
open Pwtools.Cry Pwtools.Spec

section kin
variable {c : Consts} {table : String → Option ℝ} {n na : Nat} {inp : Trj} {C : Option Arr3}

theorem tgtV_size (ha : Able table n na inp) (hC : ∀ a, C = some a → a.natoms = na ∧ a.steps.length = n) (v : Arr3) (h : tgtV inp C = some v) :
    v.natoms = na ∧ v.steps.length = n := by
  unfold tgtV at h
  cases hv : inp.velocity with
  | some w =>
    rw [hv] at h
    cases h
    exact ha.vel _ hv
  | none =>
    rw [hv] at h
    simp only at h
    cases hc : C with
    | none =>
      rw [hc] at h
      cases h
    | some a =>
      cases hd : inp.timestep with
      | none =>
        rw [hc, hd] at h
        cases h
      | some dt =>
        rw [hc, hd] at h
        have h3 : 3 ≤ n := ha.steps hv (by simp [hd])
        obtain ⟨w, hw, hl, -⟩ := C46_velocity a.steps dt (by rw [(hC a hc).2]; exact h3)
        simp only [velFrom, hw, Option.map_some, Option.some.injEq] at h
        subst h
        exact ⟨(hC a hc).1, hl.trans (hC a hc).2⟩

/-- The kinetic energy of one step, in amu Å²/fs². -/
noncomputable def kin1 {na : Nat} (m : List ℝ) (v : Fin na → V3) : ℝ := ∑ j, (∑ k, v j k ^ 2) * m.getD j 0 / 2

theorem kinetic_mapM {na : Nat} (m : List ℝ) (h : m.length = na) (l : List (Fin na → V3)) :
    (l.mapM fun x => kinetic x m) = Except.ok (l.map (kin1 m)) := by
  induction l with
  | nil => rfl
  | cons x l ih =>
    rw [List.mapM_cons, ih]
    unfold kinetic
    simp only
    rw [if_pos h]
    rfl

theorem tgtE_eq (ha : Able table n na inp) (hC : ∀ a, C = some a → a.natoms = na ∧ a.steps.length = n) (he : inp.ekin = none) (m : List ℝ)
    (v : Arr3) (hm : tgtM table inp = some m) (hv : tgtV inp C = some v) :
    tgtE c table inp C = some (v.steps.map fun x => kin1 m x * (c.ang / c.fs) ^ 2 * c.amu / c.eV) := by
  unfold tgtE
  rw [he, hm, hv]
  simp only
  rw [kinetic_mapM m (by rw [tgtM_len ha m hm, (tgtV_size ha hC v hv).1]) v.steps]
  simp [List.map_map, Function.comp_def]

theorem setEkin_ph {t : Trj} {s : Nat → St} (ha : Able table n na inp) (h : Rel n na t s) (p : Ph c table na inp C t) :
    ∃ t', t.setEkin c table = .ok t' ∧ Rel n na t' s ∧ Ph c table na inp C t' ∧ t'.ekin = tgtE c table inp C ∧
      t'.temperature = t.temperature := by
  have hC : ∀ a, C = some a → a.natoms = na ∧ a.steps.length = n := fun a hc => h.1.coords a (p.coords.trans hc)
  unfold Trj.setEkin
  cases h1 : t.ekin with
  | some v =>
    have : t.ekin = tgtE c table inp C := by
      rcases p.ekin with h | h
      · unfold tgtE
        rw [← h, h1]
      · exact h
    exact ⟨t, rfl, h, p, this, rfl⟩
  | none =>
    have he : inp.ekin = none := by
      rcases p.ekin with h | h
      · rw [← h, h1]
      · rw [h1] at h
        cases hv : inp.ekin with
        | none => rfl
        | some v =>
          unfold tgtE at h
          rw [hv] at h
          cases h
    obtain ⟨t1, e1, r1, p1, m1, v1, k1, T1⟩ := setMass_ph ha h p
    obtain ⟨t2, e2, r2, p2, v2, m2, k2, T2⟩ := setVelocity_ph ha r1 p1
    simp only
    rw [e1]
    simp only [bind, Except.bind]
    rw [e2]
    simp only
    have hm : t2.mass = tgtM table inp := m2.trans m1
    have hk : t2.ekin = none := k2.trans (k1.trans h1)
    cases hM : t2.mass with
    | none =>
      refine ⟨t2, rfl, r2, p2, ?_, T2.trans T1⟩
      unfold tgtE
      rw [he, ← hm, hM, hk]
    | some m =>
      cases hV : t2.velocity with
      | none =>
        refine ⟨t2, rfl, r2, p2, ?_, T2.trans T1⟩
        unfold tgtE
        rw [he, ← hm, hM, ← v2, hV, hk]
      | some v =>
        have hm' : tgtM table inp = some m := by rw [← hm, hM]
        have hv' : tgtV inp C = some v := by rw [← v2, hV]
        simp only
        rw [kinetic_mapM m (by rw [tgtM_len ha m hm', (tgtV_size ha hC v hv').1]) v.steps]
        have e := tgtE_eq (c := c) ha hC he m v hm' hv'
        simp only [List.map_map, Function.comp_def]
        exact ⟨_, rfl, ⟨{ r2.1 with }, r2.2⟩, ⟨p2.coords, p2.settled, p2.timestep, p2.symbols, p2.time, Or.inr hm'.symm, Or.inr hv'.symm,
          Or.inr e.symm, p2.temperature⟩, e.symm, T2.trans T1⟩

theorem setTemperature_ph {t : Trj} {s : Nat → St} (ha : Able table n na inp) (h : Rel n na t s) (p : Ph c table na inp C t) :
    ∃ t', t.setTemperature c table = .ok t' ∧ Rel n na t' s ∧ Ph c table na inp C t' ∧ t'.temperature = tgtT c table na inp C ∧
      (t.ekin = tgtE c table inp C → t'.ekin = tgtE c table inp C) := by
  unfold Trj.setTemperature
  cases h1 : t.temperature with
  | some v =>
    have : t.temperature = tgtT c table na inp C := by
      rcases p.temperature with h | h
      · unfold tgtT
        rw [← h, h1]
      · exact h
    exact ⟨t, rfl, h, p, this, id⟩
  | none =>
    have he : inp.temperature = none := by
      rcases p.temperature with h | h
      · rw [← h, h1]
      · rw [h1] at h
        cases hv : inp.temperature with
        | none => rfl
        | some v =>
          unfold tgtT at h
          rw [hv] at h
          cases h
    obtain ⟨t1, e1, r1, p1, k1, T1⟩ := setEkin_ph ha h p
    obtain ⟨r2, f2, g1, g2, g3, g4, g5⟩ := setNatoms_rel r1
    have hcc : t1.setNatoms.cc = t1.cc := by
      unfold Trj.setNatoms
      cases t1.natoms <;> rfl
    have p2 : Ph c table na inp C t1.setNatoms := ⟨g3.trans p1.coords, fun hc => by rw [g2, hcc]; exact p1.settled (g3.symm.trans hc),
      f2.timestep.trans p1.timestep, f2.symbols.trans p1.symbols, f2.time.trans p1.time,
      by rw [f2.mass]; exact p1.mass, by rw [f2.velocity]; exact p1.velocity, by rw [f2.ekin]; exact p1.ekin,
      by rw [f2.temperature]; exact p1.temperature⟩
    have k2 : t1.setNatoms.ekin = tgtE c table inp C := g5.trans k1
    simp only
    rw [e1]
    simp only [bind, Except.bind]
    generalize hg : t1.setNatoms = t2 at *
    cases hE : t2.ekin with
    | none =>
      refine ⟨t2, rfl, r2, p2, ?_, fun _ => k2⟩
      unfold tgtT
      rw [he, ← k2, hE]
      exact f2.temperature.trans (T1.trans h1)
    | some es =>
      have : some (es.map fun e => e * c.eV / na / c.kb * (2 / 3)) = tgtT c table na inp C := by
        unfold tgtT
        rw [he, ← k2, hE]
        rfl
      have hE' : some es = tgtE c table inp C := hE.symm.trans k2
      simp only [g1]
      refine ⟨_, rfl, ⟨{ r2.1 with natoms := ?_ }, r2.2⟩, ⟨p2.coords, p2.settled, p2.timestep, p2.symbols, p2.time, p2.mass, p2.velocity,
          Or.inr hE', Or.inr this⟩, this, fun _ => hE'⟩
      rintro _ ⟨⟩
      rfl

end kin

theorem extend_item {α : Type} {n : Nat} {e : Ext α} (h : ExtOk n e) :
    ∃ l, e.extend n = .many l ∧ l.length = n ∧ ∀ i < n, itemAt (.many l) i = itemAt e i := by
  have rep : ∀ x : α, ∀ i < n, itemAt (.many (List.replicate n x)) i = some x := fun x i hi => by
    rw [itemAt_many _ i (by simpa using hi), List.getElem?_replicate_of_lt hi]
  rcases h with ⟨x, rfl⟩ | ⟨l, rfl, hl⟩
  · exact ⟨_, rfl, by simp, rep x⟩
  · match l with
    | [] =>
      have : n = 0 := by
        rcases hl with h | h
        · exact h.symm
        · simp at h
      subst this
      exact ⟨[], rfl, rfl, fun i hi => rfl⟩
    | [x] => exact ⟨_, rfl, by simp, rep x⟩
    | x :: y :: l =>
      have : (x :: y :: l).length = n := by
        rcases hl with h | h
        · exact h
        · simp at h
      exact ⟨_, rfl, this, fun i hi => rfl⟩

theorem extend_rel {n na : Nat} {t : Trj} (h : TrajInput n na t) :
    Rel n na t.extend (fun i => stepAt t i) ∧ Frame t t.extend ∧ t.extend.natoms = none := by
  obtain ⟨f1, f2, f3, f4⟩ := h.fresh
  have e1 : t.setNstep = { t with nstep := some n } := by
    unfold Trj.setNstep
    rw [f2]
    simp only
    cases hc : t.coords with
    | some a => simp [(h.coords a hc).2]
    | none =>
      cases hf : t.coordsFrac with
      | some a => simp [(h.coordsFrac a hf).2]
      | none => rcases h.some with h' | h' <;> contradiction
  have e : t.extend = { t with nstep := some n, cell := t.cell.map (Ext.extend n), cc := t.cc.map (Ext.extend n) } := by
    unfold Trj.extend
    rw [e1]
  rw [e]
  refine ⟨⟨⟨h.some, h.coords, h.coordsFrac, ?_, ?_, h.stress, h.pressure, h.volume, h.symbols, rfl, ?_⟩, fun i hi => ?_⟩, ⟨rfl, rfl, rfl, rfl, rfl, rfl, rfl⟩, f1⟩
  · intro e he
    obtain ⟨x, hx, rfl⟩ := Option.map_eq_some_iff.1 he
    obtain ⟨l, h1, h2, -⟩ := extend_item (h.cell x hx)
    exact ⟨l, h1, h2⟩
  · intro e he
    obtain ⟨x, hx, rfl⟩ := Option.map_eq_some_iff.1 he
    obtain ⟨l, h1, h2, -⟩ := extend_item (h.cc x hx)
    exact ⟨l, h1, h2⟩
  · intro k hk
    rw [show _ = none from f1] at hk
    cases hk
  · have g1 : (t.cell.map (Ext.extend n)).bind (itemAt · i) = t.cell.bind (itemAt · i) := by
      cases hx : t.cell with
      | none => rfl
      | some x =>
        obtain ⟨l, h1, -, h2⟩ := extend_item (h.cell x hx)
        simp only [Option.map_some, Option.bind_some, h1]
        exact h2 i hi
    have g2 : (t.cc.map (Ext.extend n)).bind (itemAt · i) = t.cc.bind (itemAt · i) := by
      cases hx : t.cc with
      | none => rfl
      | some x =>
        obtain ⟨l, h1, -, h2⟩ := extend_item (h.cc x hx)
        simp only [Option.map_some, Option.bind_some, h1]
        exact h2 i hi
    simp only [bare, stepAt, g1, g2, f1]

/-- The number of atoms of a step. -/
theorem setNatoms_step {n na : Nat} {t : Trj} (h : Inv n na t) (hn : t.natoms = some na) {i : Nat} (hi : i < n) :
    (bare (stepAt t i)).setNatoms = stepAt t i := by
  have key : (match t.symbols, t.coords.bind (atomsAt · i), t.coordsFrac.bind (atomsAt · i) with
      | some l, _, _ => some l.length
      | none, some r, _ => some r.length
      | none, none, some f => some f.length
      | none, none, none => none) = some na := by
    have len : ∀ a : Arr3, a.natoms = na → ∀ l, atomsAt a i = some l → l.length = na := fun a ha l hl => by
      unfold atomsAt at hl
      obtain ⟨x, -, rfl⟩ := Option.map_eq_some_iff.1 hl
      simpa using ha
    cases h1 : t.symbols with
    | some l => simp [h.symbols l h1]
    | none =>
      cases h2 : t.coords with
      | some a =>
        obtain ⟨l, hl⟩ := atoms_some (h.coords a h2).2 hi
        simp [hl, len a (h.coords a h2).1 l hl]
      | none =>
        cases h3 : t.coordsFrac with
        | some a =>
          obtain ⟨l, hl⟩ := atoms_some (h.coordsFrac a h3).2 hi
          simp [hl, len a (h.coordsFrac a h3).1 l hl]
        | none => rcases h.some with h | h <;> contradiction
  unfold St.setNatoms
  simp only [bare, stepAt, hn]
  congr 1

theorem linspace_time (n : Nat) (dt : ℝ) :
    ((List.range n).map fun i : Nat => (i : ℝ) * ((((n : ℝ) - 1) * dt) / ((n : ℝ) - 1))) = (List.range n).map fun i : Nat => (i : ℝ) * dt := by
  apply List.map_congr_left
  intro i hi
  rw [List.mem_range] at hi
  rcases Nat.eq_zero_or_pos i with rfl | h0
  · simp
  · have : (n : ℝ) - 1 ≠ 0 := by
      have : (2 : ℝ) ≤ n := by exact_mod_cast (by omega : 2 ≤ n)
      linarith
    rw [mul_div_cancel_left₀ _ this]

theorem kin1_eq (c : Consts) {na : Nat} (m : List ℝ) (h : m.length = na) (v : Fin na → V3) :
    kin1 m v * (c.ang / c.fs) ^ 2 * c.amu / c.eV = kineticEnergy c m (List.ofFn v) := by
  unfold kineticEnergy kin1
  congr 4
  subst h
  rw [show List.zipWith (fun m (v : V3) => m * (v 0 ^ 2 + v 1 ^ 2 + v 2 ^ 2) / 2) m (List.ofFn v)
      = List.ofFn (fun j : Fin m.length => (∑ k, v j k ^ 2) * m.getD j 0 / 2) from ?_]
  · rw [List.sum_ofFn]
  · apply List.ext_getElem
    · simp
    · intro i h1 h2
      simp [Fin.sum_univ_three]
      ring

theorem velocityOf_traj (a : Arr3) (dt : ℝ) (n na : Nat) (hs : a.natoms = na ∧ a.steps.length = n) (h3 : 3 ≤ n) (v : List (Fin a.natoms → V3))
    (h : velocityTraj a.steps dt true = some v) : VelocityOf dt n na a ⟨a.natoms, v⟩ := by
  obtain ⟨w, hw, hl, hin, h0, h1⟩ := C46_velocity a.steps dt (by omega)
  rw [h] at hw
  cases hw
  refine ⟨⟨hs.1, hl.trans hs.2⟩, ?_, ?_, ?_⟩
  · intro i j x y hi hx hy
    obtain ⟨lx, hlx, hx'⟩ := Option.bind_eq_some_iff.1 hx
    obtain ⟨ly, hly, hy'⟩ := Option.bind_eq_some_iff.1 hy
    obtain ⟨fx, hfx, rfl⟩ := Option.map_eq_some_iff.1 hlx
    obtain ⟨fy, hfy, rfl⟩ := Option.map_eq_some_iff.1 hly
    have hlt : i + 1 < a.steps.length := (List.getElem?_eq_some_iff.1 hfy).1
    have hv := hin i fx fy hi hlt hfx hfy
    obtain ⟨hj, rfl⟩ := List.getElem?_eq_some_iff.1 hx'
    obtain ⟨-, rfl⟩ := List.getElem?_eq_some_iff.1 hy'
    rw [List.length_ofFn] at hj
    unfold posAt atomsAt
    simp only
    rw [hv]
    simp only [Option.map_some, Option.bind_some]
    rw [List.getElem?_eq_getElem (by simpa using hj)]
    congr 1
    rw [List.getElem_ofFn, List.getElem_ofFn, List.getElem_ofFn]
    funext k
    simp only [Pi.smul_apply, Pi.sub_apply, smul_eq_mul]
    ring
  · unfold atomsAt
    simp only
    rw [h0]
  · unfold atomsAt
    simp only
    rw [← hs.2, h1]

/-- **C93**: building a trajectory. From coordinates of one kind at least (with everything given having the right number of steps and atoms, a
cell for all steps or one per step, known elements, and three steps or more if velocities are to be calculated) every step gets what a structure
with that step's data would get; the masses, times, velocities, kinetic energies and temperatures are those of the definitions; what is given is
not changed. -/
theorem C93_traj_partial (c : Consts) (table : String → Option ℝ) (n na : Nat) (t : Trj) (h : TrajInput n na t)
    (hm : ∀ l, t.symbols = some l → ∃ m, l.mapM table = some m) (h3 : t.velocity = none → t.timestep ≠ none → 3 ≤ n) :
    ∃ out, t.setAll c table = .ok out ∧ (∀ i < n, stepAt out i = (stepAt t i).setAll) ∧ TrajDerived c table n na t out := by
  have ha : Able table n na t := ⟨hm, h.symbols, h.velocity, h3⟩
  obtain ⟨r0, f0, -⟩ := extend_rel h
  obtain ⟨t1, e1, r1, f1, -, -⟩ := setCell_rel r0
  obtain ⟨t2, e2, r2, f2⟩ := setCoords_rel r1
  have s2 := setCoords_settled r1.1 e2
  obtain ⟨t3, e3, r3, f3⟩ := setCoordsFrac_rel r2
  have s3 := setCoordsFrac_settled r2.1 s2 e3
  obtain ⟨t4, e4, r4, f4⟩ := setCC_rel r3
  have s4 := (setCC_settled s3 e4 (setNstep_eq r3.1)).1
  have f : Frame t t4 := (((f0.trans f1).trans f2).trans f3).trans f4
  have p4 : Ph c table na t t4.coords t4 := ⟨rfl, s4, f.timestep, f.symbols, f.time.trans h.fresh.2.2.2, Or.inl (f.mass.trans h.fresh.2.2.1),
    Or.inl f.velocity, Or.inl f.ekin, Or.inl f.temperature⟩
  generalize hC : t4.coords = C at p4
  obtain ⟨t5, e5, r5, p5, k5, -⟩ := setEkin_ph ha r4 p4
  obtain ⟨r6, f6⟩ := setPressure_rel r5
  have c6 : t5.setPressure.coords = t5.coords ∧ t5.setPressure.cell = t5.cell ∧ t5.setPressure.cc = t5.cc := by
    unfold Trj.setPressure
    cases t5.pressure <;> exact ⟨rfl, rfl, rfl⟩
  have p6 : Ph c table na t C t5.setPressure := ⟨c6.1.trans p5.coords, fun hc => by rw [c6.2.1, c6.2.2]; exact p5.settled (c6.1.symm.trans hc),
    f6.timestep.trans p5.timestep, f6.symbols.trans p5.symbols, f6.time.trans p5.time, by rw [f6.mass]; exact p5.mass,
    by rw [f6.velocity]; exact p5.velocity, by rw [f6.ekin]; exact p5.ekin, by rw [f6.temperature]; exact p5.temperature⟩
  obtain ⟨t7, e7, r7, p7, T7, k7⟩ := setTemperature_ph ha r6 p6
  obtain ⟨t8, e8, r8, p8, v8, -, k8, T8⟩ := setVelocity_ph ha r7 p7
  obtain ⟨t9, e9, r9, f9, c9⟩ := setVolume_rel r8
  have hE9 : t9.ekin = tgtE c table t C := f9.ekin.trans (k8.trans (k7 (f6.ekin.trans k5)))
  have hT9 : t9.temperature = tgtT c table na t C := f9.temperature.trans (T8.trans T7)
  have hV9 : t9.velocity = tgtV t C := f9.velocity.trans v8
  have hC9 : t9.coords = C := c9.trans p8.coords
  have hts : t9.timestep = t.timestep := f9.timestep.trans p8.timestep
  have hsy : t9.symbols = t.symbols := f9.symbols.trans p8.symbols
  have htm : t9.time = none := f9.time.trans p8.time
  have hM9 : t9.mass = none ∨ t9.mass = tgtM table t := by rw [f9.mass]; exact p8.mass
  -- the masses
  have hmass : ∃ t10, t9.setMass table = .ok t10 ∧ t10 = { t9 with mass := tgtM table t } := by
    unfold Trj.setMass
    cases g1 : t9.mass with
    | some m =>
      refine ⟨t9, rfl, ?_⟩
      have : t9.mass = tgtM table t := by
        rcases hM9 with g | g
        · rw [g1] at g
          cases g
        · exact g
      rw [← this]
    | none =>
      cases g2 : t9.symbols with
      | none =>
        refine ⟨t9, rfl, ?_⟩
        have : tgtM table t = none := by
          unfold tgtM
          rw [← hsy, g2]
          rfl
        rw [this, ← g1, ← g2]
      | some l =>
        obtain ⟨m, hm'⟩ := hm l (by rw [← hsy, g2])
        have : tgtM table t = some m := by
          unfold tgtM
          rw [← hsy, g2]
          exact hm'
        simp only
        rw [hm', this, ← g2]
        exact ⟨_, rfl, rfl⟩
  obtain ⟨t10, e10, h10⟩ := hmass
  have r10 : ∀ s, Rel n na t9 s → Rel n na t10 s := by
    intro s r
    rw [h10]
    exact ⟨{ r.1 with }, r.2⟩
  replace r10 := r10 _ r9
  obtain ⟨r11, f11, n11, -, c11, -⟩ := setNatoms_rel r10
  have e12 : t10.setNatoms.setNstep = t10.setNatoms := setNstep_eq r11.1
  have htime : t10.setNatoms.setTime = { t10.setNatoms with time := t.timestep.map fun dt => (List.range n).map fun i : Nat => (i : ℝ) * dt } := by
    have g1 : t10.setNatoms.time = none := by
      rw [f11.time, h10]
      exact htm
    have g2 : t10.setNatoms.timestep = t.timestep := by
      rw [f11.timestep, h10]
      exact hts
    unfold Trj.setTime
    rw [e12]
    generalize t10.setNatoms = u at *
    rw [g1]
    cases hd : t.timestep with
    | none =>
      simp only [g2, hd]
      rw [Option.map_none, ← g1, ← hd, ← g2]
    | some dt =>
      have g2' : u.timestep = some dt := g2.trans hd
      have g3 : u.nstep = some n := r11.1.nstep
      simp only [g2', g3, Option.map_some, linspace_time]
  have heq : t.setAll c table = .ok t10.setNatoms.setNstep.setTime := by
    unfold Trj.setAll
    rw [e1]
    simp only [bind, Except.bind]
    rw [e2]
    simp only
    rw [e3]
    simp only
    rw [e4]
    simp only
    rw [e5]
    simp only
    rw [e7]
    simp only
    rw [e8]
    simp only
    rw [e9]
    simp only
    rw [e10]
  refine ⟨_, heq, ?_⟩
  rw [e12, htime]
  refine ⟨fun i hi => ?_, ?_⟩
  · have g := r11.2 i hi
    have g' := setNatoms_step r11.1 n11 hi
    show stepAt t10.setNatoms i = _
    rw [← g', g]
    rfl
  · have q1 : t10.setNatoms.mass = tgtM table t := by rw [f11.mass, h10]
    have q2 : t10.setNatoms.velocity = tgtV t C := by rw [f11.velocity, h10]; exact hV9
    have q3 : t10.setNatoms.ekin = tgtE c table t C := by rw [f11.ekin, h10]; exact hE9
    have q4 : t10.setNatoms.temperature = tgtT c table na t C := by rw [f11.temperature, h10]; exact hT9
    have q5 : t10.setNatoms.coords = C := by rw [c11, h10]; exact hC9
    have hCs : ∀ a, C = some a → a.natoms = na ∧ a.steps.length = n := fun a hc => r11.1.coords a (q5.trans hc)
    refine ⟨r11.1.nstep, n11, ?_, ?_, q1, rfl, ?_, ?_, ?_, ?_, ?_, ?_, ?_, ?_⟩
    · show t10.setNatoms.timestep = _
      rw [f11.timestep, h10]
      exact hts
    · show t10.setNatoms.symbols = _
      rw [f11.symbols, h10]
      exact hsy
    · intro v hv
      show t10.setNatoms.velocity = _
      rw [q2]
      unfold tgtV
      rw [hv]
    · intro hv a dt hc hd
      have hc' : C = some a := q5.symm.trans hc
      have g3 : 3 ≤ n := h3 hv (by simp [hd])
      obtain ⟨v, hv', -⟩ := C46_velocity a.steps dt (by rw [(hCs a hc').2]; exact g3)
      refine ⟨⟨a.natoms, v⟩, ?_, velocityOf_traj a dt n na (hCs a hc') g3 v hv'⟩
      show t10.setNatoms.velocity = _
      rw [q2]
      unfold tgtV
      rw [hv, hc', hd]
      simp [velFrom, hv']
    · intro hv hn
      show t10.setNatoms.velocity = _
      rw [q2]
      unfold tgtV
      rw [hv]
      rcases hn with hn | hn
      · have : C = none := q5.symm.trans hn
        rw [this]
        rfl
      · rw [hn]
        cases C <;> rfl
    · intro e he
      show t10.setNatoms.ekin = _
      rw [q3]
      unfold tgtE
      rw [he]
    · intro he m v hm' hv'
      have a1 : tgtM table t = some m := q1.symm.trans hm'
      have a2 : tgtV t C = some v := q2.symm.trans hv'
      have len := tgtV_size ha hCs v a2
      refine ⟨_, q3.trans (tgtE_eq ha hCs he m v a1 a2), by simp [len.2], fun i hi => ?_⟩
      have hi' : i < v.steps.length := by omega
      refine ⟨List.ofFn v.steps[i], by unfold atomsAt; rw [List.getElem?_eq_getElem hi']; rfl, by simp [len.1], tgtM_len ha m a1, ?_⟩
      rw [List.getElem?_map, List.getElem?_eq_getElem hi', Option.map_some, kin1_eq c m (by rw [tgtM_len ha m a1, len.1])]
    · intro he hn
      show t10.setNatoms.ekin = _
      rw [q3]
      unfold tgtE
      rw [he]
      rcases hn with hn | hn
      · rw [show tgtM table t = none from q1.symm.trans hn]
      · rw [show tgtV t C = none from q2.symm.trans hn]
        cases tgtM table t <;> rfl
    · intro e he
      show t10.setNatoms.temperature = _
      rw [q4]
      unfold tgtT
      rw [he]
    · intro he
      show t10.setNatoms.temperature = t10.setNatoms.ekin.map _
      rw [q4, q3]
      unfold tgtT
      rw [he]
      cases tgtE c table t C with
      | none => rfl
      | some es =>
        simp only [Option.map_some, Option.some.injEq]
        apply List.map_congr_left
        intro e _
        rw [div_div, mul_comm, div_mul_div_comm]
        ring

/-! ## short trajectories -/

theorem setCoordsFrac_coords {n na : Nat} {t t' : Trj} (hi : Inv n na t) (h : t.setCoordsFrac = .ok t') : t'.coords = t.coords := by
  unfold Trj.setCoordsFrac at h
  cases h2 : t.coordsFrac with
  | some a =>
    rw [h2] at h
    cases h
    rfl
  | none =>
    cases h1 : t.coords with
    | none =>
      rw [h1, h2] at h
      cases h
      exact h1
    | some a =>
      obtain ⟨t1, e1, r1, -, c1, -⟩ := setCell_rel (s := fun i => bare (stepAt t i)) ⟨hi, fun _ _ => rfl⟩
      obtain ⟨-, -, g1, g2, g3, -⟩ := setNatoms_rel r1
      have hsome : t1.setNatoms.coords = some a := by rw [g3, c1, h1]
      rw [h1, h2, e1] at h
      simp only [bind, Except.bind] at h
      split at h
      · split at h
        · cases h
        · cases h
          exact hsome
      · cases h
        exact hsome

theorem setVelocity_short {t : Trj} {a : Arr3} {dt : ℝ} (hv : t.velocity = none) (hc : t.coords = some a) (hd : t.timestep = some dt)
    (h : a.steps.length < 3) : t.setVelocity = .error .index := by
  have e : t.setCoords = .ok t := by
    unfold Trj.setCoords
    rw [hc]
  unfold Trj.setVelocity
  rw [hv]
  simp only
  rw [e]
  simp only [bind, Except.bind]
  rw [hc, hd]
  simp only
  have : velocityTraj a.steps dt true = none := by
    unfold velocityTraj
    have : a.steps.drop 2 = [] := by rw [List.drop_eq_nil_iff]; omega
    rw [this]
    rfl
  rw [this]

theorem setMass_fields {table : String → Option ℝ} {t t' : Trj} (h : t.setMass table = .ok t') :
    t'.velocity = t.velocity ∧ t'.coords = t.coords ∧ t'.timestep = t.timestep := by
  unfold Trj.setMass at h
  split at h
  · split at h
    · cases h
    · cases h
      exact ⟨rfl, rfl, rfl⟩
  · cases h
    exact ⟨rfl, rfl, rfl⟩

/-- **C93**, where the code breaks it: a trajectory with positions and a time step, but only one or two steps, cannot be built: `IndexError`
(or `KeyError` if an element is not known). Every molecular dynamics output with one or two steps is such a trajectory. -/
theorem C93_short_counterexample (c : Consts) (table : String → Option ℝ) (n na : Nat) (t : Trj) (h : TrajInput n na t) (hc : t.coords ≠ none)
    (hv : t.velocity = none) (hd : t.timestep ≠ none) (hn : n < 3) :
    t.setAll c table = .error .index ∨ t.setAll c table = .error .key := by
  obtain ⟨a, hc⟩ := Option.ne_none_iff_exists'.1 hc
  obtain ⟨dt, hd⟩ := Option.ne_none_iff_exists'.1 hd
  obtain ⟨r0, f0, -⟩ := extend_rel h
  have c0 : t.extend.coords = some a := by
    have : t.setNstep.coords = t.coords := by
      unfold Trj.setNstep
      cases t.nstep <;> rfl
    unfold Trj.extend
    simp only
    split <;> exact this.trans hc
  obtain ⟨t1, e1, r1, f1, c1, -⟩ := setCell_rel r0
  have e2 : t1.setCoords = .ok t1 := by
    unfold Trj.setCoords
    rw [c1, c0]
  obtain ⟨t3, e3, r3, f3⟩ := setCoordsFrac_rel r1
  have c3 := setCoordsFrac_coords r1.1 e3
  obtain ⟨t4, e4, r4, f4⟩ := setCC_rel r3
  have c4 := (setCC_settled (t := t3) (fun hh => by rw [c3, c1, c0] at hh; cases hh) e4 (setNstep_eq r3.1)).2
  have f : Frame t t4 := ((f0.trans f1).trans f3).trans f4
  have k1 : t4.velocity = none := f.velocity.trans hv
  have k2 : t4.coords = some a := by rw [c4, c3, c1, c0]
  have k3 : t4.timestep = some dt := f.timestep.trans hd
  have k4 : a.steps.length < 3 := by rw [(h.coords a hc).2]; exact hn
  -- the kinetic energy
  have ek : ∀ u : Trj, u.velocity = none → u.coords = some a → u.timestep = some dt →
      (u.ekin ≠ none ∧ u.setEkin c table = .ok u) ∨ u.setEkin c table = .error .index ∨ u.setEkin c table = .error .key := by
    intro u u1 u2 u3
    unfold Trj.setEkin
    cases hk : u.ekin with
    | some e => exact Or.inl ⟨by simp, rfl⟩
    | none =>
      refine Or.inr ?_
      simp only
      cases hm : u.setMass table with
      | error e =>
        have : e = .key := by
          unfold Trj.setMass at hm
          split at hm
          · split at hm
            · cases hm
              rfl
            · cases hm
          · cases hm
        subst this
        exact Or.inr rfl
      | ok u' =>
        obtain ⟨m1, m2, m3⟩ := setMass_fields hm
        simp only [bind, Except.bind]
        rw [setVelocity_short (m1.trans u1) (m2.trans u2) (m3.trans u3) k4]
        exact Or.inl rfl
  have pre : t.setAll c table = t4.setEkin c table >>= fun t =>
      t.setPressure.setTemperature c table >>= Trj.setVelocity >>= Trj.setVolume >>= Trj.setMass table >>= fun t =>
      .ok t.setNatoms.setNstep.setTime := by
    unfold Trj.setAll
    rw [e1]
    simp only [bind, Except.bind]
    rw [e2]
    simp only
    rw [e3]
    simp only
    rw [e4]
  rw [pre]
  rcases ek t4 k1 k2 k3 with ⟨-, h1⟩ | h1 | h1
  · rw [h1]
    simp only [bind, Except.bind]
    have c6 : t4.setPressure.coords = t4.coords ∧ t4.setPressure.velocity = t4.velocity ∧ t4.setPressure.timestep = t4.timestep := by
      unfold Trj.setPressure
      cases t4.pressure <;> exact ⟨rfl, rfl, rfl⟩
    have g1 := c6.2.1.trans k1
    have g2 := c6.1.trans k2
    have g3 := c6.2.2.trans k3
    have r5 := (setPressure_rel r4).1
    generalize t4.setPressure = u at *
    have tt : (∃ u', u.setTemperature c table = .ok u' ∧ u'.velocity = none ∧ u'.coords = some a ∧ u'.timestep = some dt) ∨
        u.setTemperature c table = .error .index ∨ u.setTemperature c table = .error .key := by
      unfold Trj.setTemperature
      cases hT : u.temperature with
      | some T => exact Or.inl ⟨u, rfl, g1, g2, g3⟩
      | none =>
        simp only
        rcases ek u g1 g2 g3 with ⟨-, h2⟩ | h2 | h2
        · rw [h2]
          simp only [bind, Except.bind]
          obtain ⟨-, f2, -, -, q3, -⟩ := setNatoms_rel r5
          have q1 := f2.velocity.trans g1
          have q2 := q3.trans g2
          have q4 := f2.timestep.trans g3
          left
          split
          · exact ⟨_, rfl, q1, q2, q4⟩
          · exact ⟨_, rfl, q1, q2, q4⟩
        · rw [h2]
          exact Or.inr (Or.inl rfl)
        · rw [h2]
          exact Or.inr (Or.inr rfl)
    rcases tt with ⟨u', h2, q1, q2, q3⟩ | h2 | h2
    · rw [h2]
      simp only
      rw [setVelocity_short q1 q2 q3 k4]
      exact Or.inl rfl
    · rw [h2]
      exact Or.inl rfl
    · rw [h2]
      exact Or.inr rfl
  · rw [h1]
    exact Or.inl rfl
  · rw [h1]
    exact Or.inr rfl

end Pwtools.Drv
