import Verif.Model.Ase
import Verif.Spec.Ase
import Verif.Props.Derived
/-!
# C139: conversion to ASE `Atoms` and back
-/
namespace Pwtools.Ase
open Cry Drv Spec

theorem deg_inj (x y : ℝ) (hx : 0 ≤ x ∧ x ≤ 180) (hy : 0 ≤ y ∧ y ≤ 180) (h : Real.cos (x * Real.pi / 180) = Real.cos (y * Real.pi / 180)) : x = y := by
  have hp := Real.pi_pos
  have := Real.injOn_cos (x₁ := x * Real.pi / 180) (x₂ := y * Real.pi / 180) ⟨by have := hx.1; positivity, by nlinarith [hx.2]⟩ ⟨by have := hy.1; positivity, by nlinarith [hy.2]⟩ h
  have h2 : x * Real.pi = y * Real.pi := by linarith
  exact mul_right_cancel₀ hp.ne' h2

/-- The lattice constants of a cell are unique. -/
theorem lattice_unique (m : Cell) (hm : m.det ≠ 0) (c d : CrystConst) (hc : LatticeConst m c) (hd : LatticeConst m d) : c = d := by
  have hv := lattice_of_cell m hm
  have pos : 0 < c.a ∧ 0 < c.b ∧ 0 < c.c := by
    have p : ∀ i, 0 < m i 0 ^ 2 + m i 1 ^ 2 + m i 2 ^ 2 := by
      intro i
      rcases (show 0 ≤ m i 0 ^ 2 + m i 1 ^ 2 + m i 2 ^ 2 by positivity).lt_or_eq with h | h
      · exact h
      · exfalso
        apply hm
        refine Matrix.det_eq_zero_of_row_eq_zero i fun k => ?_
        have h0 := sq_nonneg (m i 0)
        have h1 := sq_nonneg (m i 1)
        have h2 := sq_nonneg (m i 2)
        fin_cases k <;> (refine pow_eq_zero_iff (n := 2) (by norm_num) |>.1 ?_; simp only [Fin.zero_eta, Fin.mk_one, Fin.reduceFinMk]; linarith)
    rw [hc.a, hc.b, hc.c]
    exact ⟨Real.sqrt_pos.2 (p 0), Real.sqrt_pos.2 (p 1), Real.sqrt_pos.2 (p 2)⟩
  have ea : c.a = d.a := hc.a.trans hd.a.symm
  have eb : c.b = d.b := hc.b.trans hd.b.symm
  have ec : c.c = d.c := hc.c.trans hd.c.symm
  have e1 := hc.alpha.symm.trans hd.alpha
  have e2 := hc.beta.symm.trans hd.beta
  have e3 := hc.gamma.symm.trans hd.gamma
  rw [← eb, ← ec] at e1
  rw [← ea, ← ec] at e2
  rw [← ea, ← eb] at e3
  have f1 := deg_inj _ _ hc.range.1 hd.range.1 (mul_left_cancel₀ (mul_pos pos.2.1 pos.2.2).ne' e1)
  have f2 := deg_inj _ _ hc.range.2.1 hd.range.2.1 (mul_left_cancel₀ (mul_pos pos.1 pos.2.2).ne' e2)
  have f3 := deg_inj _ _ hc.range.2.2 hd.range.2.2 (mul_left_cancel₀ (mul_pos pos.1 pos.2.1).ne' e3)
  cases c; cases d
  simp_all

/-- The attributes of a constructed structure with atoms and a cell. -/
theorem attrs_of (s : St) (h : GoodInput s) (c : Cell) (hc : s.setAll.cell = some c) (f : List V3) (hf : s.setAll.coordsFrac = some f) (l : List String) (hl : s.setAll.symbols = some l) :
    c.det ≠ 0 ∧ l.length = f.length ∧ s.setAll.coords = some (f.map (frac2cart c)) ∧ s.setAll.cc = some (cell2cc c) ∧ s.setAll.volume = some (volumeCell c) ∧ s.setAll.natoms = some l.length := by
  have con := C93_struct_consistent s h
  obtain ⟨kept, comp⟩ := C93_struct_complete s
  have hdet : c.det ≠ 0 := by
    cases hs : s.cell with
    | some c' =>
      have := kept.cell _ hs
      rw [hc] at this
      cases this
      exact h.cell _ hs
    | none =>
      have hc' := hc
      rw [setAll_eq] at hc'
      simp only [hs] at hc'
      cases h2 : s.cc with
      | none => rw [h2] at hc'; cases hc'
      | some cc =>
        rw [h2] at hc'
        cases hc'
        exact cc2cell_det cc (h.cc hs cc h2)
  have hcell : s.cell.isSome ∨ s.cc.isSome := comp.cell.2 (by rw [hc]; rfl)
  have hat : s.coords.isSome ∨ s.coordsFrac.isSome := by
    rcases comp.coordsFrac.2 (by rw [hf]; rfl) with h | h
    · exact .inr h
    · exact .inl h.1
  have hsome : ∀ {α : Type} {o : Option α}, o.isSome = true → ∃ x, o = some x := fun h => Option.isSome_iff_exists.1 h
  obtain ⟨r, hr⟩ := hsome (comp.coords.1 (hat.imp id fun h => ⟨h, hcell⟩))
  obtain ⟨cc, hcc⟩ := hsome (comp.cc.1 hcell)
  obtain ⟨v, hv⟩ := hsome (comp.volume.1 (hcell.imp id .inl))
  obtain ⟨n, hn⟩ := hsome (comp.natoms.1 (.inr (.inl (by rw [← kept.symbols, hl]; rfl))))
  have n1 := (con.natoms n hn).1 l hl
  have n2 := (con.natoms n hn).2.2 f hf
  refine ⟨hdet, n1.symm.trans n2, ?_, ?_, ?_, by rw [hn, n1]⟩
  · rw [hr]
    congr 1
    have h2 := con.coords c r f hc hr hf
    clear hr hf n2
    induction h2 with
    | nil => rfl
    | cons h _ ih =>
      rw [List.map_cons, ← ih]
      congr 1
      funext k
      rw [h k, cartOf_frac2cart c _ k]
  · rw [hcc]
    exact congrArg some (lattice_unique c hdet _ _ (con.lattice c cc hc hcc) (lattice_of_cell c hdet))
  · rw [hv]
    exact congrArg some (con.volume c v hc hv)

/-- **C139** A structure and the structure made from its ASE object are the same crystal, in all attributes which describe it. -/
theorem C139_roundtrip (s : St) (h : GoodInput s) (c : Cell) (hc : s.setAll.cell = some c) (f : List V3) (hf : s.setAll.coordsFrac = some f) (l : List String) (hl : s.setAll.symbols = some l) :
    ∃ a, struct2atoms s.setAll = .atoms a ∧ SameCrystal s.setAll (atoms2struct a) := by
  obtain ⟨h0, h1, h2, h3, h4, h5⟩ := attrs_of s h c hc f hf l hl
  refine ⟨⟨l, c, f.map (frac2cart c), fun _ => false⟩, ?_, ?_⟩
  · unfold struct2atoms mkAtoms
    rw [hc, hf, hl]
    simp only [if_pos h1]
  · have e : (⟨l, c, f.map (frac2cart c), fun _ => false⟩ : Atoms).scaledPositions = f := by
      unfold Atoms.scaledPositions
      simp only [List.map_map, Bool.false_eq_true, if_false]
      conv_rhs => rw [← List.map_id f]
      exact List.map_congr_left fun x _ => (C39_frac_cart c h0 x x).1
    unfold atoms2struct
    rw [e]
    constructor
    all_goals rw [setAll_eq (St.mk _ _ _ _ _ _ _ _ _)]
    · exact hl.symm
    · exact h5.symm
    · exact hc.symm
    · exact h3.symm
    · exact h2.symm
    · exact hf.symm
    · exact h4.symm

/-- **C139** The ASE object has the Cartesian coordinates of the structure as positions. -/
theorem C139_positions (s : St) (h : GoodInput s) (pbc : Fin 3 → Bool) (a : Atoms) (ha : struct2atoms s.setAll pbc = .atoms a) :
    s.setAll.coords = some a.positions ∧ s.setAll.cell = some a.cell ∧ s.setAll.symbols = some a.symbols ∧ a.pbc = pbc := by
  unfold struct2atoms at ha
  split at ha
  · rename_i f c l hf hc hl
    obtain ⟨h0, h1, h2, -⟩ := attrs_of s h c hc f hf l hl
    unfold mkAtoms at ha
    rw [if_pos h1] at ha
    cases ha
    exact ⟨h2, hc, hl, rfl⟩
  · cases ha

/-- **C139** With `pbc`, the fractional coordinates which come back are those of the structure, moved into the cell by lattice vectors in the periodic directions; the rest of the crystal is the same. -/
theorem C139_wrapped (s : St) (h : GoodInput s) (pbc : Fin 3 → Bool) (c : Cell) (hc : s.setAll.cell = some c) (f : List V3) (hf : s.setAll.coordsFrac = some f) (l : List String)
    (hl : s.setAll.symbols = some l) :
    ∃ a w, struct2atoms s.setAll pbc = .atoms a ∧ (atoms2struct a).coordsFrac = some w ∧ List.Forall₂ (Wrapped pbc) f w ∧
      (atoms2struct a).symbols = s.setAll.symbols ∧ (atoms2struct a).cell = s.setAll.cell ∧ (atoms2struct a).cc = s.setAll.cc ∧ (atoms2struct a).volume = s.setAll.volume ∧
      (atoms2struct a).natoms = s.setAll.natoms := by
  obtain ⟨h0, h1, h2, h3, h4, h5⟩ := attrs_of s h c hc f hf l hl
  refine ⟨⟨l, c, f.map (frac2cart c), pbc⟩, f.map fun x k => if pbc k then Int.fract (x k) else x k, ?_, ?_, ?_, ?_⟩
  · unfold struct2atoms mkAtoms
    rw [hc, hf, hl]
    simp only [if_pos h1]
  · unfold atoms2struct Atoms.scaledPositions
    rw [setAll_eq]
    simp only [List.map_map]
    show some _ = some _
    congr 1
    refine List.map_congr_left fun x _ => ?_
    simp only [Function.comp_apply, (C39_frac_cart c h0 x x).1]
  · rw [List.forall₂_map_right_iff]
    refine List.forall₂_same.2 fun x _ k => ⟨fun hk => ?_, fun hk => ?_⟩
    · simp only [if_pos hk]
      exact ⟨Int.fract_nonneg _, Int.fract_lt_one _, ⌊x k⌋, (Int.fract_add_floor (x k)).symm⟩
    · simp [hk]
  · unfold atoms2struct
    rw [setAll_eq (St.mk _ _ _ _ _ _ _ _ _)]
    exact ⟨hl.symm, hc.symm, h3.symm, h4.symm, h5.symm⟩

/-- **C139** `FakeASEAtoms` is the same crystal. -/
theorem C139_fake (s : St) (h : GoodInput s) (c : Cell) (hc : s.setAll.cell = some c) (f : List V3) (hf : s.setAll.coordsFrac = some f) (l : List String) (hl : s.setAll.symbols = some l) :
    SameCrystal s.setAll (fakeAtoms s.setAll) := by
  obtain ⟨-, -, h2, h3, h4, h5⟩ := attrs_of s h c hc f hf l hl
  unfold fakeAtoms
  rw [hc, hf, hl]
  constructor
  all_goals rw [setAll_eq (St.mk _ _ _ _ _ _ _ _ _)]
  · exact hl.symm
  · exact h5.symm
  · exact hc.symm
  · exact h3.symm
  · exact h2.symm
  · exact hf.symm
  · exact h4.symm

/-- **C139** Without symbols, without a cell, or without coordinates there is no ASE object: `None`. -/
theorem C139_none (s : St) (pbc : Fin 3 → Bool) (h : s.symbols = none ∨ (s.cell = none ∧ s.cc = none) ∨ (s.coords = none ∧ s.coordsFrac = none)) : struct2atoms s.setAll pbc = .none := by
  unfold struct2atoms
  rw [setAll_eq]
  rcases h with h | ⟨h1, h2⟩ | ⟨h1, h2⟩
  · simp only [h]
    split
    · rename_i hh
      cases hh
    · rfl
  · simp [h1, h2]
  · simp [h1, h2]

/-- A cubic structure given by lattice constants and Cartesian coordinates. -/
noncomputable def exSt : St := { cc := some ⟨2, 2, 2, 90, 90, 90⟩, coords := some [![0, 0, 0], ![3, 1, 1]], symbols := some ["Cs", "Cl"] }

theorem exSt_good : GoodInput exSt := by
  refine ⟨⟨?_, ?_, ?_, ?_, ?_⟩, ?_, ?_, ?_, ?_, ?_⟩
  all_goals try (simp [exSt]; done)
  rintro - cc h
  cases h
  have e : (90 : ℝ) * Real.pi / 180 = Real.pi / 2 := by ring
  refine ⟨?_, ?_, ?_, ?_, ?_, ?_, ?_⟩ <;> norm_num [e]

/-- The hypotheses of `C139_roundtrip` are met. -/
example : ∃ a, struct2atoms exSt.setAll = .atoms a ∧ SameCrystal exSt.setAll (atoms2struct a) ∧ (atoms2struct a).coords = some [![0, 0, 0], ![3, 1, 1]] := by
  obtain ⟨a, h1, h2⟩ := C139_roundtrip exSt exSt_good _ (by rw [setAll_eq]; rfl) _ (by rw [setAll_eq]; rfl) _ (by rw [setAll_eq]; rfl)
  refine ⟨a, h1, h2, ?_⟩
  rw [h2.coords, setAll_eq]
  rfl

/-- **C139** With `pbc=True` the positions are not kept: an atom outside of the cell is moved. -/
theorem C139_pbc_counterexample : ∃ (s : St) (a : Atoms), GoodInput s ∧ struct2atoms s.setAll (fun _ => true) = .atoms a ∧ (atoms2struct a).coords ≠ s.setAll.coords := by
  have good : GoodInput { cell := some 1, coordsFrac := some [![3 / 2, 0, 0]], symbols := some ["H"] } := by
    refine ⟨⟨?_, ?_, ?_, ?_, ?_⟩, ?_, ?_, ?_, ?_, ?_⟩
    all_goals try (simp; done)
  have one : ∀ x : V3, frac2cart 1 x = x := fun x => Matrix.vecMul_one x
  obtain ⟨a, w, h1, h2, h3, -, h4, -⟩ := C139_wrapped _ good (fun _ => true) 1 (by rw [setAll_eq]; rfl) [![3 / 2, 0, 0]] (by rw [setAll_eq]; rfl) ["H"] (by rw [setAll_eq])
  refine ⟨_, a, good, h1, fun he => ?_⟩
  have e1 : (St.setAll { cell := some 1, coordsFrac := some [![3 / 2, 0, 0]], symbols := some ["H"] }).coords = some [![3 / 2, 0, 0]] := by
    rw [setAll_eq]
    simp [one]
  have e2 : (atoms2struct a).coords = some w := by
    have e3 : (atoms2struct a).cell = some 1 := by rw [h4, setAll_eq]; rfl
    unfold atoms2struct at e3 h2 ⊢
    rw [setAll_eq] at e3 h2 ⊢
    have e4 : a.cell = 1 := Option.some.inj e3
    have e5 : a.scaledPositions = w := Option.some.inj h2
    simp only [e4, e5]
    show some (w.map (frac2cart 1)) = some w
    rw [show frac2cart 1 = id from funext one, List.map_id]
  rw [e1, e2] at he
  cases he
  cases h3 with
  | cons h _ =>
    have := (h 0).1 rfl
    norm_num at this

end Pwtools.Ase
