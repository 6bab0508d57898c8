import Verif.Props.DerivedMain
/-!
# C93: getting back what was dropped; concrete cases
-/
namespace Pwtools.Drv
open Pwtools.Cry Pwtools.Spec

theorem cos_deg_inj {x y : ℝ} (hx : 0 ≤ x ∧ x ≤ 180) (hy : 0 ≤ y ∧ y ≤ 180) (h : Real.cos (x * Real.pi / 180) = Real.cos (y * Real.pi / 180)) :
    x = y := by
  have hp := Real.pi_pos
  have hm : ∀ z : ℝ, 0 ≤ z ∧ z ≤ 180 → z * Real.pi / 180 ∈ Set.Icc 0 Real.pi := fun z hz =>
    ⟨by have := mul_nonneg hz.1 hp.le; positivity, by have := mul_le_mul_of_nonneg_right hz.2 hp.le; linarith⟩
  have := Real.injOn_cos (hm x hx) (hm y hy) h
  have h2 : x * Real.pi = y * Real.pi := by linarith
  exact mul_right_cancel₀ hp.ne' h2

/-- A cell has only one set of lattice constants. -/
theorem lattice_unique {m : Cell} {cc cc' : CrystConst} (hd : m.det ≠ 0) (h : LatticeConst m cc) (h' : LatticeConst m cc') : cc = cc' := by
  obtain ⟨p0, p1, p2⟩ := row_pos m hd
  have q := lattice_of_cell m hd
  have e0 : (cell2cc m).a = Cry.norm (m 0) := by simp [cell2cc, sqrt_row]
  have e1 : (cell2cc m).b = Cry.norm (m 1) := by simp [cell2cc, sqrt_row]
  have e2 : (cell2cc m).c = Cry.norm (m 2) := by simp [cell2cc, sqrt_row]
  have a : cc.a = cc'.a := h.a.trans h'.a.symm
  have b : cc.b = cc'.b := h.b.trans h'.b.symm
  have c : cc.c = cc'.c := h.c.trans h'.c.symm
  have pa : cc'.a ≠ 0 := by rw [h'.a, ← q.a, e0]; exact p0.ne'
  have pb : cc'.b ≠ 0 := by rw [h'.b, ← q.b, e1]; exact p1.ne'
  have pc : cc'.c ≠ 0 := by rw [h'.c, ← q.c, e2]; exact p2.ne'
  have f1 := h.alpha.symm.trans h'.alpha
  have f2 := h.beta.symm.trans h'.beta
  have f3 := h.gamma.symm.trans h'.gamma
  rw [b, c] at f1
  rw [a, c] at f2
  rw [a, b] at f3
  have g1 := cos_deg_inj h.range.1 h'.range.1 (mul_left_cancel₀ (mul_ne_zero pb pc) f1)
  have g2 := cos_deg_inj h.range.2.1 h'.range.2.1 (mul_left_cancel₀ (mul_ne_zero pa pc) f2)
  have g3 := cos_deg_inj h.range.2.2 h'.range.2.2 (mul_left_cancel₀ (mul_ne_zero pa pb) f3)
  obtain ⟨⟩ := cc
  obtain ⟨⟩ := cc'
  simp only at a b c g1 g2 g3
  simp only [a, b, c, g1, g2, g3]

theorem cartOf_eq {c : Cell} {s r : V3} (h : CartOf c s r) : r = frac2cart c s := by
  funext k
  rw [h k, cartOf_frac2cart c s k]

theorem frac_list {c : Cell} {f r : List V3} (hd : c.det ≠ 0) (h : List.Forall₂ (fun f r => CartOf c f r) f r) :
    r = f.map (frac2cart c) ∧ f = r.map (cart2frac c) := by
  induction h with
  | nil => exact ⟨rfl, rfl⟩
  | cons h _ ih =>
    rw [List.map_cons, List.map_cons, ← ih.1, ← ih.2, cartOf_eq h, (C39_frac_cart c hd _ 0).1]
    exact ⟨rfl, rfl⟩

/-- **C93**. Nothing is lost by keeping only one of two equivalent attributes: drop the lattice constants, the volume, the number of atoms and
either kind of coordinates from an object made from good input with a cell, and `set_all` gives the same object again. -/
theorem C93_restore (s : St) (h : GoodInput s) (c : Cell) (hc : s.setAll.cell = some c) (hn : s.natoms = none) :
    ({ s.setAll with cc := none, coords := none, volume := none, natoms := none } : St).setAll = s.setAll ∧
    ({ s.setAll with cc := none, coordsFrac := none, volume := none, natoms := none } : St).setAll = s.setAll := by
  have hk := C93_struct_consistent s h
  obtain ⟨-, hcomp⟩ := C93_struct_complete s
  have hd : c.det ≠ 0 := by
    rw [setAll_eq] at hc
    simp only at hc
    cases hs : s.cell with
    | some c' =>
      rw [hs] at hc
      obtain rfl : c' = c := by simpa using hc
      exact h.cell _ hs
    | none =>
      rw [hs] at hc
      cases hcc : s.cc with
      | none => rw [hcc] at hc; simp at hc
      | some cc =>
        rw [hcc] at hc
        obtain rfl : cc2cell cc = c := by simpa using hc
        exact cc2cell_det cc (h.cc hs cc hcc)
  have hin : s.cell.isSome ∨ s.cc.isSome := hcomp.cell.2 (by rw [hc]; rfl)
  obtain ⟨cc, hcc⟩ := Option.isSome_iff_exists.1 (hcomp.cc.1 hin)
  obtain ⟨v, hv⟩ := Option.isSome_iff_exists.1 (hcomp.volume.1 (hin.elim Or.inl fun h => Or.inr (Or.inl h)))
  have e1 : cell2cc c = cc := lattice_unique hd (lattice_of_cell c hd) (hk.lattice c cc hc hcc)
  have e2 : volumeCell c = v := (hk.volume c v hc hv).symm
  have hst : s.setAll.stress = s.stress ∧ s.setAll.pressure = (s.pressure <|> s.stress.map trace3) := by
    rw [setAll_eq]
    exact ⟨rfl, rfl⟩
  have e3 : (s.setAll.pressure <|> s.setAll.stress.map trace3) = s.setAll.pressure := by
    rw [hst.1, hst.2]
    cases s.pressure <;> cases s.stress <;> rfl
  cases hf : s.setAll.coordsFrac with
  | none =>
    have hr : s.setAll.coords = none := by
      by_contra hr
      have : s.setAll.coords.isSome := by simpa [Option.isSome_iff_ne_none] using hr
      have : s.coords.isSome ∨ s.coordsFrac.isSome := (hcomp.coords.2 this).imp_right fun h => h.1
      have := hcomp.coordsFrac.1 (this.elim (fun h => Or.inr ⟨h, hin⟩) Or.inl)
      rw [hf] at this
      cases this
    have e4 : (s.setAll.symbols.map List.length) = s.setAll.natoms := by
      rw [setAll_eq] at hf hr ⊢
      simp only at hf hr ⊢
      have h1 : s.coords = none := by
        cases h1 : s.coords
        · rfl
        · rw [h1] at hr; cases hr
      have h2 : s.coordsFrac = none := by
        cases h2 : s.coordsFrac
        · rfl
        · rw [h2] at hf; cases hf
      rw [hn, h1, h2]
      cases s.symbols <;> rfl
    rw [setAll_eq { s.setAll with cc := none, coords := none, volume := none, natoms := none },
      setAll_eq { s.setAll with cc := none, coordsFrac := none, volume := none, natoms := none }]
    generalize s.setAll = x at *
    obtain ⟨⟩ := x
    simp only at hc hcc hv hf hr e3 e4
    simp [hc, hcc, hv, hf, hr, e1, e2, e3, ← e4]
  | some f =>
    have hr : s.setAll.coords.isSome := by
      have hf' : s.setAll.coordsFrac.isSome := by rw [hf]; rfl
      have : s.coords.isSome ∨ s.coordsFrac.isSome := (hcomp.coordsFrac.2 hf').elim Or.inr fun h => Or.inl h.1
      exact hcomp.coords.1 (this.imp_right fun h => ⟨h, hin⟩)
    obtain ⟨r, hr⟩ := Option.isSome_iff_exists.1 hr
    obtain ⟨g1, g2⟩ := frac_list hd (hk.coords c r f hc hr hf)
    obtain ⟨k, hk'⟩ := Option.isSome_iff_exists.1 (hcomp.natoms.1 (by
      have hf' : s.setAll.coordsFrac.isSome := by rw [hf]; rfl
      rcases hcomp.coordsFrac.2 hf' with h | h
      · exact Or.inr (Or.inr (Or.inr h))
      · exact Or.inr (Or.inr (Or.inl h.1))))
    obtain ⟨n1, n2, n3⟩ := hk.natoms k hk'
    have e4 : (s.setAll.symbols.map List.length <|> some k) = some k := by
      cases hs : s.setAll.symbols with
      | none => rfl
      | some l => simp [n1 l hs]
    have l1 := n2 r hr
    have l2 := n3 f hf
    rw [setAll_eq { s.setAll with cc := none, coords := none, volume := none, natoms := none },
      setAll_eq { s.setAll with cc := none, coordsFrac := none, volume := none, natoms := none }]
    generalize s.setAll = x at *
    obtain ⟨⟩ := x
    simp only at hc hcc hv hf hr e3 e4 hk'
    simp [hc, hcc, hv, hf, hr, e1, e2, e3, e4, hk', ← g1, ← g2, ← l1, ← l2]

/-! ## concrete cases -/

/-- A molecule in a box of 2 Å. -/
noncomputable def exSt : St where
  cell := some (Matrix.diagonal fun _ => 2)
  coordsFrac := some [fun _ => 0, fun k => if k = 0 then 1 / 2 else 0]
  symbols := some ["H", "H"]

theorem exSt_good : GoodInput exSt where
  consistent :=
    { lattice := by intro c cc _ h; cases h
      coords := by intro c r f _ h; cases h
      volume := by intro c v _ h; cases h
      pressure := by intro m p h; cases h
      natoms := by intro n h; cases h }
  cell := by
    intro c h
    cases h
    simp
  cc := by intro h; cases h
  coordsCC := by intro h; cases h
  volumeCC := by intro h; cases h
  sizes := by
    refine ⟨?_, ?_, ?_⟩
    · intro l r _ h; cases h
    · intro l f h1 h2; cases h1; cases h2; rfl
    · intro r f h; cases h

example : Consistent exSt.setAll := C93_struct_consistent _ exSt_good

example : exSt.setAll.volume = some 8 := by
  rw [setAll_eq]
  simp [exSt, volumeCell]
  norm_num

example : exSt.setAll.natoms = some 2 := by
  rw [setAll_eq]
  rfl

example : ({ exSt.setAll with cc := none, coords := none, volume := none, natoms := none } : St).setAll = exSt.setAll :=
  (C93_restore _ exSt_good (Matrix.diagonal fun _ => 2) (by rw [setAll_eq]; rfl) rfl).1

/-- The molecule flying through the box, one cell for all steps. -/
noncomputable def exTrj (n : Nat) : Trj where
  cell := some (.one (Matrix.diagonal fun _ => 2))
  coords := some ⟨2, (List.range n).map fun i j k => i + j + k⟩
  symbols := some ["H", "O"]
  timestep := some 1

theorem exTrj_input (n : Nat) : TrajInput n 2 (exTrj n) where
  some := Or.inl (by simp [exTrj])
  coords := by
    intro a h
    cases h
    simp
  coordsFrac := by intro a h; cases h
  velocity := by intro a h; cases h
  cell := by
    intro e h
    cases h
    exact Or.inl ⟨_, rfl⟩
  cc := by intro a h; cases h
  stress := by intro a h; cases h
  pressure := by intro a h; cases h
  volume := by intro a h; cases h
  ekin := by intro a h; cases h
  temperature := by intro a h; cases h
  symbols := by intro a h; cases h; rfl
  fresh := ⟨rfl, rfl, rfl, rfl⟩

/-- Masses of the two elements. -/
noncomputable def exMass (s : String) : Option ℝ := if s = "H" then some 1 else if s = "O" then some 16 else none

example (c : Consts) : ∃ out, (exTrj 5).setAll c exMass = .ok out ∧ (∀ i < 5, stepAt out i = (stepAt (exTrj 5) i).setAll) ∧
    TrajDerived c exMass 5 2 (exTrj 5) out :=
  C93_traj_partial c exMass 5 2 _ (exTrj_input 5) (by intro l h; cases h; exact ⟨[1, 16], by simp [exMass]⟩) (by intros; omega)

example (c : Consts) : (exTrj 2).setAll c exMass = .error .index ∨ (exTrj 2).setAll c exMass = .error .key :=
  C93_short_counterexample c exMass 2 2 _ (exTrj_input 2) (by simp [exTrj]) rfl (by simp [exTrj]) (by omega)

end Pwtools.Drv
