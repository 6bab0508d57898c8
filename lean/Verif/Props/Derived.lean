import Verif.Spec.Derived
import Verif.Props.Cell2
import Verif.Props.Scell
/-!
# C93: derived attributes of structures and trajectories
-/
namespace Pwtools.Drv
open Pwtools.Cry Pwtools.Spec

/-! ## structures -/

theorem lattice_of_cell (c : Cell) (h : c.det ≠ 0) : LatticeConst c (cell2cc c) := by
  obtain ⟨p0, p1, p2⟩ := row_pos c h
  have a12 := cos_angle (c 1) (c 2) p1 p2
  have a02 := cos_angle (c 0) (c 2) p0 p2
  have a01 := cos_angle (c 0) (c 1) p0 p1
  have v := valid_cell c h
  have e0 : (cell2cc c).a = Cry.norm (c 0) := by simp [cell2cc, sqrt_row]
  have e1 : (cell2cc c).b = Cry.norm (c 1) := by simp [cell2cc, sqrt_row]
  have e2 : (cell2cc c).c = Cry.norm (c 2) := by simp [cell2cc, sqrt_row]
  have e3 : (cell2cc c).alpha = angle (c 1) (c 2) := rfl
  have e4 : (cell2cc c).beta = angle (c 0) (c 2) := rfl
  have e5 : (cell2cc c).gamma = angle (c 0) (c 1) := rfl
  refine ⟨?_, ?_, ?_, ?_, ?_, ?_, ⟨v.alpha.1.le, v.alpha.2.le⟩, ⟨v.beta.1.le, v.beta.2.le⟩, ⟨v.gamma.1.le, v.gamma.2.le⟩⟩
  · simp [cell2cc, Fin.sum_univ_three]
  · simp [cell2cc, Fin.sum_univ_three]
  · simp [cell2cc, Fin.sum_univ_three]
  · rw [e1, e2, e3, a12, dot3]
  · rw [e0, e2, e4, a02, dot3]
  · rw [e0, e1, e5, a01, dot3]

theorem valid_of_possible {cc : CrystConst} (h : PossibleCC cc) : ValidCC cc :=
  ⟨h.1, h.2.1, h.2.2.1, h.2.2.2.1, h.2.2.2.2.1, h.2.2.2.2.2.1, h.2.2.2.2.2.2.le⟩

theorem lattice_of_cc (cc : CrystConst) (h : PossibleCC cc) : LatticeConst (cc2cell cc) cc := by
  have v := valid_of_possible h
  obtain ⟨h0, h1, h2, h12, h02, h01⟩ := cc2cell_dots cc v
  rw [dot3] at h0 h1 h2 h12 h02 h01
  refine ⟨?_, ?_, ?_, h12, h02, h01, ⟨v.alpha.1.le, v.alpha.2.le⟩, ⟨v.beta.1.le, v.beta.2.le⟩, ⟨v.gamma.1.le, v.gamma.2.le⟩⟩
  · rw [← Real.sqrt_sq v.a.le, ← h0]; congr 1; ring
  · rw [← Real.sqrt_sq v.b.le, ← h1]; congr 1; ring
  · rw [← Real.sqrt_sq v.c.le, ← h2]; congr 1; ring

theorem cc2cell_det (cc : CrystConst) (h : PossibleCC cc) : (cc2cell cc).det ≠ 0 := by
  have v := valid_of_possible h
  intro hc
  have h1 := (C41_volume cc v 1 (by simp)).1
  unfold volumeCell volumeCc at h1
  rw [hc, abs_zero] at h1
  have : 0 < Real.sqrt (ccRoot cc) := Real.sqrt_pos.2 h.2.2.2.2.2.2
  have : 0 < cc.a * cc.b * cc.c * Real.sqrt (ccRoot cc) := mul_pos (mul_pos (mul_pos v.a v.b) v.c) this
  rw [h1] at this
  exact lt_irrefl _ this

/-- The result of `set_all` in closed form. -/
theorem setAll_eq (s : St) :
    s.setAll =
      { cell := s.cell <|> s.cc.map cc2cell
        cc := s.cc <|> s.cell.map cell2cc
        coords := s.coords <|> s.coordsFrac.bind fun f => (s.cell <|> s.cc.map cc2cell).map fun c => f.map (frac2cart c)
        coordsFrac := s.coordsFrac <|> s.coords.bind fun r => (s.cell <|> s.cc.map cc2cell).map fun c => r.map (cart2frac c)
        stress := s.stress
        pressure := s.pressure <|> s.stress.map trace3
        volume := s.volume <|> (s.cell <|> s.cc.map cc2cell).map volumeCell
        symbols := s.symbols
        natoms := s.natoms <|> (s.symbols.map List.length <|> (s.coords.map List.length <|> s.coordsFrac.map List.length)) } := by
  obtain ⟨cell, cc, coords, frac, stress, pressure, volume, symbols, natoms⟩ := s
  rcases cell with _ | cell <;> rcases cc with _ | cc <;> rcases coords with _ | coords <;> rcases frac with _ | frac <;>
    rcases pressure with _ | pressure <;> rcases volume with _ | volume <;> rcases natoms with _ | natoms <;> rcases symbols with _ | symbols <;>
    first
    | rfl
    | simp [St.setAll, St.setCell, St.setCoords, St.setCoordsFrac, St.setCC, St.setPressure, St.setVolume, St.setNatoms]

/-- **C93**. Given attributes are never changed, and every attribute which follows from the given ones is set; for all inputs. -/
theorem C93_struct_complete (s : St) : Kept s s.setAll ∧ Complete s s.setAll := by
  rw [setAll_eq]
  obtain ⟨cell, cc, coords, frac, stress, pressure, volume, symbols, natoms⟩ := s
  constructor
  · constructor <;> first | rfl | (intro x hx; simp only at hx; subst hx; rfl)
  · constructor <;> rcases cell with _ | cell <;> rcases cc with _ | cc <;> rcases coords with _ | coords <;> rcases frac with _ | frac <;>
      rcases pressure with _ | pressure <;> rcases volume with _ | volume <;> rcases natoms with _ | natoms <;> rcases symbols with _ | symbols <;>
      rcases stress with _ | stress <;> simp

theorem cartOf_frac2cart (c : Cell) (s : V3) : CartOf c s (frac2cart c s) := by
  intro k
  simp [frac2cart, Matrix.vecMul, dotProduct, Fin.sum_univ_three]

/-- **C93**. From good input `set_all` makes an object whose attributes all fit together. -/
theorem C93_struct_consistent (s : St) (h : GoodInput s) : Consistent s.setAll := by
  rw [setAll_eq]
  have hcell : ∀ c, (s.cell <|> s.cc.map cc2cell) = some c → c.det ≠ 0 := by
    intro c hc
    cases hs : s.cell with
    | some c' =>
      rw [hs] at hc
      obtain rfl : c' = c := by simpa using hc
      exact h.cell _ hs
    | none =>
      rw [hs] at hc
      cases hcc : s.cc with
      | none => rw [hcc] at hc; simp at hc
      | some cc =>
        rw [hcc] at hc
        obtain rfl : cc2cell cc = c := by simpa using hc
        exact cc2cell_det cc (h.cc hs cc hcc)
  constructor
  · intro c cc hc hcc
    simp only at hc hcc
    cases hs : s.cell with
    | some c' =>
      rw [hs] at hc hcc
      obtain rfl : c' = c := by simpa using hc
      cases h2 : s.cc with
      | some cc' =>
        rw [h2] at hcc
        obtain rfl : cc' = cc := by simpa using hcc
        exact h.consistent.lattice _ _ hs h2
      | none =>
        rw [h2] at hcc
        obtain rfl : cell2cc c' = cc := by simpa using hcc
        exact lattice_of_cell _ (h.cell _ hs)
    | none =>
      rw [hs] at hc hcc
      cases h2 : s.cc with
      | some cc' =>
        rw [h2] at hc hcc
        obtain rfl : cc' = cc := by simpa using hcc
        obtain rfl : cc2cell cc' = c := by simpa using hc
        exact lattice_of_cc _ (h.cc hs _ h2)
      | none => rw [h2] at hc; simp at hc
  · intro c r f hc hr hf
    simp only at hc hr hf
    rw [hc] at hr hf
    have hd := hcell c hc
    cases h1 : s.coords with
    | some r' =>
      rw [h1] at hr hf
      obtain rfl : r' = r := by simpa using hr
      cases h2 : s.coordsFrac with
      | some f' =>
        rw [h2] at hf
        obtain rfl : f' = f := by simpa using hf
        cases hs : s.cell with
        | some c' =>
          rw [hs] at hc
          obtain rfl : c' = c := by simpa using hc
          exact h.consistent.coords _ _ _ hs h1 h2
        | none =>
          have : s.cc ≠ none := by
            intro hn
            rw [hs, hn] at hc
            simp at hc
          rcases h.coordsCC hs this with h3 | h3
          · rw [h1] at h3; cases h3
          · rw [h2] at h3; cases h3
      | none =>
        rw [h2] at hf
        obtain rfl : r'.map (cart2frac c) = f := by simpa using hf
        rw [List.forall₂_map_left_iff]
        refine List.forall₂_same.2 fun x _ => ?_
        have := cartOf_frac2cart c (cart2frac c x)
        rwa [(C39_frac_cart c hd x x).2.1] at this
    | none =>
      rw [h1] at hr hf
      cases h2 : s.coordsFrac with
      | none => rw [h2] at hr; simp at hr
      | some f' =>
        rw [h2] at hr hf
        obtain rfl : f' = f := by simpa using hf
        obtain rfl : f'.map (frac2cart c) = r := by simpa using hr
        rw [List.forall₂_map_right_iff]
        exact List.forall₂_same.2 fun x _ => cartOf_frac2cart c x
  · intro c v hc hv
    simp only at hc hv
    cases h1 : s.volume with
    | none =>
      rw [h1, hc] at hv
      obtain rfl : volumeCell c = v := by simpa using hv
      rfl
    | some v' =>
      rw [h1] at hv
      obtain rfl : v' = v := by simpa using hv
      cases hs : s.cell with
      | some c' =>
        rw [hs] at hc
        obtain rfl : c' = c := by simpa using hc
        exact h.consistent.volume _ _ hs h1
      | none =>
        rw [hs, h.volumeCC hs (by simp [h1])] at hc
        simp at hc
  · intro m p hm hp
    simp only at hm hp
    cases h1 : s.pressure with
    | none =>
      rw [h1, hm] at hp
      obtain rfl : trace3 m = p := by simpa using hp
      simp [trace3, Fin.sum_univ_three]
    | some p' =>
      rw [h1] at hp
      obtain rfl : p' = p := by simpa using hp
      exact h.consistent.pressure _ _ hm h1
  · intro n hn
    simp only at hn
    have hlen : (∀ r, s.coords = some r → n = r.length) ∧ (∀ f, s.coordsFrac = some f → n = f.length) ∧ ∀ l, s.symbols = some l → n = l.length := by
      cases h1 : s.natoms with
      | some n' =>
        rw [h1] at hn
        obtain rfl : n' = n := by simpa using hn
        have := h.consistent.natoms _ h1
        exact ⟨this.2.1, this.2.2, this.1⟩
      | none =>
        rw [h1] at hn
        obtain ⟨z1, z2, z3⟩ := h.sizes
        cases h2 : s.symbols <;> cases h3 : s.coords <;> cases h4 : s.coordsFrac <;> rw [h2, h3, h4] at hn <;> simp at hn <;> subst hn <;>
          simp_all
    refine ⟨fun l hl => hlen.2.2 l hl, ?_, ?_⟩
    · intro l hl
      simp only at hl
      cases h1 : s.coords with
      | some r =>
        rw [h1] at hl
        obtain rfl : r = l := by simpa using hl
        exact hlen.1 _ h1
      | none =>
        rw [h1] at hl
        cases h2 : s.coordsFrac with
        | none => rw [h2] at hl; simp at hl
        | some f =>
          rw [h2] at hl
          obtain ⟨c, -, rfl⟩ : ∃ c, _ ∧ f.map (frac2cart c) = l := by simpa using hl
          rw [List.length_map]
          exact hlen.2.1 f h2
    · intro l hl
      simp only at hl
      cases h1 : s.coordsFrac with
      | some f =>
        rw [h1] at hl
        obtain rfl : f = l := by simpa using hl
        exact hlen.2.1 _ h1
      | none =>
        rw [h1] at hl
        cases h2 : s.coords with
        | none => rw [h2] at hl; simp at hl
        | some r =>
          rw [h2] at hl
          obtain ⟨c, -, rfl⟩ : ∃ c, _ ∧ r.map (cart2frac c) = l := by simpa using hl
          rw [List.length_map]
          exact hlen.1 r h2

/-- **C93**. `set_all` on an object made by `set_all` changes nothing. -/
theorem C93_idempotent (s : St) : s.setAll.setAll = s.setAll := by
  rw [setAll_eq s.setAll, setAll_eq s]
  obtain ⟨cell, cc, coords, frac, stress, pressure, volume, symbols, natoms⟩ := s
  rcases cell with _ | cell <;> rcases cc with _ | cc <;> rcases coords with _ | coords <;> rcases frac with _ | frac <;>
    rcases pressure with _ | pressure <;> rcases volume with _ | volume <;> rcases natoms with _ | natoms <;> rcases symbols with _ | symbols <;>
    rcases stress with _ | stress <;> simp

end Pwtools.Drv
