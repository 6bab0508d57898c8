import Verif.Props.Cell
/-!
# C41 (lattice constants), C44 (grids)
-/
namespace Pwtools.Cry
open Real

/-! ### C41 -/

/-- Lattice constants of a real parallelepiped. -/
structure ValidCC (cc : CrystConst) : Prop where
  a : 0 < cc.a
  b : 0 < cc.b
  c : 0 < cc.c
  alpha : 0 < cc.alpha ∧ cc.alpha < 180
  beta : 0 < cc.beta ∧ cc.beta < 180
  gamma : 0 < cc.gamma ∧ cc.gamma < 180
  /-- the three angles fit together in space -/
  root : 0 ≤ ccRoot cc

theorem deg_range {x : ℝ} (h : 0 < x ∧ x < 180) : 0 < x * π / 180 ∧ x * π / 180 < π := by
  have hp := Real.pi_pos
  refine ⟨by have := h.1; positivity, ?_⟩
  rw [div_lt_iff₀ (by norm_num)]
  nlinarith [h.2]

theorem arccos_deg' {x y : ℝ} (h : 0 < x ∧ x < 180) (e : y = Real.cos (x * π / 180)) : Real.arccos y * 180 / π = x := by
  have := deg_range h
  have hp := Real.pi_ne_zero
  rw [e, Real.arccos_cos this.1.le this.2.le]
  field_simp

/-- The third cell vector of `cc2cell`. -/
theorem cz_sq (cc : CrystConst) (h : ValidCC cc) :
    cc.c ^ 2 - (cc.c * (Real.cos (cc.alpha * π / 180) - Real.cos (cc.beta * π / 180) * Real.cos (cc.gamma * π / 180))
        / Real.sin (cc.gamma * π / 180)) ^ 2 - (cc.c * Real.cos (cc.beta * π / 180)) ^ 2 =
    cc.c ^ 2 * ccRoot cc / Real.sin (cc.gamma * π / 180) ^ 2 := by
  have hs : 0 < Real.sin (cc.gamma * π / 180) := Real.sin_pos_of_pos_of_lt_pi (deg_range h.gamma).1 (deg_range h.gamma).2
  have e := Real.sin_sq_add_cos_sq (cc.gamma * π / 180)
  unfold ccRoot
  generalize Real.sin (cc.gamma * π / 180) = s at *
  generalize Real.cos (cc.gamma * π / 180) = g at *
  generalize Real.cos (cc.alpha * π / 180) = al at *
  generalize Real.cos (cc.beta * π / 180) = be at *
  field_simp
  linear_combination cc.c ^ 2 * (1 - be ^ 2) * e

/-- All scalar products of the cell made by `cc2cell`. -/
theorem cc2cell_dots (cc : CrystConst) (h : ValidCC cc) :
    dot (cc2cell cc 0) (cc2cell cc 0) = cc.a ^ 2 ∧ dot (cc2cell cc 1) (cc2cell cc 1) = cc.b ^ 2 ∧
    dot (cc2cell cc 2) (cc2cell cc 2) = cc.c ^ 2 ∧
    dot (cc2cell cc 1) (cc2cell cc 2) = cc.b * cc.c * Real.cos (cc.alpha * π / 180) ∧
    dot (cc2cell cc 0) (cc2cell cc 2) = cc.a * cc.c * Real.cos (cc.beta * π / 180) ∧
    dot (cc2cell cc 0) (cc2cell cc 1) = cc.a * cc.b * Real.cos (cc.gamma * π / 180) := by
  have hs : 0 < Real.sin (cc.gamma * π / 180) := Real.sin_pos_of_pos_of_lt_pi (deg_range h.gamma).1 (deg_range h.gamma).2
  have e := Real.sin_sq_add_cos_sq (cc.gamma * π / 180)
  have hz : 0 ≤ cc.c ^ 2 - (cc.c * (Real.cos (cc.alpha * π / 180) - Real.cos (cc.beta * π / 180) * Real.cos (cc.gamma * π / 180))
        / Real.sin (cc.gamma * π / 180)) ^ 2 - (cc.c * Real.cos (cc.beta * π / 180)) ^ 2 := by
    rw [cz_sq cc h]
    have := h.root
    positivity
  have hz2 := Real.sq_sqrt hz
  simp only [dot3, cc2cell, Matrix.of_apply, Matrix.cons_val_zero, Matrix.cons_val_one, Matrix.cons_val]
  refine ⟨by ring, by linear_combination cc.b ^ 2 * e, by linear_combination hz2, ?_, by ring, by ring⟩
  field_simp
  ring

theorem sqrt_row (c : Cell) (i : Fin 3) : Real.sqrt (∑ k, c i k ^ 2) = norm (c i) := by
  unfold norm dot
  congr 1
  apply Finset.sum_congr rfl
  intro k _; ring

theorem norm_of_sq {x : V3} {a : ℝ} (ha : 0 < a) (h : dot x x = a ^ 2) : norm x = a := by
  unfold norm; rw [h, Real.sqrt_sq ha.le]

/-- **C41** (constants → cell → constants). For all valid lattice constants. -/
theorem C41_cc_roundtrip (cc : CrystConst) (h : ValidCC cc) : cell2cc (cc2cell cc) = cc := by
  obtain ⟨h0, h1, h2, h12, h02, h01⟩ := cc2cell_dots cc h
  have n0 := norm_of_sq h.a h0
  have n1 := norm_of_sq h.b h1
  have n2 := norm_of_sq h.c h2
  have ha := h.a.ne'
  have hb := h.b.ne'
  have hc := h.c.ne'
  unfold cell2cc angle
  simp only [sqrt_row, n0, n1, n2, h12, h02, h01]
  rw [arccos_deg' h.alpha (by field_simp), arccos_deg' h.beta (by field_simp), arccos_deg' h.gamma (by field_simp)]

/-- Non-vacuity: the hexagonal constants 3, 3, 5, 90, 90, 120. -/
example : ValidCC ⟨3, 3, 5, 90, 90, 120⟩ := by
  have c90 : Real.cos (90 * π / 180) = 0 := by rw [show 90 * π / 180 = π / 2 by ring]; exact Real.cos_pi_div_two
  refine ⟨by norm_num, by norm_num, by norm_num, by norm_num, by norm_num, by norm_num, ?_⟩
  simp only [ccRoot, c90]
  have := Real.cos_sq_le_one (120 * π / 180)
  linarith

theorem row_pos (c : Cell) (h : c.det ≠ 0) :
    0 < norm (c 0) ∧ 0 < norm (c 1) ∧ 0 < norm (c 2) := by
  have key : ∀ x : V3, dot x x = 0 → x = 0 := by
    intro x hx
    rw [dot3] at hx
    funext i
    have h0 := mul_self_nonneg (x 0)
    have h1 := mul_self_nonneg (x 1)
    have h2 := mul_self_nonneg (x 2)
    have k0 : x 0 = 0 := mul_self_eq_zero.1 (by linarith)
    have k1 : x 1 = 0 := mul_self_eq_zero.1 (by linarith)
    have k2 : x 2 = 0 := mul_self_eq_zero.1 (by linarith)
    fin_cases i
    · exact k0
    · exact k1
    · exact k2
  have pos : ∀ i, 0 < norm (c i) := by
    intro i
    rcases (norm_nonneg (c i)).lt_or_eq with h1 | h1
    · exact h1
    · exfalso
      apply h
      have : c i = 0 := key _ (by rw [← norm_sq, ← h1]; ring)
      exact Matrix.det_eq_zero_of_row_eq_zero i (fun j => by rw [this]; rfl)
  exact ⟨pos 0, pos 1, pos 2⟩

theorem cos_angle (x y : V3) (hx : 0 < norm x) (hy : 0 < norm y) :
    norm x * norm y * Real.cos (angle x y * π / 180) = dot x y := by
  have hp := Real.pi_ne_zero
  have h1 := abs_le.1 (abs_dot_le x y)
  have e : angle x y * π / 180 = Real.arccos (dot x y / norm x / norm y) := by unfold angle; field_simp
  have hxy : 0 < norm x * norm y := mul_pos hx hy
  rw [e, Real.cos_arccos]
  · field_simp
  · rw [div_div, le_div_iff₀ hxy]; linarith [h1.1]
  · rw [div_div, div_le_one hxy]; exact h1.2

theorem angle_range (x y : V3) (hx : 0 < norm x) (hy : 0 < norm y) (h : dot (cross x y) (cross x y) ≠ 0) :
    0 < angle x y ∧ angle x y < 180 := by
  have hp := Real.pi_pos
  have hl := lagrange x y
  have hc : 0 < dot (cross x y) (cross x y) := lt_of_le_of_ne (dot_self_nonneg _) (Ne.symm h)
  have hxy : 0 < norm x * norm y := mul_pos hx hy
  have hsq : dot x y ^ 2 < (norm x * norm y) ^ 2 := by rw [mul_pow, norm_sq, norm_sq]; linarith
  have habs := abs_lt_of_sq_lt_sq hsq hxy.le
  obtain ⟨h1, h2⟩ := abs_lt.1 habs
  have e1 : -1 < dot x y / norm x / norm y := by rw [div_div, lt_div_iff₀ hxy]; linarith
  have e2 : dot x y / norm x / norm y < 1 := by rw [div_div, div_lt_one hxy]; exact h2
  have a1 : 0 < Real.arccos (dot x y / norm x / norm y) := Real.arccos_pos.2 e2
  have a2 : Real.arccos (dot x y / norm x / norm y) < π := by
    have := Real.arccos_neg (dot x y / norm x / norm y)
    have h3 : 0 < Real.arccos (-(dot x y / norm x / norm y)) := Real.arccos_pos.2 (by linarith)
    linarith
  unfold angle
  refine ⟨by positivity, ?_⟩
  rw [div_lt_iff₀ hp]; nlinarith

theorem cross_ne (c : Cell) (h : c.det ≠ 0) :
    dot (cross (c 1) (c 2)) (cross (c 1) (c 2)) ≠ 0 ∧ dot (cross (c 0) (c 2)) (cross (c 0) (c 2)) ≠ 0 ∧
    dot (cross (c 0) (c 1)) (cross (c 0) (c 1)) ≠ 0 := by
  have key : ∀ x : V3, dot x x = 0 → x 0 = 0 ∧ x 1 = 0 ∧ x 2 = 0 := by
    intro x hx
    rw [dot3] at hx
    have h0 := mul_self_nonneg (x 0)
    have h1 := mul_self_nonneg (x 1)
    have h2 := mul_self_nonneg (x 2)
    exact ⟨mul_self_eq_zero.1 (by linarith), mul_self_eq_zero.1 (by linarith), mul_self_eq_zero.1 (by linarith)⟩
  refine ⟨fun h1 => h ?_, fun h1 => h ?_, fun h1 => h ?_⟩
  · obtain ⟨k0, k1, k2⟩ := key _ h1
    rw [det3, dot3, k0, k1, k2]; ring
  · obtain ⟨k0, k1, k2⟩ := key _ h1
    rw [det3', dot3]
    simp only [cross, Matrix.cons_val_zero, Matrix.cons_val_one, Matrix.cons_val] at k0 k1 k2 ⊢
    linear_combination -(c 1 0) * k0 - (c 1 1) * k1 - (c 1 2) * k2
  · obtain ⟨k0, k1, k2⟩ := key _ h1
    rw [det3'', dot3, k0, k1, k2]; ring

/-- The root in `volume_cc` for the constants of a cell. -/
theorem root_cell (c : Cell) (h : c.det ≠ 0) :
    (norm (c 0) * norm (c 1) * norm (c 2)) ^ 2 * ccRoot (cell2cc c) = c.det ^ 2 := by
  obtain ⟨p0, p1, p2⟩ := row_pos c h
  have h12 := cos_angle (c 1) (c 2) p1 p2
  have h02 := cos_angle (c 0) (c 2) p0 p2
  have h01 := cos_angle (c 0) (c 1) p0 p1
  rw [gram, ← norm_sq (c 0), ← norm_sq (c 1), ← norm_sq (c 2), ← h12, ← h02, ← h01]
  unfold ccRoot cell2cc
  simp only
  ring

/-- The lattice constants of a non singular cell are valid. -/
theorem valid_cell (c : Cell) (h : c.det ≠ 0) : ValidCC (cell2cc c) := by
  obtain ⟨p0, p1, p2⟩ := row_pos c h
  obtain ⟨c12, c02, c01⟩ := cross_ne c h
  refine ⟨?_, ?_, ?_, angle_range _ _ p1 p2 c12, angle_range _ _ p0 p2 c02, angle_range _ _ p0 p1 c01, ?_⟩
  · simpa [cell2cc, sqrt_row] using p0
  · simpa [cell2cc, sqrt_row] using p1
  · simpa [cell2cc, sqrt_row] using p2
  · have h1 := root_cell c h
    have h2 : 0 < (norm (c 0) * norm (c 1) * norm (c 2)) ^ 2 := by positivity
    by_contra hneg
    have := mul_neg_of_pos_of_neg h2 (not_le.1 hneg)
    have := sq_nonneg c.det
    linarith

/-- **C41** (cell → constants → cell). The new cell has all scalar products of the old one: it is
the same cell, possibly rotated or mirrored. -/
theorem C41_cell_metric (c : Cell) (h : c.det ≠ 0) (i j : Fin 3) :
    dot (cc2cell (cell2cc c) i) (cc2cell (cell2cc c) j) = dot (c i) (c j) := by
  obtain ⟨p0, p1, p2⟩ := row_pos c h
  obtain ⟨h0, h1, h2, h12, h02, h01⟩ := cc2cell_dots _ (valid_cell c h)
  have a12 := cos_angle (c 1) (c 2) p1 p2
  have a02 := cos_angle (c 0) (c 2) p0 p2
  have a01 := cos_angle (c 0) (c 1) p0 p1
  have e0 : (cell2cc c).a = norm (c 0) := by simp [cell2cc, sqrt_row]
  have e1 : (cell2cc c).b = norm (c 1) := by simp [cell2cc, sqrt_row]
  have e2 : (cell2cc c).c = norm (c 2) := by simp [cell2cc, sqrt_row]
  have e3 : (cell2cc c).alpha = angle (c 1) (c 2) := rfl
  have e4 : (cell2cc c).beta = angle (c 0) (c 2) := rfl
  have e5 : (cell2cc c).gamma = angle (c 0) (c 1) := rfl
  rw [e0, norm_sq] at h0
  rw [e1, norm_sq] at h1
  rw [e2, norm_sq] at h2
  rw [e1, e2, e3, a12] at h12
  rw [e0, e2, e4, a02] at h02
  rw [e0, e1, e5, a01] at h01
  have sym : ∀ x y : V3, dot x y = dot y x := by intro x y; simp only [dot3]; ring
  fin_cases i <;> fin_cases j
  · exact h0
  · exact h01
  · exact h02
  · exact (sym _ _).trans (h01.trans (sym _ _))
  · exact h1
  · exact h12
  · exact (sym _ _).trans (h02.trans (sym _ _))
  · exact (sym _ _).trans (h12.trans (sym _ _))
  · exact h2

/-- **C41** (volume). `volume_cc(cc) = volume_cell(cc2cell(cc))`, and `volume_cc(cell2cc(cell)) =
volume_cell(cell)`. -/
theorem C41_volume (cc : CrystConst) (hv : ValidCC cc) (c : Cell) (h : c.det ≠ 0) :
    volumeCc cc = volumeCell (cc2cell cc) ∧ volumeCc (cell2cc c) = volumeCell c := by
  constructor
  · obtain ⟨h0, h1, h2, h12, h02, h01⟩ := cc2cell_dots cc hv
    unfold volumeCell volumeCc
    rw [← Real.sqrt_sq_eq_abs, gram, h0, h1, h2, h12, h02, h01]
    have e : cc.a * cc.b * cc.c = Real.sqrt ((cc.a * cc.b * cc.c) ^ 2) :=
      (Real.sqrt_sq (mul_nonneg (mul_nonneg hv.a.le hv.b.le) hv.c.le)).symm
    conv_lhs => rw [e]
    rw [← Real.sqrt_mul (sq_nonneg _)]
    congr 1
    unfold ccRoot
    ring
  · obtain ⟨p0, p1, p2⟩ := row_pos c h
    unfold volumeCell volumeCc
    rw [← Real.sqrt_sq_eq_abs, ← root_cell c h, Real.sqrt_mul (sq_nonneg _), Real.sqrt_sq (by positivity)]
    simp [cell2cc, sqrt_row]

/-- **C41** (convention). The cell made from constants has its first vector along x, the second in
the upper x-y plane, the third above that plane. -/
theorem C41_orientation (cc : CrystConst) (h : ValidCC cc) :
    cc2cell cc 0 = ![cc.a, 0, 0] ∧ cc2cell cc 1 2 = 0 ∧ 0 < cc2cell cc 1 1 ∧ 0 ≤ cc2cell cc 2 2 := by
  have hs : 0 < Real.sin (cc.gamma * π / 180) := Real.sin_pos_of_pos_of_lt_pi (deg_range h.gamma).1 (deg_range h.gamma).2
  refine ⟨rfl, rfl, mul_pos h.b hs, Real.sqrt_nonneg _⟩

/-! ### C44 -/

theorem npRound_spec (x : ℝ) : |(npRound x : ℝ) - x| ≤ 1 / 2 := by
  have h1 := Int.floor_le x
  have h2 := Int.lt_floor_add_one x
  unfold npRound
  simp only
  rw [abs_le]
  split_ifs <;> push_cast <;> constructor <;> linarith

theorem npRound_int (n : Int) : npRound (n : ℝ) = n := by
  unfold npRound
  simp

theorem gridInCell_ok (cell : Cell) (h : ℝ) (minpoints : Int) (even : Bool) (size : Fin 3 → Int) (sp : Fin 3 → ℝ)
    (e : gridInCell cell h minpoints even = .ok (size, sp)) :
    0 ≤ minpoints ∧ (∀ i, size i = gridCount (norm (cell i)) h minpoints even) ∧ (∀ i, size i ≠ 0) ∧
    ∀ i, sp i = norm (cell i) / (size i : ℝ) := by
  unfold gridInCell at e
  split at e
  · rename_i hm
    simp only at e
    split at e
    · simp at e
    · rename_i hz
      simp only [Except.ok.injEq, Prod.mk.injEq] at e
      obtain ⟨rfl, rfl⟩ := e
      simp only [sqrt_row] at hz ⊢
      refine ⟨hm, fun i => trivial, ?_, fun i => by ring⟩
      intro i
      simp only [not_or] at hz
      fin_cases i
      · exact hz.1
      · exact hz.2.1
      · exact hz.2.2
  · simp at e

/-- **C44** (counts). If `grid_in_cell(cell, h=…)` returns, then along each axis there are at least
`max(minpoints, 1)` points; a count which was not raised to `minpoints` is the axis length over `h`
rounded to the nearest integer (`even=False`), or at most one and a half above it and even
(`even=True`). -/
theorem C44_counts (cell : Cell) (h : ℝ) (minpoints : Int) (even : Bool) (size : Fin 3 → Int) (sp : Fin 3 → ℝ)
    (e : gridInCell cell h minpoints even = .ok (size, sp)) (i : Fin 3) :
    minpoints ≤ size i ∧ 1 ≤ size i ∧
    (size i ≠ minpoints → even = false → |(size i : ℝ) - norm (cell i) / h| ≤ 1 / 2) ∧
    (size i ≠ minpoints → even = true → size i % 2 = 0 ∧
      -1 / 2 ≤ (size i : ℝ) - norm (cell i) / h ∧ (size i : ℝ) - norm (cell i) / h ≤ 3 / 2) := by
  obtain ⟨h0, h1, h2, h3⟩ := gridInCell_ok cell h minpoints even size sp e
  have hs := h1 i
  have hn := h2 i
  have hr := abs_le.1 (npRound_spec (norm (cell i) / h))
  rw [hs] at hn ⊢
  unfold gridCount at hn ⊢
  simp only at hn ⊢
  cases even
  · simp only [Bool.false_eq_true, if_false] at hn ⊢
    split_ifs with hlt
    · rw [if_pos hlt] at hn
      exact ⟨le_refl _, by omega, fun hc => absurd rfl hc, fun hc => absurd rfl hc⟩
    · rw [if_neg hlt] at hn
      refine ⟨by omega, by omega, fun _ _ => npRound_spec _, fun _ hc => by cases hc⟩
  · simp only [if_true] at hn ⊢
    split_ifs with hlt
    · rw [if_pos hlt] at hn
      exact ⟨le_refl _, by omega, fun hc => absurd rfl hc, fun hc => absurd rfl hc⟩
    · rw [if_neg hlt] at hn
      refine ⟨by omega, by omega, (fun _ hc => by cases hc), fun _ _ => ⟨by omega, ?_⟩⟩
      have hm : 0 ≤ npRound (norm (cell i) / h) % 2 ∧ npRound (norm (cell i) / h) % 2 ≤ 1 := by omega
      have hm1 : (0:ℝ) ≤ ((npRound (norm (cell i) / h) % 2 : Int) : ℝ) := by exact_mod_cast hm.1
      have hm2 : ((npRound (norm (cell i) / h) % 2 : Int) : ℝ) ≤ 1 := by exact_mod_cast hm.2
      push_cast at hm1 hm2 ⊢
      constructor <;> linarith [hr.1, hr.2]

/-- **C44** (spacing). The reported spacing is that of `grid_in_cell(cell, size=size)`, it is the
axis length divided by the count, and asking for this spacing again gives the same count. -/
theorem C44_spacing (cell : Cell) (h : ℝ) (minpoints : Int) (size : Fin 3 → Int) (sp : Fin 3 → ℝ)
    (e : gridInCell cell h minpoints false = .ok (size, sp)) (hd : cell.det ≠ 0) (i : Fin 3) :
    sp i = gridSpacing cell size i ∧ sp i * size i = norm (cell i) ∧
    gridCount (norm (cell i)) (sp i) minpoints false = size i := by
  obtain ⟨h0, h1, h2, h3⟩ := gridInCell_ok cell h minpoints false size sp e
  obtain ⟨c1, c2, _⟩ := C44_counts cell h minpoints false size sp e i
  have hn : (size i : ℝ) ≠ 0 := by exact_mod_cast h2 i
  have hpos : 0 < norm (cell i) := by
    obtain ⟨p0, p1, p2⟩ := row_pos cell hd
    fin_cases i
    · exact p0
    · exact p1
    · exact p2
  refine ⟨by rw [h3, gridSpacing, sqrt_row]; ring, by rw [h3]; field_simp, ?_⟩
  rw [h3]
  have : norm (cell i) / (norm (cell i) / (size i : ℝ)) = (size i : ℝ) := by field_simp
  unfold gridCount
  simp only [this, npRound_int, Bool.false_eq_true, if_false]
  rw [if_neg (by omega)]

/-- **C44** (when it returns). With `minpoints ≥ 1` (default 1) there is always a grid; a negative
`minpoints` is rejected. -/
theorem C44_returns (cell : Cell) (h : ℝ) (minpoints : Int) (even : Bool) :
    (1 ≤ minpoints → ∃ r, gridInCell cell h minpoints even = .ok r) ∧
    (minpoints < 0 → gridInCell cell h minpoints even = .error .assertion) := by
  constructor
  · intro hm
    have hp : ∀ n, gridCount n h minpoints even ≠ 0 := by
      intro n
      unfold gridCount
      simp only
      split_ifs <;> omega
    unfold gridInCell
    rw [if_pos (by omega)]
    simp only
    rw [if_neg (by simp [hp])]
    exact ⟨_, rfl⟩
  · intro hm
    unfold gridInCell
    rw [if_neg (by omega)]

/-- **C44** is false for `even=True`: the default `minpoints=1` is applied after the counts were
made even, so a coarse spacing gives the odd count 1. -/
theorem C44_even_counterexample :
    ∃ sp, gridInCell (1 : Cell) 10 1 true = .ok (fun _ => 1, sp) := by
  have hn : ∀ i : Fin 3, Real.sqrt (∑ k, (1 : Cell) i k ^ 2) = 1 := by
    intro i
    have : ∑ k, (1 : Cell) i k ^ 2 = 1 := by
      rw [Fin.sum_univ_three]
      fin_cases i <;> simp [Matrix.one_apply]
    rw [this, Real.sqrt_one]
  have hc : gridCount 1 10 1 true = 1 := by
    unfold gridCount npRound
    have : ⌊(1:ℝ) / 10⌋ = 0 := by rw [Int.floor_eq_iff]; norm_num
    simp only [this]
    norm_num
  refine ⟨fun i => 1, ?_⟩
  unfold gridInCell
  rw [if_pos (by norm_num)]
  simp only [hn, hc]
  norm_num

/-- **C44** (even, where it holds). With an even `minpoints` all counts are even. -/
theorem C44_even_partial (cell : Cell) (h : ℝ) (minpoints : Int) (size : Fin 3 → Int) (sp : Fin 3 → ℝ)
    (e : gridInCell cell h minpoints true = .ok (size, sp)) (hm : minpoints % 2 = 0) (i : Fin 3) : size i % 2 = 0 := by
  by_cases hc : size i = minpoints
  · rw [hc]; exact hm
  · exact ((C44_counts cell h minpoints true size sp e i).2.2.2 hc rfl).1

/-- Non-vacuity of the hypotheses: this call returns. -/
example : ∃ r, gridInCell (!![5, 0, 0; 0, 5, 0; 0, 0, 8] : Cell) 0.5 2 true = .ok r := (C44_returns _ _ _ _).1 (by norm_num)

end Pwtools.Cry
