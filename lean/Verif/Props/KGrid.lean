import Verif.Spec.KGrid
import Verif.Props.Cell3
/-!
# C186: grids for convergence studies
-/
namespace Pwtools.Cry
open Real Pwtools.Spec

theorem npRound_mono (x y : ℝ) (h : x ≤ y) : npRound x ≤ npRound y := by
  have hf : ⌊x⌋ ≤ ⌊y⌋ := Int.floor_le_floor h
  rcases hf.lt_or_eq with hlt | heq
  · have h1 : npRound x ≤ ⌊x⌋ + 1 := by
      unfold npRound
      dsimp only
      split_ifs <;> omega
    have h2 : ⌊y⌋ ≤ npRound y := by
      unfold npRound
      dsimp only
      split_ifs <;> omega
    omega
  · unfold npRound
    dsimp only
    rw [← heq]
    split_ifs <;> first | omega | (exfalso; linarith)

theorem count_mono (a b h h' : ℝ) (hab : a / h ≤ b / h') (m : Int) (even : Bool) : gridCount a h m even ≤ gridCount b h' m even := by
  have := npRound_mono _ _ hab
  unfold gridCount
  dsimp only
  cases even <;> simp only [Bool.false_eq_true, if_true, if_false] <;> split_ifs <;> omega

/-- C186: a smaller `h` never gives fewer points or a larger spacing along any axis. -/
theorem C186_finer (cell : Cell) (h h' : ℝ) (hh : 0 < h') (hle : h' ≤ h) (m : Int) (even : Bool) (size size' : Fin 3 → Int) (sp sp' : Fin 3 → ℝ)
    (e : gridInCell cell h m even = .ok (size, sp)) (e' : gridInCell cell h' m even = .ok (size', sp')) (i : Fin 3) :
    size i ≤ size' i ∧ sp' i ≤ sp i := by
  obtain ⟨_, h1, _, h3⟩ := gridInCell_ok cell h m even size sp e
  obtain ⟨_, h1', _, h3'⟩ := gridInCell_ok cell h' m even size' sp' e'
  have hs : size i ≤ size' i := by
    rw [h1 i, h1' i]
    exact count_mono _ _ _ _ (div_le_div_of_nonneg_left (norm_nonneg _) hh hle) m even
  refine ⟨hs, ?_⟩
  rw [h3 i, h3' i]
  have hp : (0 : ℝ) < size i := by
    have := (C44_counts cell h m even size sp e i).2.1
    exact_mod_cast (by omega : 0 < size i)
  exact div_le_div_of_nonneg_left (norm_nonneg _) hp (by exact_mod_cast hs)

/-- C186: more `minpoints` never give fewer points. -/
theorem C186_minpoints (cell : Cell) (h : ℝ) (m m' : Int) (hm : m ≤ m') (even : Bool) (size size' : Fin 3 → Int) (sp sp' : Fin 3 → ℝ)
    (e : gridInCell cell h m even = .ok (size, sp)) (e' : gridInCell cell h m' even = .ok (size', sp')) (i : Fin 3) :
    size i ≤ size' i ∧ (m' ≤ size i → size' i = size i) := by
  obtain ⟨_, h1, _, _⟩ := gridInCell_ok cell h m even size sp e
  obtain ⟨_, h1', _, _⟩ := gridInCell_ok cell h m' even size' sp' e'
  rw [h1 i, h1' i]
  unfold gridCount
  dsimp only
  split_ifs <;> omega

/-- C186: the spacing is never above `3/2 h`, and the number of points is at least `|axis|/h - 1/2`. -/
theorem C186_spacing (cell : Cell) (h : ℝ) (hh : 0 < h) (m : Int) (even : Bool) (size : Fin 3 → Int) (sp : Fin 3 → ℝ)
    (e : gridInCell cell h m even = .ok (size, sp)) (i : Fin 3) :
    sp i ≤ 3 / 2 * h ∧ sp i ≤ h + h / (2 * size i) ∧ norm (cell i) / h - 1 / 2 ≤ size i := by
  obtain ⟨_, h1, _, h3⟩ := gridInCell_ok cell h m even size sp e
  have hp : (1 : ℝ) ≤ size i := by exact_mod_cast (C44_counts cell h m even size sp e i).2.1
  have hr : (npRound (norm (cell i) / h) : ℝ) ≤ size i := by
    have : npRound (norm (cell i) / h) ≤ size i := by
      rw [h1 i]
      unfold gridCount
      dsimp only
      split_ifs <;> omega
    exact_mod_cast this
  have hs := (abs_le.1 (npRound_spec (norm (cell i) / h))).1
  have hn : norm (cell i) / h - 1 / 2 ≤ size i := by linarith
  have hn2 : norm (cell i) ≤ (size i + 1 / 2) * h := by
    rw [← div_le_iff₀ hh]
    linarith
  have h2 : sp i ≤ h + h / (2 * size i) := by
    rw [h3 i, div_le_iff₀ (by linarith)]
    have : (h + h / (2 * (size i : ℝ))) * size i = (size i + 1 / 2) * h := by
      have : (size i : ℝ) ≠ 0 := by linarith
      field_simp
    rw [this]
    exact hn2
  refine ⟨?_, h2, hn⟩
  have : h / (2 * size i) ≤ h / 2 := div_le_div_of_nonneg_left hh.le (by norm_num) (by linarith)
  linarith

theorem dual_exists (cell : Cell) (hd : cell.det ≠ 0) : ∃ b : Cell, ∀ i j, dot (cell i) (b j) = if i = j then 2 * π else 0 := by
  refine ⟨((2 * π) • cell⁻¹).transpose, fun i j => ?_⟩
  rw [← dot_eq_mul, Matrix.transpose_transpose, Matrix.mul_smul, Matrix.mul_nonsing_inv _ (isUnit_iff_ne_zero.2 hd)]
  simp [Matrix.one_apply]

theorem norm_scale (c : ℝ) (hc : 0 ≤ c) (x : V3) : norm (fun k => c * x k) = c * norm x := by
  unfold norm
  have : dot (fun k => c * x k) (fun k => c * x k) = c ^ 2 * dot x x := by
    simp only [dot3]
    ring
  rw [this, Real.sqrt_mul (sq_nonneg c), Real.sqrt_sq hc]

theorem stretched_det (n : Fin 3 → ℝ) (cell : Cell) : (stretched n cell).det = n 0 * n 1 * n 2 * cell.det := by
  have : stretched n cell = Matrix.diagonal n * cell := by
    ext i k
    simp [stretched, Matrix.diagonal_mul]
  rw [this, Matrix.det_mul, Matrix.det_diagonal, Fin.prod_univ_three]

theorem recip_stretched (n : Fin 3 → ℝ) (hn : ∀ i, 0 < n i) (cell : Cell) (hd : cell.det ≠ 0) (i : Fin 3) :
    norm (recipCell (stretched n cell) i) = norm (recipCell cell i) / n i := by
  obtain ⟨b, hb⟩ := dual_exists cell hd
  have hd' : (stretched n cell).det ≠ 0 := by
    rw [stretched_det]
    exact mul_ne_zero (mul_ne_zero (mul_ne_zero (hn 0).ne' (hn 1).ne') (hn 2).ne') hd
  rw [recip_norm cell b hd hb, recip_norm (stretched n cell) (Matrix.of fun i k => (n i)⁻¹ * b i k) hd' ?_]
  · have := norm_scale (n i)⁻¹ (inv_nonneg.2 (hn i).le) (b i)
    rw [div_eq_inv_mul]
    exact this
  · intro i j
    have e : dot (stretched n cell i) ((Matrix.of fun i k => (n i)⁻¹ * b i k : Cell) j) = n i * (n j)⁻¹ * dot (cell i) (b j) := by
      simp only [dot3, stretched, Matrix.of_apply]
      ring
    rw [e, hb]
    split_ifs with hij
    · subst hij
      rw [mul_inv_cancel₀ (hn i).ne', one_mul]
    · ring

/-- C186: a supercell never needs more k-points than the cell, and along each axis gets the number for the spacing `n h` in the cell. -/
theorem C186_supercell (cell : Cell) (hd : cell.det ≠ 0) (n : Fin 3 → Nat) (hn : ∀ i, 1 ≤ n i) (h : ℝ) (hh : 0 < h) (m : Int) (even : Bool)
    (size size' : Fin 3 → Int) (sp sp' : Fin 3 → ℝ) (e : kgrid cell h m even = .ok (size, sp))
    (e' : kgrid (stretched (fun i => n i) cell) h m even = .ok (size', sp')) (i : Fin 3) :
    size' i ≤ size i ∧ sp' i * size' i * n i = sp i * size i ∧
    ∀ s q, kgrid cell (n i * h) m even = .ok (s, q) → size' i = s i ∧ sp' i = q i / n i := by
  unfold kgrid at e e' ⊢
  obtain ⟨_, h1, h2, h3⟩ := gridInCell_ok _ h m even size sp e
  obtain ⟨_, h1', h2', h3'⟩ := gridInCell_ok _ h m even size' sp' e'
  have hp : ∀ i, (0 : ℝ) < n i := fun i => by exact_mod_cast hn i
  have hr := recip_stretched (fun i => (n i : ℝ)) hp cell hd i
  have hz : (size i : ℝ) ≠ 0 := by exact_mod_cast h2 i
  have hz' : (size' i : ℝ) ≠ 0 := by exact_mod_cast h2' i
  have hni : (n i : ℝ) ≠ 0 := (hp i).ne'
  refine ⟨?_, ?_, ?_⟩
  · rw [h1 i, h1' i, hr]
    apply count_mono
    apply div_le_div_of_nonneg_right _ hh.le
    apply div_le_self (norm_nonneg _)
    exact_mod_cast hn i
  · rw [h3 i, h3' i, hr]
    field_simp
  · intro s q eq
    obtain ⟨_, g1, g2, g3⟩ := gridInCell_ok _ _ m even s q eq
    have es : size' i = s i := by
      rw [h1' i, g1 i, hr]
      unfold gridCount
      rw [div_div]
    refine ⟨es, ?_⟩
    rw [h3' i, g3 i, hr, es]
    field_simp

/-- C186: in another unit of length (cell times `c`, `h` divided by `c`) the grid is the same, and spacings are divided by `c`. -/
theorem C186_units (cell : Cell) (hd : cell.det ≠ 0) (c : ℝ) (hc : 0 < c) (h : ℝ) (m : Int) (even : Bool) (size size' : Fin 3 → Int)
    (sp sp' : Fin 3 → ℝ) (e : kgrid cell h m even = .ok (size, sp)) (e' : kgrid (stretched (fun _ => c) cell) (h / c) m even = .ok (size', sp'))
    (i : Fin 3) : size' i = size i ∧ sp' i = sp i / c := by
  unfold kgrid at e e'
  obtain ⟨_, h1, _, h3⟩ := gridInCell_ok _ h m even size sp e
  obtain ⟨_, h1', _, h3'⟩ := gridInCell_ok _ _ m even size' sp' e'
  have hr := recip_stretched (fun _ => c) (fun _ => hc) cell hd i
  have es : size' i = size i := by
    rw [h1' i, h1 i, hr]
    unfold gridCount
    rw [div_div_div_cancel_right₀ hc.ne']
  refine ⟨es, ?_⟩
  rw [h3' i, h3 i, hr, es]
  field_simp

/-- C186: the grid does not depend on the orientation of the cell. -/
theorem C186_orientation (cell R : Cell) (hd : cell.det ≠ 0) (hR : R * R.transpose = 1) (h : ℝ) (m : Int) (even : Bool)
    (size size' : Fin 3 → Int) (sp sp' : Fin 3 → ℝ) (e : kgrid cell h m even = .ok (size, sp)) (e' : kgrid (cell * R) h m even = .ok (size', sp')) :
    size' = size ∧ sp' = sp := by
  have hn : ∀ i, norm (recipCell (cell * R) i) = norm (recipCell cell i) := by
    intro i
    obtain ⟨b, hb⟩ := dual_exists cell hd
    have hRd : R.det ≠ 0 := by
      intro h0
      have := congrArg Matrix.det hR
      rw [Matrix.det_mul, h0, zero_mul, Matrix.det_one] at this
      exact zero_ne_one this
    have key : ∀ x y : Cell, ∀ i j, dot ((x * R) i) ((y * R) j) = dot (x i) (y j) := by
      intro x y i j
      rw [← dot_eq_mul, Matrix.transpose_mul, Matrix.mul_assoc, ← Matrix.mul_assoc R, hR, Matrix.one_mul, dot_eq_mul]
    rw [recip_norm cell b hd hb, recip_norm (cell * R) (b * R) (by rw [Matrix.det_mul]; exact mul_ne_zero hd hRd) (fun i j => by rw [key, hb])]
    unfold norm
    rw [key]
  unfold kgrid at e e'
  obtain ⟨_, h1, _, h3⟩ := gridInCell_ok _ h m even size sp e
  obtain ⟨_, h1', _, h3'⟩ := gridInCell_ok _ h m even size' sp' e'
  have es : size' = size := by
    funext i
    rw [h1' i, h1 i, hn]
  refine ⟨es, ?_⟩
  funext i
  rw [h3' i, h3 i, hn, es]

/-- All these calls return, e.g. for an orthorhombic cell and its 2x2x1 supercell. -/
example : (!![5, 0, 0; 0, 5, 0; 0, 0, 8] : Cell).det ≠ 0 ∧ (∃ r, kgrid (!![5, 0, 0; 0, 5, 0; 0, 0, 8] : Cell) 0.5 1 false = .ok r) ∧
    ∃ r, kgrid (stretched (fun i => ((![2, 2, 1] : Fin 3 → Nat) i : ℝ)) (!![5, 0, 0; 0, 5, 0; 0, 0, 8] : Cell)) 0.5 1 false = .ok r :=
  ⟨by simp [Matrix.det_fin_three], (C44_returns _ _ _ _).1 (by norm_num), (C44_returns _ _ _ _).1 (by norm_num)⟩

end Pwtools.Cry
