import Verif.Props.Cell2
/-!
# C44 (ties, reciprocal grids) and C54 (handedness), added after mutation testing
-/
namespace Pwtools.Cry
open Real

/-- **C44** (ties). If the axis length over `h` is exactly half way between two integers, the even one of
the two is taken. -/
theorem C44_ties (cell : Cell) (h : ℝ) (minpoints : Int) (size : Fin 3 → Int) (sp : Fin 3 → ℝ)
    (e : gridInCell cell h minpoints false = .ok (size, sp)) (i : Fin 3) (n : Int)
    (ht : norm (cell i) / h = n + 1 / 2) (hm : size i ≠ minpoints) :
    size i = if n % 2 = 0 then n else n + 1 := by
  obtain ⟨h0, h1, h2, h3⟩ := gridInCell_ok cell h minpoints false size sp e
  have hs := h1 i
  have hf : ⌊norm (cell i) / h⌋ = n := by
    rw [ht, Int.floor_eq_iff]; constructor <;> linarith
  have hr : npRound (norm (cell i) / h) = if n % 2 = 0 then n else n + 1 := by
    unfold npRound
    simp only [hf]
    rw [if_neg (by rw [ht]; norm_num), if_neg (by rw [ht]; norm_num)]
  unfold gridCount at hs
  simp only [Bool.false_eq_true, if_false, hr] at hs
  generalize (if n % 2 = 0 then n else n + 1) = m at hs ⊢
  split at hs
  · exact absurd hs hm
  · exact hs

/-- Two dual bases up to sign have the same lengths. -/
theorem recip_norm (cell b : Cell) (hd : cell.det ≠ 0)
    (hb : ∀ i j, dot (cell i) (b j) = if i = j then 2 * π else 0) (i : Fin 3) : norm (recipCell cell i) = norm (b i) := by
  set s := cell.det / |cell.det| with hs
  have hs1 : s * s = 1 := by
    rw [hs, div_mul_div_comm, abs_mul_abs_self]
    exact div_self (mul_ne_zero hd hd)
  have h1 : cell * b.transpose = (2 * π) • (1 : Cell) := by
    ext i j
    rw [dot_eq_mul, hb]
    simp [Matrix.one_apply]
  have h2 : cell * (recipCell cell).transpose = cell * (s • b).transpose := by
    rw [recip_matrix cell hd, Matrix.transpose_smul, Matrix.mul_smul, h1, smul_smul, mul_comm]
  have h3 := congrArg (fun Z => cell⁻¹ * Z) h2
  simp only [Matrix.nonsing_inv_mul_cancel_left _ _ hd.isUnit] at h3
  have h4 : recipCell cell = s • b := Matrix.transpose_injective h3
  rw [h4]
  unfold norm
  congr 1
  simp only [dot, Matrix.smul_apply, smul_eq_mul]
  apply Finset.sum_congr rfl
  intro k _
  linear_combination (b i k * b i k) * hs1

/-- **C44** (`kgrid`). The counts of `kgrid(cell, h)` belong to the reciprocal vectors: for vectors `b_j`
with `a_i · b_j = 2π δ_ij` the count along axis `i` is `|b_i|/h` to the nearest integer, and the spacing
is `|b_i|` over the count. -/
theorem C44_kgrid (cell b : Cell) (hd : cell.det ≠ 0)
    (hb : ∀ i j, dot (cell i) (b j) = if i = j then 2 * π else 0) (h : ℝ) (minpoints : Int) (size : Fin 3 → Int)
    (sp : Fin 3 → ℝ) (e : kgrid cell h minpoints false = .ok (size, sp)) (i : Fin 3) :
    minpoints ≤ size i ∧ 1 ≤ size i ∧ (size i ≠ minpoints → |(size i : ℝ) - norm (b i) / h| ≤ 1 / 2) ∧
    sp i * size i = norm (b i) := by
  obtain ⟨c1, c2, c3, _⟩ := C44_counts (recipCell cell) h minpoints false size sp e i
  rw [recip_norm cell b hd hb] at c3
  refine ⟨c1, c2, fun hm => c3 hm rfl, ?_⟩
  rw [← recip_norm cell b hd hb]
  exact (C44_spacing (recipCell cell) h minpoints size sp e (recip_det cell hd).ne' i).2.1

/-- Non-vacuity: the cubic cell of edge `2π` has the unit vectors as reciprocal vectors. -/
example : ∀ i j : Fin 3, dot (((2 * π) • (1 : Cell)) i) ((1 : Cell) j) = if i = j then 2 * π else 0 := by
  intro i j
  rw [← dot_eq_mul]
  simp [Matrix.one_apply]

/-- **C54** (handedness). The system from `x` and `y` is right handed, so `align_cart` turns and never
reflects: the determinant of the cell, with its sign, is unchanged. -/
theorem C54_right_handed (x y : V3) (hx : dot x x ≠ 0) (hy : dot y y ≠ 0) (hxy : dot x y = 0) :
    (cartFrom x y).det = 1 ∧
    ∀ (cell : Cell) (cf : List V3) (eps : ℝ), ∃ newcell, alignCart cell cf (cartFrom x y) eps = .ok (newcell, cf) ∧
      newcell.det = cell.det := by
  have nx : norm x ≠ 0 := by intro h; apply hx; rw [← norm_sq, h]; ring
  have ny : norm y ≠ 0 := by intro h; apply hy; rw [← norm_sq, h]; ring
  have sx := norm_sq x
  have sy := norm_sq y
  have lg := lagrange x y
  rw [hxy] at lg
  have hdet : (cartFrom x y).det = 1 := by
    simp only [dot3, cross, Matrix.cons_val_zero, Matrix.cons_val_one, Matrix.cons_val] at sx sy hxy lg
    rw [Matrix.det_fin_three]
    simp only [cartFrom, cross, Matrix.of_apply, Matrix.cons_val_zero, Matrix.cons_val_one, Matrix.cons_val]
    field_simp
    rw [sx, sy]
    linear_combination lg
  refine ⟨hdet, ?_⟩
  intro cell cf eps
  obtain ⟨nc, h1, _⟩ := C54_rigid cell cf (cartFrom x y) eps (C54_xy x y hx hy hxy).1
  refine ⟨nc, h1, ?_⟩
  unfold alignCart at h1
  split at h1
  · cases h1
  · injection h1 with h1
    rw [← (Prod.mk.inj h1).1, Matrix.det_mul, Matrix.det_transpose, hdet, mul_one]

end Pwtools.Cry
