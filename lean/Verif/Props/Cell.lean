import Verif.Model.Cell
import Mathlib.LinearAlgebra.Matrix.NonsingularInverse
import Mathlib.Tactic.Ring
import Mathlib.Tactic.FieldSimp
import Mathlib.Tactic.Linarith
import Mathlib.Tactic.FinCases
import Mathlib.Tactic.LinearCombination
import Mathlib.Tactic.Positivity
/-!
# C38–C44, C54: cells, coordinates
-/
namespace Pwtools.Cry
open Real

/-! ### C43 -/

/-- **C43**. Voigt round trip. -/
theorem C43_voigt_roundtrip {R : Type} (v : Fin 6 → R) : tensor2voigt (voigt2tensor v) = v := by
  funext i; fin_cases i <;> rfl

/-- **C43**. Tensor round trip, for symmetric tensors. -/
theorem C43_tensor_roundtrip {R : Type} (t : Fin 3 → Fin 3 → R) (h : ∀ i j, t i j = t j i) :
    voigt2tensor (tensor2voigt t) = t := by
  funext i j
  fin_cases i <;> fin_cases j <;> simp [voigt2tensor, tensor2voigt] <;> exact (h _ _)

/-- **C43**. The tensor is symmetric, and component order is xx, yy, zz, yz, xz, xy. -/
theorem C43_symmetric {R : Type} (v : Fin 6 → R) :
    (∀ i j, voigt2tensor v i j = voigt2tensor v j i) ∧
    voigt2tensor v 0 0 = v 0 ∧ voigt2tensor v 1 1 = v 1 ∧ voigt2tensor v 2 2 = v 2 ∧
    voigt2tensor v 1 2 = v 3 ∧ voigt2tensor v 0 2 = v 4 ∧ voigt2tensor v 0 1 = v 5 := by
  refine ⟨?_, rfl, rfl, rfl, rfl, rfl, rfl⟩
  intro i j; fin_cases i <;> fin_cases j <;> rfl

/-- **C43**. The versions for trajectories do the same at each time step. -/
theorem C43_3d {R : Type} {n : Nat} (t : Fin n → Fin 3 → Fin 3 → R) (v : Fin n → Fin 6 → R) (s : Fin n) :
    tensor2voigt3d t s = tensor2voigt (t s) ∧ voigt2tensor3d v s = voigt2tensor (v s) := ⟨rfl, rfl⟩

/-- A tensor that is not symmetric is not restored. -/
example : voigt2tensor (tensor2voigt ![![1, 2, 3], ![4, 5, 6], ![7, 8, 9]]) ≠ ![![1, 2, 3], ![4, 5, 6], ![7, 8, (9 : Nat)]] := by
  decide

/-! ### C42 -/

theorem arccos_deg (x : ℝ) (h0 : 0 ≤ x) (h1 : x ≤ 180) : Real.arccos (Real.cos (x * π / 180)) / π * 180 = x := by
  have hp := Real.pi_pos
  rw [Real.arccos_cos (by positivity) (by
    rw [div_le_iff₀ (by norm_num)]; nlinarith)]
  field_simp

/-- **C42**. `celldm2cc(cc2celldm(cc, fac=f), fac=1/f) = cc`. -/
theorem C42_cc_roundtrip (cc : CrystConst) (f : ℝ) (hf : f ≠ 0) (ha : cc.a ≠ 0)
    (h1 : 0 ≤ cc.alpha ∧ cc.alpha ≤ 180) (h2 : 0 ≤ cc.beta ∧ cc.beta ≤ 180) (h3 : 0 ≤ cc.gamma ∧ cc.gamma ≤ 180) :
    celldm2cc (cc2celldm cc f) (1 / f) = cc := by
  unfold celldm2cc cc2celldm
  simp only [arccos_deg _ h1.1 h1.2, arccos_deg _ h2.1 h2.2, arccos_deg _ h3.1 h3.2]
  cases cc
  simp only [CrystConst.mk.injEq, and_true]
  simp only at ha
  refine ⟨by field_simp, by field_simp, by field_simp⟩

/-- **C42**. `cc2celldm(celldm2cc(d, fac=f), fac=1/f) = d`. -/
theorem C42_celldm_roundtrip (d : Celldm) (f : ℝ) (hf : f ≠ 0) (ha : d.d1 ≠ 0)
    (h4 : -1 ≤ d.d4 ∧ d.d4 ≤ 1) (h5 : -1 ≤ d.d5 ∧ d.d5 ≤ 1) (h6 : -1 ≤ d.d6 ∧ d.d6 ≤ 1) :
    cc2celldm (celldm2cc d f) (1 / f) = d := by
  have hp := Real.pi_ne_zero
  have e : ∀ x : ℝ, Real.arccos x / π * 180 * π / 180 = Real.arccos x := by
    intro x; field_simp
  unfold celldm2cc cc2celldm
  simp only [e, Real.cos_arccos h4.1 h4.2, Real.cos_arccos h5.1 h5.2, Real.cos_arccos h6.1 h6.2]
  cases d
  simp only [Celldm.mk.injEq, and_true]
  simp only at ha
  refine ⟨by field_simp, by field_simp, by field_simp⟩

/-- Non-vacuity: a = 2, b = 3, c = 4, angles 60, 90, 120, conversion factor 1.89. -/
example : celldm2cc (cc2celldm ⟨2, 3, 4, 60, 90, 120⟩ 1.89) (1 / 1.89) = ⟨2, 3, 4, 60, 90, 120⟩ :=
  C42_cc_roundtrip _ _ (by norm_num) (by norm_num) (by norm_num) (by norm_num) (by norm_num)

/-! ### Vectors -/

theorem dot3 (x y : V3) : dot x y = x 0 * y 0 + x 1 * y 1 + x 2 * y 2 := by
  simp [dot, Fin.sum_univ_three]

theorem dot_self_nonneg {n : Nat} (x : Fin n → ℝ) : 0 ≤ dot x x :=
  Finset.sum_nonneg (fun i _ => mul_self_nonneg _)

theorem norm_nonneg {n : Nat} (x : Fin n → ℝ) : 0 ≤ norm x := Real.sqrt_nonneg _
theorem norm_sq {n : Nat} (x : Fin n → ℝ) : norm x ^ 2 = dot x x := Real.sq_sqrt (dot_self_nonneg x)

theorem lagrange (x y : V3) : dot (cross x y) (cross x y) + dot x y ^ 2 = dot x x * dot y y := by
  simp only [dot3, cross, Matrix.cons_val_zero, Matrix.cons_val_one, Matrix.cons_val]; ring

/-- Cauchy–Schwarz. -/
theorem abs_dot_le (x y : V3) : |dot x y| ≤ norm x * norm y := by
  apply abs_le_of_sq_le_sq
  · rw [mul_pow, norm_sq, norm_sq]
    have := lagrange x y
    have := dot_self_nonneg (cross x y)
    linarith
  · exact mul_nonneg (norm_nonneg x) (norm_nonneg y)

theorem det3 (c : Cell) : c.det = dot (c 0) (cross (c 1) (c 2)) := by
  rw [Matrix.det_fin_three, dot3]
  simp only [cross, Matrix.cons_val_zero, Matrix.cons_val_one, Matrix.cons_val]
  ring

theorem det3' (c : Cell) : c.det = dot (c 1) (cross (c 2) (c 0)) := by
  rw [Matrix.det_fin_three, dot3]
  simp only [cross, Matrix.cons_val_zero, Matrix.cons_val_one, Matrix.cons_val]
  ring

theorem det3'' (c : Cell) : c.det = dot (c 2) (cross (c 0) (c 1)) := by
  rw [Matrix.det_fin_three, dot3]
  simp only [cross, Matrix.cons_val_zero, Matrix.cons_val_one, Matrix.cons_val]
  ring

/-- The square of the volume is the Gram determinant. -/
theorem gram (c : Cell) : c.det ^ 2 = dot (c 0) (c 0) * dot (c 1) (c 1) * dot (c 2) (c 2)
    + 2 * dot (c 0) (c 1) * dot (c 1) (c 2) * dot (c 0) (c 2)
    - dot (c 0) (c 0) * dot (c 1) (c 2) ^ 2 - dot (c 1) (c 1) * dot (c 0) (c 2) ^ 2
    - dot (c 2) (c 2) * dot (c 0) (c 1) ^ 2 := by
  rw [Matrix.det_fin_three]
  simp only [dot3]
  ring

/-! ### C40 -/

/-- **C40** (every cell). The scalar products of cell and reciprocal cell are `2π` on the diagonal
times the sign of the handedness, and zero otherwise. -/
theorem C40_products (cell : Cell) (h : cell.det ≠ 0) (i j : Fin 3) :
    dot (cell i) (recipCell cell j) = if i = j then 2 * π * (cell.det / |cell.det|) else 0 := by
  have hd : |cell.det| ≠ 0 := abs_ne_zero.2 h
  have e : cell.det = cell 0 0 * cell 1 1 * cell 2 2 - cell 0 0 * cell 1 2 * cell 2 1
      - cell 0 1 * cell 1 0 * cell 2 2 + cell 0 1 * cell 1 2 * cell 2 0 + cell 0 2 * cell 1 0 * cell 2 1
      - cell 0 2 * cell 1 1 * cell 2 0 := Matrix.det_fin_three cell
  fin_cases i <;> fin_cases j <;>
    simp [dot3, recipCell, cross, volumeCell] <;> field_simp <;> (try rw [e]) <;> ring

/-- **C40** (right handed cells). `recip_cell(cell)` is the dual lattice. -/
theorem C40_dual_partial (cell : Cell) (h : 0 < cell.det) (i j : Fin 3) :
    dot (cell i) (recipCell cell j) = if i = j then 2 * π else 0 := by
  rw [C40_products cell h.ne', abs_of_pos h, div_self h.ne', mul_one]

/-- **C40** fails for left handed cells: there the reciprocal vectors have the wrong sign. -/
theorem C40_left_handed (cell : Cell) (h : cell.det < 0) (i j : Fin 3) :
    dot (cell i) (recipCell cell j) = if i = j then -(2 * π) else 0 := by
  rw [C40_products cell h.ne, abs_of_neg h, div_neg, div_self h.ne]
  simp

theorem dot_eq_mul (a b : Cell) (i j : Fin 3) : (a * b.transpose) i j = dot (a i) (b j) := by
  simp [Matrix.mul_apply, dot, Matrix.transpose_apply]

theorem recip_matrix (cell : Cell) (h : cell.det ≠ 0) :
    cell * (recipCell cell).transpose = (2 * π * (cell.det / |cell.det|)) • (1 : Cell) := by
  ext i j
  rw [dot_eq_mul, C40_products cell h]
  simp [Matrix.one_apply]

theorem recip_det (cell : Cell) (h : cell.det ≠ 0) : 0 < (recipCell cell).det := by
  have := congrArg Matrix.det (recip_matrix cell h)
  rw [Matrix.det_mul, Matrix.det_transpose, Matrix.det_smul, Matrix.det_one, mul_one] at this
  simp only [Fintype.card_fin] at this
  have hp := Real.pi_pos
  rcases lt_or_gt_of_ne h with hn | hn
  · rw [abs_of_neg hn, div_neg, div_self h] at this
    have h2 : (2 * π * (-1)) ^ 3 < 0 := by
      have : (2 * π * (-1)) ^ 3 = -((2 * π) ^ 3) := by ring
      rw [this]; have := pow_pos (show (0:ℝ) < 2 * π by positivity) 3; linarith
    rw [← this] at h2
    exact pos_of_mul_neg_right h2 hn.le
  · rw [abs_of_pos hn, div_self h, mul_one] at this
    have h2 : 0 < (2 * π) ^ 3 := by positivity
    rw [← this] at h2
    exact (pos_iff_pos_of_mul_pos h2).1 hn

/-- **C40** (volume). The reciprocal cell has volume `(2π)³/V`, for every non singular cell. -/
theorem C40_volume (cell : Cell) (h : cell.det ≠ 0) : volumeCell (recipCell cell) = (2 * π) ^ 3 / volumeCell cell := by
  have := congrArg Matrix.det (recip_matrix cell h)
  rw [Matrix.det_mul, Matrix.det_transpose, Matrix.det_smul, Matrix.det_one, mul_one] at this
  simp only [Fintype.card_fin] at this
  have h3 := congrArg abs this
  rw [abs_mul, abs_pow, abs_mul, abs_div, abs_abs, div_self (abs_ne_zero.2 h), mul_one,
    abs_of_pos (by have := Real.pi_pos; positivity : (0:ℝ) < 2 * π)] at h3
  unfold volumeCell
  rw [eq_div_iff (abs_ne_zero.2 h), mul_comm]
  exact h3

/-- **C40** (twice). The reciprocal of the reciprocal cell is the cell, for right handed cells; for
left handed cells it is the inverted cell. -/
theorem C40_twice_partial (cell : Cell) (h : cell.det ≠ 0) :
    (0 < cell.det → recipCell (recipCell cell) = cell) ∧ (cell.det < 0 → recipCell (recipCell cell) = -cell) := by
  have hp := Real.pi_ne_zero
  have h1 := recip_matrix cell h
  have hd := recip_det cell h
  have h2 := recip_matrix (recipCell cell) hd.ne'
  rw [abs_of_pos hd, div_self hd.ne', mul_one] at h2
  set R := recipCell cell
  have h3 : R * cell.transpose = (2 * π * (cell.det / |cell.det|)) • (1 : Cell) := by
    have := congrArg Matrix.transpose h1
    rw [Matrix.transpose_mul, Matrix.transpose_transpose, Matrix.transpose_smul, Matrix.transpose_one] at this
    exact this
  have hu : IsUnit R.det := hd.ne'.isUnit
  have cancel : ∀ X Y : Cell, R * X = R * Y → X = Y := by
    intro X Y hXY
    have := congrArg (fun Z => R⁻¹ * Z) hXY
    simp only [Matrix.nonsing_inv_mul_cancel_left _ _ hu] at this
    exact this
  constructor
  · intro hpos
    rw [abs_of_pos hpos, div_self hpos.ne', mul_one] at h3
    have := cancel _ _ (h2.trans h3.symm)
    exact Matrix.transpose_injective this
  · intro hneg
    rw [abs_of_neg hneg, div_neg, div_self hneg.ne] at h3
    have e : R * (-cell).transpose = (2 * π) • (1 : Cell) := by
      rw [Matrix.transpose_neg, Matrix.mul_neg, h3, ← neg_smul]; congr 1; ring
    have := cancel _ _ (h2.trans e.symm)
    exact Matrix.transpose_injective this

/-- Non-vacuity: a triclinic right handed and a left handed cell. -/
example : 0 < (!![2, 0, 0; 1, 3, 0; 1, 1, 4] : Cell).det ∧ (!![0, 2, 0; 3, 1, 0; 1, 1, 4] : Cell).det < 0 := by
  constructor <;> simp [Matrix.det_fin_three] <;> norm_num

/-! ### C38, C39 -/

/-- **C38** (same point). `coord_trans(v, old, new)` are the coordinates of the same point:
`Σ v'_k new_k = Σ v_k old_k`, for every dimension. -/
theorem C38_same_point {m : Nat} (v : Fin m → ℝ) (old new : Matrix (Fin m) (Fin m) ℝ) (h : new.det ≠ 0) :
    ∀ c, ∑ k, trans v old new k * new k c = ∑ k, v k * old k c := by
  intro c
  have hu : IsUnit new.det := h.isUnit
  have e : Matrix.vecMul (trans v old new) new = Matrix.vecMul v old := by
    unfold trans
    rw [Matrix.vecMul_vecMul, Matrix.transpose_mul, Matrix.transpose_transpose, Matrix.transpose_nonsing_inv,
      Matrix.transpose_transpose, Matrix.mul_assoc, Matrix.nonsing_inv_mul _ hu, Matrix.mul_one]
  have := congrFun e c
  simpa [Matrix.vecMul, dotProduct] using this

/-- Coordinates in a basis are unique. -/
theorem coords_unique {m : Nat} (b : Matrix (Fin m) (Fin m) ℝ) (h : b.det ≠ 0) (v w : Fin m → ℝ)
    (e : ∀ c, ∑ k, v k * b k c = ∑ k, w k * b k c) : v = w := by
  have hu : IsUnit b.det := h.isUnit
  have e2 : Matrix.vecMul v b = Matrix.vecMul w b := by
    funext c
    simpa [Matrix.vecMul, dotProduct] using e c
  have := congrArg (fun z => Matrix.vecMul z b⁻¹) e2
  simp only [Matrix.vecMul_vecMul, Matrix.mul_nonsing_inv _ hu, Matrix.vecMul_one] at this
  exact this

/-- **C38** (only point). Nothing else describes that point. -/
theorem C38_unique {m : Nat} (v w : Fin m → ℝ) (old new : Matrix (Fin m) (Fin m) ℝ) (h : new.det ≠ 0)
    (e : ∀ c, ∑ k, w k * new k c = ∑ k, v k * old k c) : w = trans v old new :=
  coords_unique new h _ _ (fun c => by rw [e c, C38_same_point v old new h c])

/-- **C38** (invertible). -/
theorem C38_roundtrip {m : Nat} (v : Fin m → ℝ) (old new : Matrix (Fin m) (Fin m) ℝ) (ho : old.det ≠ 0) (hn : new.det ≠ 0) :
    trans (trans v old new) new old = v :=
  coords_unique old ho _ _ (fun c => by rw [C38_same_point _ new old ho, C38_same_point v old new hn])

/-- **C38** (composition). -/
theorem C38_compose {m : Nat} (v : Fin m → ℝ) (a b c : Matrix (Fin m) (Fin m) ℝ) (hb : b.det ≠ 0) (hc : c.det ≠ 0) :
    trans (trans v a b) b c = trans v a c :=
  coords_unique c hc _ _ (fun k => by
    rw [C38_same_point _ b c hc, C38_same_point v a b hb, C38_same_point v a c hc])

/-- **C39**. Fractional and cartesian coordinates are inverse to each other. -/
theorem C39_frac_cart (cell : Cell) (h : cell.det ≠ 0) (s r : V3) :
    cart2frac cell (frac2cart cell s) = s ∧ frac2cart cell (cart2frac cell r) = r ∧
    (∀ c, frac2cart cell s c = ∑ k, s k * cell k c) := by
  have hu : IsUnit cell.transpose.det := by rw [Matrix.det_transpose]; exact h.isUnit
  refine ⟨?_, ?_, ?_⟩
  · unfold cart2frac frac2cart
    rw [← Matrix.mulVec_transpose, Matrix.mulVec_mulVec, Matrix.nonsing_inv_mul _ hu, Matrix.one_mulVec]
  · unfold cart2frac frac2cart
    rw [← Matrix.mulVec_transpose, Matrix.mulVec_mulVec, Matrix.mul_nonsing_inv _ hu, Matrix.one_mulVec]
  · intro c; simp [frac2cart, Matrix.vecMul, dotProduct]

/-- **C39** (trajectories, cell of each step non singular). -/
theorem C39_traj (cells : List Cell) (fracs : List (List V3)) (hl : cells.length = fracs.length)
    (h : ∀ c ∈ cells, c.det ≠ 0) :
    cart2fracTraj (cells.zip (frac2cartTraj (cells.zip fracs))) = fracs ∧
    frac2cartTraj (cells.zip (cart2fracTraj (cells.zip fracs))) = fracs := by
  induction cells generalizing fracs with
  | nil =>
    have : fracs = [] := by simpa using hl.symm
    subst this; simp [cart2fracTraj, frac2cartTraj]
  | cons c cells ih =>
    rcases fracs with _ | ⟨f, fracs⟩
    · simp at hl
    have hc := h c (by simp)
    obtain ⟨i1, i2⟩ := ih fracs (by simpa using hl) (fun c' hc' => h c' (List.mem_cons_of_mem _ hc'))
    simp only [cart2fracTraj, frac2cartTraj, List.zip_cons_cons, List.map_cons] at i1 i2 ⊢
    constructor
    · congr 1
      rw [List.map_map]
      conv_rhs => rw [← List.map_id f]
      apply List.map_congr_left
      intro s _
      exact (C39_frac_cart c hc s s).1
    · congr 1
      rw [List.map_map]
      conv_rhs => rw [← List.map_id f]
      apply List.map_congr_left
      intro s _
      exact (C39_frac_cart c hc s s).2.1

/-- `coord_trans` between a cell and the cartesian system is `frac2cart` / `cart2frac`. -/
theorem C38_cart (cell : Cell) (h : cell.det ≠ 0) (v : V3) :
    trans v cell 1 = frac2cart cell v ∧ trans v 1 cell = cart2frac cell v := by
  constructor
  · unfold trans frac2cart
    simp
  · have h1 := C39_frac_cart cell h v v
    rw [← (C39_frac_cart cell h (trans v 1 cell) v).1]
    congr 1
    funext c
    rw [(C39_frac_cart cell h (trans v 1 cell) v).2.2, C38_same_point v 1 cell h]
    simp [Matrix.one_apply]

/-! ### C54 -/

theorem orth_dot (q : Cell) (h : q * q.transpose = 1) (x y : V3) :
    dot (Matrix.vecMul x q.transpose) (Matrix.vecMul y q.transpose) = dot x y := by
  have h' : q.transpose * q = 1 := by
    exact mul_eq_one_comm.1 h
  have e : ∀ a b : V3, dot a b = a ⬝ᵥ b := fun a b => rfl
  rw [e, e, ← Matrix.dotProduct_mulVec, ← Matrix.mulVec_transpose q.transpose y, Matrix.transpose_transpose,
    Matrix.mulVec_mulVec, h', Matrix.one_mulVec]

/-- **C54** (cart orthogonal). `align_cart` with an orthogonal `cart` does not raise; it returns the
fractional coordinates unchanged, and all scalar products (so lengths, angles and distances, also
between atoms) and the volume are unchanged. -/
theorem C54_rigid (cell : Cell) (cf : List V3) (cart : Cell) (eps : ℝ) (h : cart * cart.transpose = 1) :
    ∃ newcell, alignCart cell cf cart eps = .ok (newcell, cf) ∧
      (∀ i j, dot (newcell i) (newcell j) = dot (cell i) (cell j)) ∧
      (∀ s t : V3, dot (frac2cart newcell s) (frac2cart newcell t) = dot (frac2cart cell s) (frac2cart cell t)) ∧
      volumeCell newcell = volumeCell cell := by
  refine ⟨cell * cart.transpose, ?_, ?_, ?_, ?_⟩
  · unfold alignCart
    rw [if_neg]
    rintro ⟨h1, h2⟩
    apply h2
    intro i j
    rw [Matrix.inv_eq_right_inv h, sub_self, abs_zero]
    positivity
  · intro i j
    have e : ∀ k, (cell * cart.transpose) k = Matrix.vecMul (cell k) cart.transpose := by
      intro k; funext l; simp [Matrix.mul_apply, Matrix.vecMul, dotProduct]
    rw [e, e, orth_dot cart h]
  · intro s t
    unfold frac2cart
    rw [← Matrix.vecMul_vecMul, ← Matrix.vecMul_vecMul, orth_dot cart h]
  · unfold volumeCell
    have hd : cart.det * cart.det = 1 := by
      have := congrArg Matrix.det h
      rwa [Matrix.det_mul, Matrix.det_transpose, Matrix.det_one] at this
    have : |cart.det| = 1 := by
      have h2 : |cart.det| * |cart.det| = 1 := by rw [← abs_mul, hd, abs_one]
      nlinarith [abs_nonneg cart.det]
    rw [Matrix.det_mul, Matrix.det_transpose, abs_mul, this, mul_one]

/-- **C54** (x and y). Orthogonal vectors `x`, `y`, not zero, of any length define an orthogonal
system, so `align_cart(obj, x=x, y=y)` is rigid; the new x axis points along `x`, i.e. the vector `x`
has the new cartesian coordinates `(|x|, 0, 0)`, and `y` has `(0, |y|, 0)`. -/
theorem C54_xy (x y : V3) (hx : dot x x ≠ 0) (hy : dot y y ≠ 0) (hxy : dot x y = 0) :
    cartFrom x y * (cartFrom x y).transpose = 1 ∧
    Matrix.vecMul x (cartFrom x y).transpose = ![norm x, 0, 0] ∧
    Matrix.vecMul y (cartFrom x y).transpose = ![0, norm y, 0] := by
  have nx : norm x ≠ 0 := by intro h; apply hx; rw [← norm_sq, h]; ring
  have ny : norm y ≠ 0 := by intro h; apply hy; rw [← norm_sq, h]; ring
  have sx := norm_sq x
  have sy := norm_sq y
  have lg := lagrange x y
  rw [hxy] at lg
  simp only [dot3, cross, Matrix.cons_val_zero, Matrix.cons_val_one, Matrix.cons_val] at sx sy hxy lg
  refine ⟨?_, ?_, ?_⟩
  · ext i j
    rw [dot_eq_mul]
    fin_cases i <;> fin_cases j <;> simp [cartFrom, dot3, cross] <;> field_simp <;>
      first
        | linear_combination sx
        | linear_combination -sx
        | linear_combination sy
        | linear_combination -sy
        | linear_combination hxy
        | (rw [sx, sy]; linear_combination lg)
        | linear_combination lg
        | ring
  · funext i
    fin_cases i <;> simp [cartFrom, cross, Matrix.vecMul, dotProduct, Fin.sum_univ_three] <;> field_simp <;>
      first
        | linear_combination sx
        | linear_combination -sx
        | linear_combination hxy
        | ring
  · funext i
    fin_cases i <;> simp [cartFrom, cross, Matrix.vecMul, dotProduct, Fin.sum_univ_three] <;> field_simp <;>
      first
        | linear_combination sy
        | linear_combination -sy
        | linear_combination hxy
        | ring

/-- Non-vacuity: `x = (1,1,0)`, `y = (0,0,2)`. -/
example : dot ![1, 1, 0] ![0, 0, (2:ℝ)] = 0 ∧ dot ![1, 1, 0] ![1, 1, (0:ℝ)] ≠ 0 := by
  constructor <;> simp [dot3]

end Pwtools.Cry
