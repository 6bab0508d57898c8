import Verif.Model.Num
import Verif.Spec.Num
import Verif.Props.NdArray
import Mathlib.Tactic.Ring
import Mathlib.Tactic.Linarith
import Mathlib.Tactic.FinCases
import Mathlib.LinearAlgebra.Matrix.Determinant.Basic
/-!
# C30, C31: rms and rotation matrices
-/
namespace Pwtools.Num
open Spec Nd

/-! ### rms -/

theorem size_eq {α : Type} (a : Arr α) : arrSize a = (indexTuples a.shape).length := by
  unfold arrSize
  induction a.shape with
  | nil => rfl
  | cons n s ih =>
    simp only [indexTuples, List.prod_cons, List.length_flatMap, List.length_map, ih]
    simp

/-- **C30** (value). `rms` is the root of the sum of the squares of all entries divided by the number
of entries or by `nitems`. -/
theorem C30_rms_value (arr : Arr ℝ) (nitems : Option ℝ) :
    rms arr nitems = Real.sqrt (((indexTuples arr.shape).map (fun J => arr.get J ^ 2)).sum /
      nitems.getD (indexTuples arr.shape).length) := by
  unfold rms
  simp only [Arr.sumFull, allIdx_eq, size_eq, Real.rpow_two]

theorem sumsq_zero_iff (l : List (List Nat)) (f : List Nat → ℝ) :
    0 ≤ (l.map (fun J => f J ^ 2)).sum ∧ ((l.map (fun J => f J ^ 2)).sum = 0 ↔ ∀ J ∈ l, f J = 0) := by
  induction l with
  | nil => simp
  | cons J l ih =>
    obtain ⟨h1, h2⟩ := ih
    simp only [List.map_cons, List.sum_cons, List.mem_cons, forall_eq_or_imp]
    have h3 := sq_nonneg (f J)
    refine ⟨by linarith, ?_⟩
    constructor
    · intro h
      exact ⟨by have : f J ^ 2 = 0 := by linarith
                simpa using this, h2.1 (by linarith)⟩
    · rintro ⟨h4, h5⟩
      rw [h4, h2.2 h5]; simp

/-- **C30** (norm properties). `rms` is never negative, is zero exactly for arrays all of whose
entries are zero, and is absolutely homogeneous; for `nitems="all"` (array with at least one entry)
and for any positive number `nitems`. -/
theorem C30_rms_norm (arr : Arr ℝ) (nitems : Option ℝ) (hn : 0 < nitems.getD (indexTuples arr.shape).length) (c : ℝ) :
    0 ≤ rms arr nitems ∧
    (rms arr nitems = 0 ↔ ∀ idx, InShape idx arr.shape → arr.get idx = 0) ∧
    rms ⟨arr.shape, fun idx => c * arr.get idx⟩ nitems = |c| * rms arr nitems := by
  refine ⟨Real.sqrt_nonneg _, ?_, ?_⟩
  · obtain ⟨h1, h2⟩ := sumsq_zero_iff (indexTuples arr.shape) arr.get
    rw [C30_rms_value, Real.sqrt_eq_zero (div_nonneg h1 hn.le), div_eq_zero_iff, or_iff_left hn.ne', h2]
    simp only [mem_indexTuples]
  · rw [C30_rms_value, C30_rms_value]
    have : ((indexTuples arr.shape).map (fun J => (c * arr.get J) ^ 2)).sum =
        c ^ 2 * ((indexTuples arr.shape).map (fun J => arr.get J ^ 2)).sum := by
      rw [← List.sum_map_mul_left]
      congr 1; apply List.map_congr_left; intro J _; ring
    simp only
    rw [this, mul_div_assoc, Real.sqrt_mul (sq_nonneg c), Real.sqrt_sq_eq_abs]

theorem rms_congr (a b : Arr ℝ) (n : Option ℝ) (hs : a.shape = b.shape)
    (h : ∀ idx, InShape idx a.shape → a.get idx = b.get idx) : rms a n = rms b n := by
  rw [C30_rms_value, C30_rms_value, ← hs]
  congr 3
  apply List.map_congr_left
  intro J hJ
  rw [h J ((mem_indexTuples _ _).1 hJ)]

theorem rms3d_axis (arr : Arr ℝ) (n0 n1 n2 : Nat) (hs : arr.shape = [n0, n1, n2]) (axis : Int) (ax : Nat)
    (hax : IsAxis 3 axis ax) (haxis : -1 ≤ axis) (nitems : Option ℝ) (hpos : nitems = none → 0 < [n0, n1, n2].getD ax 0) :
    ∃ r, rms3d arr axis nitems = .ok r ∧ r.shape = [[n0, n1, n2].getD ax 0] ∧
      ∀ k, k < [n0, n1, n2].getD ax 0 →
        r.get [k] = rms ⟨[n0, n1, n2].eraseIdx ax, fun idx => arr.get (idx.insertIdx ax k)⟩ nitems := by
  have hnd : arr.ndim = 3 := by rw [Arr.ndim, hs]; rfl
  obtain ⟨hlt, hx⟩ := hax
  have hle : axis ≤ 2 := by omega
  unfold rms3d
  rw [if_pos ⟨haxis, hle, hnd⟩]
  have haxn : (if axis = -1 then (arr.ndim : Int) - 1 else axis) = (ax : Int) := by
    rw [hnd]; split <;> omega
  simp only [haxn]
  -- the number of items
  have key : rms3dItems arr ax nitems = .ok (nitems.getD (indexTuples ([n0, n1, n2].eraseIdx ax)).length) := by
    rcases nitems with _ | v
    · have hgd : arr.shape[ax]? = some ([n0, n1, n2].getD ax 0) := by
        rw [hs]
        have : ax = 0 ∨ ax = 1 ∨ ax = 2 := by omega
        rcases this with rfl | rfl | rfl <;> rfl
      have haxis3 : IsAxis arr.shape.length (ax : Int) ax := ⟨by rw [hs]; exact hlt, .inl rfl⟩
      obtain ⟨b, hb1, hb2, _⟩ := C24_slicetake_int arr 0 ax ax ([n0, n1, n2].getD ax 0) 0 haxis3 hgd ⟨hpos rfl, .inl rfl⟩
      simp only [rms3dItems, hb1, size_eq, hb2, hs, Option.getD_none]
    · rfl
  rw [key]
  simp only
  obtain ⟨n, hn⟩ : ∃ n : ℝ, n = nitems.getD (indexTuples ([n0, n1, n2].eraseIdx ax)).length := ⟨_, rfl⟩
  rw [← hn]
  have hc : ax = 0 ∨ ax = 1 ∨ ax = 2 := by omega
  unfold rms3d.go
  rcases hc with rfl | rfl | rfl
  · simp only [Nat.cast_zero, if_true]
    rw [sumAxis_ok _ 1 1 ⟨by simp [hs], .inl rfl⟩]
    simp only
    rw [sumAxis_ok _ 1 1 ⟨by simp [hs], .inl rfl⟩]
    refine ⟨_, rfl, by simp [hs], ?_⟩
    intro k _
    rw [C30_rms_value, ← hn]
    simp only [hs, List.eraseIdx_zero, List.tail_cons, indexTuples, List.eraseIdx_cons_succ, List.getD_cons_succ, List.getD_cons_zero]
    rw [sum_flatMap, sum_swap]
    simp only [List.map_map, Function.comp_def, List.flatMap_map, List.map_flatMap, List.map_cons, List.map_nil]
    congr 2
    congr 1
    apply List.map_congr_left
    intro i _
    rw [← List.map_eq_flatMap]
    simp only [Real.rpow_two]
    rfl
  · simp only [Nat.cast_one, one_ne_zero, if_false, if_true]
    rw [sumAxis_ok _ 0 0 ⟨by simp [hs], .inl rfl⟩]
    simp only
    rw [sumAxis_ok _ 1 1 ⟨by simp [hs], .inl rfl⟩]
    refine ⟨_, rfl, by simp [hs], ?_⟩
    intro k _
    rw [C30_rms_value, ← hn]
    simp only [hs, List.eraseIdx_zero, List.tail_cons, indexTuples, List.eraseIdx_cons_succ, List.getD_cons_succ, List.getD_cons_zero]
    rw [sum_flatMap, sum_swap]
    simp only [List.map_map, Function.comp_def, List.flatMap_map, List.map_flatMap, List.map_cons, List.map_nil]
    congr 2
    congr 1
    apply List.map_congr_left
    intro i _
    rw [← List.map_eq_flatMap]
    simp only [Real.rpow_two]
    rfl
  · simp only [Nat.cast_ofNat, show ¬ (2 : Int) = 0 by decide, show ¬ (2 : Int) = 1 by decide, if_false]
    rw [sumAxis_ok _ 0 0 ⟨by simp [hs], .inl rfl⟩]
    simp only
    rw [sumAxis_ok _ 0 0 ⟨by simp [hs], .inl rfl⟩]
    refine ⟨_, rfl, by simp [hs], ?_⟩
    intro k _
    rw [C30_rms_value, ← hn]
    simp only [hs, List.eraseIdx_zero, List.tail_cons, indexTuples, List.eraseIdx_cons_succ, List.getD_cons_succ, List.getD_cons_zero]
    rw [sum_flatMap, sum_swap]
    simp only [List.map_map, Function.comp_def, List.flatMap_map, List.map_flatMap, List.map_cons, List.map_nil]
    congr 2
    congr 1
    apply List.map_congr_left
    intro i _
    rw [← List.map_eq_flatMap]
    simp only [Real.rpow_two]
    rfl

/-- **C30** (`rms3d`). For every 3d array and axis 0, 1, 2 or -1, entry `k` of `rms3d(arr, axis)` is
`rms` of the 2d slice number `k` along that axis. -/
theorem C30_rms3d (arr : Arr ℝ) (h3 : arr.shape.length = 3) (axis : Int) (ax n : Nat) (hax : IsAxis 3 axis ax)
    (haxis : -1 ≤ axis) (hn : arr.shape[ax]? = some n) (nitems : Option ℝ) (hpos : nitems = none → 0 < n) :
    ∃ r, rms3d arr axis nitems = .ok r ∧ r.shape = [n] ∧
      ∀ k : Nat, k < n → ∃ sl, slicetake arr (.int k) axis = .ok sl ∧ r.get [k] = rms sl nitems := by
  obtain ⟨n0, n1, n2, hs⟩ : ∃ n0 n1 n2, arr.shape = [n0, n1, n2] := by
    rcases hh : arr.shape with _ | ⟨a, _ | ⟨b, _ | ⟨c, _ | ⟨d, l⟩⟩⟩⟩ <;> rw [hh] at h3 <;> simp at h3
    exact ⟨a, b, c, rfl⟩
  have hnn : [n0, n1, n2].getD ax 0 = n := by
    rw [List.getD_eq_getElem?_getD, ← hs, hn]; rfl
  obtain ⟨r, h1, h2, h4⟩ := rms3d_axis arr n0 n1 n2 hs axis ax hax haxis nitems (by rw [hnn]; exact hpos)
  rw [hnn] at h2 h4
  refine ⟨r, h1, h2, ?_⟩
  intro k hk
  obtain ⟨b, hb1, hb2, hb3⟩ := C24_slicetake_int arr k axis ax n k (by rw [h3]; exact hax) hn ⟨hk, .inl rfl⟩
  refine ⟨b, hb1, ?_⟩
  rw [h4 k hk]
  apply rms_congr
  · simp only [hb2, hs]
  · intro idx hidx
    rw [hb3 idx (by rw [hb2, hs]; exact hidx)]

/-- **C30** (errors of `rms3d`). -/
theorem C30_rms3d_errors (arr : Arr ℝ) (axis : Int) (nitems : Option ℝ)
    (h : axis < -1 ∨ 2 < axis ∨ arr.shape.length ≠ 3) : rms3d arr axis nitems = .error .assertion := by
  unfold rms3d
  rw [if_neg (by simp only [Arr.ndim]; omega)]

/-- Non-vacuity: the 3-4-0-0 matrix has `rms(nitems=1) = 5`. -/
example : rms ⟨[2, 2], fun idx => if idx = [0, 0] then 3 else if idx = [0, 1] then 4 else 0⟩ (some 1) = 5 := by
  rw [C30_rms_value]
  simp [indexTuples, List.range_succ]
  rw [show ((3 : ℝ) ^ 2 + 4 ^ 2) = 5 ^ 2 by norm_num]
  exact Real.sqrt_sq (by norm_num)

/-! ### Rotations -/

open Real Matrix

/-- Rotation about z. -/
noncomputable def Rz (x : ℝ) : Matrix (Fin 3) (Fin 3) ℝ := !![cos x, sin x, 0; -sin x, cos x, 0; 0, 0, 1]
/-- Rotation about x. -/
noncomputable def Rx (x : ℝ) : Matrix (Fin 3) (Fin 3) ℝ := !![1, 0, 0; 0, cos x, sin x; 0, -sin x, cos x]

theorem Rz_neg (x : ℝ) : Rz (-x) = (Rz x)ᵀ := by
  ext i j; fin_cases i <;> fin_cases j <;> simp [Rz]

theorem Rx_neg (x : ℝ) : Rx (-x) = (Rx x)ᵀ := by
  ext i j; fin_cases i <;> fin_cases j <;> simp [Rx]

theorem Rz_orth (x : ℝ) : Rz x * (Rz x)ᵀ = 1 := by
  have h := sin_sq_add_cos_sq x
  ext i j
  fin_cases i <;> fin_cases j <;> simp [Rz, Matrix.mul_apply, Fin.sum_univ_three] <;> nlinarith

theorem Rx_orth (x : ℝ) : Rx x * (Rx x)ᵀ = 1 := by
  have h := sin_sq_add_cos_sq x
  ext i j
  fin_cases i <;> fin_cases j <;> simp [Rx, Matrix.mul_apply, Fin.sum_univ_three] <;> nlinarith

theorem Rz_det (x : ℝ) : (Rz x).det = 1 := by
  have h := sin_sq_add_cos_sq x
  rw [Matrix.det_fin_three]
  simp [Rz]; nlinarith

theorem Rx_det (x : ℝ) : (Rx x).det = 1 := by
  have h := sin_sq_add_cos_sq x
  rw [Matrix.det_fin_three]
  simp [Rx]; nlinarith

/-- Angle in radians. -/
noncomputable def ang (deg : Bool) (x : ℝ) : ℝ := if deg then radians x else x

open Classical in
theorem euler_def (phi theta psi : ℝ) (deg : Bool) : eulerMatrix phi theta psi deg =
    if |ang deg phi| ≤ 2 * π ∧ |ang deg theta| ≤ π ∧ |ang deg psi| ≤ 2 * π then
      some (Rz (ang deg psi) * (Rx (ang deg theta) * Rz (ang deg phi))) else none := rfl

theorem euler_some (phi theta psi : ℝ) (deg : Bool) (M : Matrix (Fin 3) (Fin 3) ℝ)
    (h : eulerMatrix phi theta psi deg = some M) :
    (|ang deg phi| ≤ 2 * π ∧ |ang deg theta| ≤ π ∧ |ang deg psi| ≤ 2 * π) ∧
    M = Rz (ang deg psi) * (Rx (ang deg theta) * Rz (ang deg phi)) := by
  rw [euler_def] at h
  split at h
  · rename_i hc; cases h; exact ⟨hc, rfl⟩
  · cases h

theorem radians_neg (x : ℝ) : radians (-x) = -radians x := by unfold radians; ring

/-- **C31**. Whenever `euler_matrix` returns a matrix (all angles of the documented ranges and their
negatives), in degrees or radians, it is orthogonal with determinant 1, and
`euler_matrix(-psi, -theta, -phi)` returns its inverse. -/
theorem C31_euler (phi theta psi : ℝ) (deg : Bool) (M : Matrix (Fin 3) (Fin 3) ℝ)
    (h : eulerMatrix phi theta psi deg = some M) :
    M * Mᵀ = 1 ∧ M.det = 1 ∧
    ∃ N, eulerMatrix (-psi) (-theta) (-phi) deg = some N ∧ N * M = 1 ∧ M * N = 1 := by
  obtain ⟨hc, hM⟩ := euler_some phi theta psi deg M h
  have horth : M * Mᵀ = 1 := by
    rw [hM, Matrix.transpose_mul, Matrix.transpose_mul]
    generalize ang deg psi = c
    generalize ang deg theta = b
    generalize ang deg phi = a
    calc Rz c * (Rx b * Rz a) * ((Rz a)ᵀ * (Rx b)ᵀ * (Rz c)ᵀ)
        = Rz c * (Rx b * (Rz a * (Rz a)ᵀ) * (Rx b)ᵀ) * (Rz c)ᵀ := by simp only [Matrix.mul_assoc]
      _ = 1 := by rw [Rz_orth, Matrix.mul_one, Rx_orth, Matrix.mul_one, Rz_orth]
  refine ⟨horth, ?_, ?_⟩
  · rw [hM, Matrix.det_mul, Matrix.det_mul, Rz_det, Rx_det, Rz_det]; norm_num
  · have hN : eulerMatrix (-psi) (-theta) (-phi) deg = some Mᵀ := by
      have e : ∀ x : ℝ, ang deg (-x) = -ang deg x := by
        intro x; unfold ang; cases deg
        · simp
        · simp [radians_neg]
      rw [euler_def, e, e, e, abs_neg, abs_neg, abs_neg, if_pos ⟨hc.2.2, hc.2.1, hc.1⟩]
      congr 1
      rw [hM, Matrix.transpose_mul, Matrix.transpose_mul, ← Rz_neg, ← Rz_neg, ← Rx_neg, Matrix.mul_assoc]
    exact ⟨Mᵀ, hN, mul_eq_one_comm.1 horth, horth⟩

/-- **C31** (when). A matrix is returned exactly for `|phi|, |psi| ≤ 2π`, `|theta| ≤ π`; in degrees
`|phi|, |psi| ≤ 360`, `|theta| ≤ 180`. -/
theorem C31_euler_when (phi theta psi : ℝ) :
    ((eulerMatrix phi theta psi false).isSome ↔ |phi| ≤ 2 * π ∧ |theta| ≤ π ∧ |psi| ≤ 2 * π) ∧
    ((eulerMatrix phi theta psi true).isSome ↔ |phi| ≤ 360 ∧ |theta| ≤ 180 ∧ |psi| ≤ 360) := by
  have e : ∀ x b : ℝ, |radians x| ≤ b * π ↔ |x| ≤ b * 180 := by
    intro x b
    unfold radians
    rw [abs_div, abs_mul, abs_of_pos pi_pos, abs_of_pos (show (0 : ℝ) < 180 by norm_num), div_le_iff₀ (by norm_num)]
    constructor
    · intro h
      have := pi_pos
      by_contra hc
      have : b * 180 * π < |x| * π := by
        apply mul_lt_mul_of_pos_right _ pi_pos; linarith
      linarith
    · intro h
      have : |x| * π ≤ b * 180 * π := mul_le_mul_of_nonneg_right h pi_pos.le
      linarith
  constructor
  · rw [euler_def]
    split <;> rename_i h <;> simp_all [ang]
  · have e1 := fun x => e x 1
    have e2 := fun x => e x 2
    norm_num at e1 e2
    rw [← e2, ← e1, ← e2]
    rw [euler_def]
    split <;> rename_i h <;> simp_all [ang]

/-- Non-vacuity. -/
example : ∃ M, eulerMatrix 30 60 (-90) true = some M := by
  rw [← Option.isSome_iff_exists, (C31_euler_when _ _ _).2]
  norm_num [abs_le]

end Pwtools.Num
