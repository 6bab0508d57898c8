import Verif.Model.Eos
import Verif.Spec.Eos
import Mathlib.Tactic.FieldSimp
import Mathlib.Tactic.LinearCombination
import Mathlib.Tactic.NormNum
import Mathlib.Analysis.Calculus.Deriv.MeanValue
/-!
# C69, C70: the Vinet equation of state
-/
namespace Pwtools.Eos

variable (p : Params)

theorem eta_pos (hv : 0 < p.v0) {V : ℝ} (hV : 0 < V) : 0 < eta p V := Real.rpow_pos_of_pos (div_pos hV hv) _

theorem eta_cube (hv : 0 < p.v0) {V : ℝ} (hV : 0 < V) : eta p V ^ 3 = V / p.v0 := by
  unfold eta
  rw [← Real.rpow_natCast, ← Real.rpow_mul (div_pos hV hv).le]
  norm_num

theorem eta_v0 (hv : 0 < p.v0) : eta p p.v0 = 1 := by
  unfold eta
  rw [div_self hv.ne', Real.one_rpow]

theorem eta_deriv (hv : 0 < p.v0) {V : ℝ} (hV : 0 < V) : HasDerivAt (eta p) (1 / (3 * p.v0 * eta p V ^ 2)) V := by
  have h0 : V / p.v0 ≠ 0 := (div_pos hV hv).ne'
  have h1 := ((hasDerivAt_id V).div_const p.v0).rpow_const (p := (1 : ℝ) / 3) (Or.inl h0)
  refine h1.congr_deriv ?_
  have h2 : (V / p.v0) ^ ((1 : ℝ) / 3 - 1) = eta p V / (V / p.v0) := by
    unfold eta
    rw [Real.rpow_sub_one h0]
  simp only [id]
  rw [h2, ← eta_cube p hv hV]
  have := eta_pos p hv hV
  field_simp

/-- **C69** (first derivative). `EosFit(V, der=1)` is the derivative of `EosFit(V)`. -/
theorem C69_deriv1 (spl : Nat → ℝ → ℝ) (hv : 0 < p.v0) (hb : p.b1 ≠ 1) (V : ℝ) (hV : 0 < V) :
    HasDerivAt (fun V => call p spl V 0) (call p spl V 1) V := by
  have he := eta_deriv p hv hV
  have hp := eta_pos p hv hV
  have hb' : p.b1 - 1 ≠ 0 := sub_ne_zero.2 hb
  show HasDerivAt (vinet p) (vinet1 p V) V
  have h1 := ((((((he.sub_const 1).const_mul (3 * p.b1)).const_add 5).sub (he.const_mul 3)).mul
    ((((he.sub_const 1).const_mul (-3 * (p.b1 - 1))).div_const 2).exp)).const_sub 2).const_mul (2 * p.b0 * p.v0 / (p.b1 - 1) ^ 2)
  have h2 := h1.const_add p.e0
  refine (h2.congr_deriv ?_ : HasDerivAt (fun V => p.e0 + 2 * p.b0 * p.v0 / (p.b1 - 1) ^ 2 *
    (2 - (5 + 3 * p.b1 * (eta p V - 1) - 3 * eta p V) * Real.exp (-3 * (p.b1 - 1) * (eta p V - 1) / 2))) _ V)
  have ex : Real.exp (1.5 * (-eta p V * p.b1 + p.b1 + eta p V - 1)) = Real.exp (-3 * (p.b1 - 1) * (eta p V - 1) / 2) := by
    congr 1; norm_num; ring
  simp only [vinet1, ex, Pi.sub_apply]
  field_simp
  ring

/-- **C69** (second derivative). `EosFit(V, der=2)` is the derivative of `EosFit(V, der=1)`. -/
theorem C69_deriv2 (spl : Nat → ℝ → ℝ) (hv : 0 < p.v0) (V : ℝ) (hV : 0 < V) :
    HasDerivAt (fun V => call p spl V 1) (call p spl V 2) V := by
  have he := eta_deriv p hv hV
  have hp := eta_pos p hv hV
  show HasDerivAt (vinet1 p) (vinet2 p V) V
  have h1 := ((((he.const_mul 3).sub_const 3).div (he.pow 2) (by simp only [Pi.pow_apply]; positivity)).mul_const p.b0).mul
    ((((((he.neg).mul_const p.b1).add_const p.b1).add he).sub_const 1).const_mul 1.5).exp
  refine (h1.congr_deriv ?_ : HasDerivAt (fun V => (3 * eta p V - 3) / eta p V ^ 2 * p.b0 *
    Real.exp (1.5 * (-eta p V * p.b1 + p.b1 + eta p V - 1))) _ V)
  simp only [vinet2, Pi.neg_apply, Pi.pow_apply, Pi.add_apply]
  norm_num
  field_simp
  ring

/-- **C69** (at V0). At `V0` the energy is `E0`, the pressure is zero, and `V0 E''(V0) = B0`. -/
theorem C69_minimum (spl : Nat → ℝ → ℝ) (conv : ℝ) (hv : 0 < p.v0) (hb : p.b1 ≠ 1) :
    getMin p = p.v0 ∧ call p spl p.v0 0 = p.e0 ∧ pressure p spl conv p.v0 = 0 ∧ p.v0 * call p spl p.v0 2 = p.b0 := by
  have hb' : p.b1 - 1 ≠ 0 := sub_ne_zero.2 hb
  refine ⟨rfl, ?_, ?_, ?_⟩
  · simp only [call, vinet, eta_v0 p hv]
    norm_num
  · simp only [pressure, call, vinet1, eta_v0 p hv]
    norm_num
  · simp only [call, vinet2, eta_v0 p hv]
    norm_num
    field_simp

/-- **C69** (get_min). For `B0 > 0` the volume of `get_min` is the only minimum of the fitted curve: the
pressure is positive for smaller volumes and negative for larger ones. -/
theorem C69_pressure_sign (spl : Nat → ℝ → ℝ) (conv : ℝ) (hc : 0 < conv) (hv : 0 < p.v0) (hb0 : 0 < p.b0) (V : ℝ) (hV : 0 < V) :
    (V < getMin p → 0 < pressure p spl conv V) ∧ (getMin p < V → pressure p spl conv V < 0) := by
  have hp := eta_pos p hv hV
  have key : ∀ W, 0 < W → (eta p W < 1 ↔ W < p.v0) := by
    intro W hW
    have h3 := eta_cube p hv hW
    have hq := eta_pos p hv hW
    constructor
    · intro h
      have : eta p W ^ 3 < 1 := pow_lt_one₀ hq.le h (by norm_num)
      rw [h3, div_lt_one hv] at this; exact this
    · intro h
      by_contra hcon
      have : 1 ≤ eta p W ^ 3 := one_le_pow₀ (not_lt.1 hcon)
      rw [h3, le_div_iff₀ hv, one_mul] at this
      linarith
  have key2 : V ≠ p.v0 → eta p V ≠ 1 := by
    intro h e
    have h3 := eta_cube p hv hV
    rw [e, one_pow, eq_div_iff hv.ne'] at h3
    exact h (by linarith)
  have hE := Real.exp_pos (1.5 * (-eta p V * p.b1 + p.b1 + eta p V - 1))
  have hform : pressure p spl conv V = 3 * (1 - eta p V) * (p.b0 / eta p V ^ 2 * Real.exp (1.5 * (-eta p V * p.b1 + p.b1 + eta p V - 1)) * conv) := by
    simp only [pressure, call, vinet1]
    ring
  have hpos : 0 < p.b0 / eta p V ^ 2 * Real.exp (1.5 * (-eta p V * p.b1 + p.b1 + eta p V - 1)) * conv := by positivity
  rw [hform]
  constructor
  · intro h
    have := (key V hV).2 h
    have : 0 < 1 - eta p V := by linarith
    positivity
  · intro h
    have h1 : ¬ eta p V < 1 := fun h' => absurd ((key V hV).1 h') (not_lt.2 (le_of_lt h))
    have h2 := key2 (ne_of_gt h)
    have : 1 - eta p V < 0 := by
      rcases lt_trichotomy (eta p V) 1 with h' | h' | h'
      · exact absurd h' h1
      · exact absurd h' h2
      · linarith
    nlinarith

/-- **C69** (pressure). `pressure(V)` is `-E'(V)` in GPa. -/
theorem C69_pressure (spl : Nat → ℝ → ℝ) (conv : ℝ) (hv : 0 < p.v0) (hb : p.b1 ≠ 1) (V : ℝ) (hV : 0 < V) :
    ∃ E', HasDerivAt (fun V => call p spl V 0) E' V ∧ pressure p spl conv V = -E' * conv :=
  ⟨_, C69_deriv1 p spl hv hb V hV, rfl⟩

/-- **C69** (bulk modulus). `bulkmod(V)` is `V E''(V)` in GPa at `V = V0`. Missing: all other volumes, see
`C69_bulkmod_counterexample`. -/
theorem C69_bulkmod_partial (spl : Nat → ℝ → ℝ) (conv : ℝ) (hv : 0 < p.v0) (hb : p.b1 ≠ 1) :
    bulkmod p conv p.v0 = p.v0 * call p spl p.v0 2 * conv := by
  rw [(C69_minimum p spl conv hv hb).2.2.2]; rfl

theorem eta_8 : eta ⟨0, 1, 4, 1⟩ 8 = 2 := by
  unfold eta
  rw [div_one, show (8 : ℝ) = 2 ^ (3 : ℝ) by norm_num, ← Real.rpow_mul (by norm_num)]
  norm_num

/-- **C69** (bulk modulus), counterexample: `bulkmod` returns `B0` for every volume. For `E0 = 0`, `B0 = 1`,
`B1 = 4`, `V0 = 1` the curve has a negative `V E''(V)` at `V = 8`, but `bulkmod(8)` is positive. -/
theorem C69_bulkmod_counterexample : ∃ (p : Params) (V : ℝ), 0 < p.v0 ∧ p.b1 ≠ 1 ∧ 0 < p.b0 ∧ 0 < V ∧ ∀ (spl : Nat → ℝ → ℝ) (conv : ℝ), 0 < conv →
    V * call p spl V 2 * conv < 0 ∧ 0 < bulkmod p conv V := by
  refine ⟨⟨0, 1, 4, 1⟩, 8, by norm_num, by norm_num, by norm_num, by norm_num, fun spl conv hc => ⟨?_, ?_⟩⟩
  · simp only [call, vinet2, eta_8]
    have := Real.exp_pos (1.5 * (-2 * 4 + 4 + 2 - 1))
    have h2 : 8 * (-1 * (3 * 2 ^ 2 * 4 - 3 * 2 * 4 - 3 * 2 ^ 2 + 5 * 2 - 4) / (2 * 2 ^ 5 * 1) * Real.exp (1.5 * (-2 * 4 + 4 + 2 - 1))) * conv
      = -(9 / 4) * (Real.exp (1.5 * (-2 * 4 + 4 + 2 - 1)) * conv) := by ring
    rw [h2]
    have : 0 < Real.exp (1.5 * (-2 * 4 + 4 + 2 - 1)) * conv := by positivity
    linarith
  · simp only [bulkmod]; linarith

/-- The hypotheses of the theorems on the derivatives: typical parameters. -/
example : ∃ p : Params, 0 < p.v0 ∧ p.b1 ≠ 1 ∧ 0 < p.b0 ∧ p.e0 = -100 := ⟨⟨-100, 0.5, 4, 40⟩, by norm_num, by norm_num, by norm_num, rfl⟩

/-! ## C70 -/

theorem vmin_le (l : List ℝ) (v : ℝ) (hv : v ∈ l) : vmin l ≤ v ∧ v ≤ vmax l := by
  have h1 : ∀ (l : List ℝ) (a : ℝ), l.foldl min a ≤ a ∧ ∀ v ∈ l, l.foldl min a ≤ v := by
    intro l
    induction l with
    | nil => simp
    | cons x l ih =>
      intro a
      obtain ⟨i1, i2⟩ := ih (min a x)
      simp only [List.foldl_cons]
      refine ⟨i1.trans (min_le_left _ _), fun v hv => ?_⟩
      rcases List.mem_cons.1 hv with rfl | hv
      · exact i1.trans (min_le_right _ _)
      · exact i2 v hv
  have h2 : ∀ (l : List ℝ) (a : ℝ), a ≤ l.foldl max a ∧ ∀ v ∈ l, v ≤ l.foldl max a := by
    intro l
    induction l with
    | nil => simp
    | cons x l ih =>
      intro a
      obtain ⟨i1, i2⟩ := ih (max a x)
      simp only [List.foldl_cons]
      refine ⟨(le_max_left _ _).trans i1, fun v hv => ?_⟩
      rcases List.mem_cons.1 hv with rfl | hv
      · exact (le_max_right _ _).trans i1
      · exact i2 v hv
  exact ⟨(h1 l _).2 v hv, (h2 l _).2 v hv⟩

theorem vmin_mem (l : List ℝ) (h : l ≠ []) : vmin l ∈ l ∧ vmax l ∈ l := by
  have h1 : ∀ (l : List ℝ) (a : ℝ), l.foldl min a = a ∨ l.foldl min a ∈ l := by
    intro l
    induction l with
    | nil => simp
    | cons x l ih =>
      intro a
      simp only [List.foldl_cons, List.mem_cons]
      rcases ih (min a x) with e | e
      · rcases min_choice a x with m | m
        · left; rw [e, m]
        · right; left; rw [e, m]
      · right; right; exact e
  have h2 : ∀ (l : List ℝ) (a : ℝ), l.foldl max a = a ∨ l.foldl max a ∈ l := by
    intro l
    induction l with
    | nil => simp
    | cons x l ih =>
      intro a
      simp only [List.foldl_cons, List.mem_cons]
      rcases ih (max a x) with e | e
      · rcases max_choice a x with m | m
        · left; rw [e, m]
        · right; left; rw [e, m]
      · right; right; exact e
  obtain ⟨a, l, rfl⟩ := List.exists_cons_of_ne_nil h
  constructor
  · rcases h1 (a :: l) ((a :: l).headD 0) with e | e
    · unfold vmin; rw [e]; simp
    · exact e
  · rcases h2 (a :: l) ((a :: l).headD 0) with e | e
    · unfold vmax; rw [e]; simp
    · exact e

/-- **C70**. If the minimum `-b/(2a)` of the fitted parabola is not larger than the smallest volume, and there
are two different volumes, `EosFit` raises. If it raises, the minimum is not inside the interval. Missing:
minima at or above the largest volume, see `C70_counterexample`. -/
theorem C70_left_partial (polyfit : List ℝ → List ℝ → ℝ × ℝ × ℝ) (leastsq : List ℝ → List ℝ → Params → Params)
    (volume energy : List ℝ) (a b c : ℝ) (hab : polyfit volume energy = (a, b, c)) :
    ((∃ u ∈ volume, ∃ w ∈ volume, u ≠ w) → (∀ v ∈ volume, -b / (2 * a) ≤ v) → fit polyfit leastsq volume energy = none) ∧
    (volume ≠ [] → fit polyfit leastsq volume energy = none → ∀ v ∈ volume, -b / (2 * a) ≤ v) := by
  constructor
  · rintro ⟨u, hu, w, hw, huw⟩ h
    unfold fit
    simp only [hab]
    rw [if_pos]
    have hne : volume ≠ [] := List.ne_nil_of_mem hu
    refine ⟨not_lt.2 (h _ (vmin_mem volume hne).1), ?_⟩
    have := vmin_le volume u hu
    have := vmin_le volume w hw
    have := h u hu
    have := h w hw
    rcases lt_or_gt_of_ne huw with h' | h' <;> linarith
  · intro hne h v hv
    unfold fit at h
    simp only [hab] at h
    split at h
    · rename_i hc
      exact (not_lt.1 hc.1).trans (vmin_le volume v hv).1
    · simp at h

/-- **C70**, counterexample: the data `E = (V - 10)²` at `V = 1, 2, 3`. Every least squares fit gives the
parabola with the minimum at 10, above the largest volume 3, but `EosFit` does not raise. -/
theorem C70_counterexample (polyfit : List ℝ → List ℝ → ℝ × ℝ × ℝ) (hp : Spec.IsParabolaFit polyfit)
    (leastsq : List ℝ → List ℝ → Params → Params) :
    ∃ volume energy a b c, polyfit volume energy = (a, b, c) ∧ 0 < a ∧ (∀ v ∈ volume, v < -b / (2 * a)) ∧ volume ≠ [] ∧
      fit polyfit leastsq volume energy ≠ none := by
  have h := hp [1, 2, 3] [81, 64, 49] rfl 1 (-20) 100
  generalize hq : polyfit [1, 2, 3] [81, 64, 49] = q at h
  obtain ⟨a, b, c⟩ := q
  simp only [Spec.parabolaError, List.zipWith_cons_cons, List.zipWith_nil_left, List.sum_cons, List.sum_nil] at h
  norm_num at h
  have h1 : a + b + c - 81 = 0 := by nlinarith [sq_nonneg (a + b + c - 81), sq_nonneg (a * 4 + b * 2 + c - 64), sq_nonneg (a * 9 + b * 3 + c - 49)]
  have h2 : a * 4 + b * 2 + c - 64 = 0 := by nlinarith [sq_nonneg (a + b + c - 81), sq_nonneg (a * 4 + b * 2 + c - 64), sq_nonneg (a * 9 + b * 3 + c - 49)]
  have h3 : a * 9 + b * 3 + c - 49 = 0 := by nlinarith [sq_nonneg (a + b + c - 81), sq_nonneg (a * 4 + b * 2 + c - 64), sq_nonneg (a * 9 + b * 3 + c - 49)]
  have ha : a = 1 := by linarith
  have hb : b = -20 := by linarith
  have hc : c = 100 := by linarith
  subst ha hb hc
  refine ⟨[1, 2, 3], [81, 64, 49], 1, -20, 100, hq, by norm_num, ?_, by simp, ?_⟩
  · intro v hv
    simp only [List.mem_cons, List.not_mem_nil, or_false] at hv
    rcases hv with rfl | rfl | rfl <;> norm_num
  · unfold fit
    simp only [hq]
    rw [if_neg]
    · simp
    · rintro ⟨-, h⟩
      have := h.trans_le (by norm_num [vmax] : vmax [1, 2, 3] ≤ 3)
      norm_num at this

/-- A parabola with the minimum to the left of the volumes: rejected. -/
example (leastsq : List ℝ → List ℝ → Params → Params) : fit (fun _ _ => (1, 0, 0)) leastsq [1, 2, 3] [1, 4, 9] = none := by
  apply (C70_left_partial _ _ _ _ 1 0 0 rfl).1
  · exact ⟨1, by simp, 2, by simp, by norm_num⟩
  · intro v hv
    simp only [List.mem_cons, List.not_mem_nil, or_false] at hv
    rcases hv with rfl | rfl | rfl <;> norm_num

end Pwtools.Eos
