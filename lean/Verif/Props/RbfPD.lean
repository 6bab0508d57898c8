import Mathlib.Analysis.SpecialFunctions.Gamma.Basic
import Mathlib.Analysis.SpecialFunctions.Gaussian.GaussianIntegral
import Mathlib.LinearAlgebra.Vandermonde
import Mathlib.Algebra.Module.Submodule.Union
import Mathlib.Algebra.BigOperators.Fin
import Verif.Model.Rbf
import Mathlib.Analysis.SpecialFunctions.Sqrt
import Mathlib.Analysis.Calculus.Deriv.MeanValue
import Mathlib.LinearAlgebra.Matrix.ToLinearEquiv
/-!
# Definiteness of the three kernels (lemmas for C71)
-/
namespace Pwtools.Rbf

variable {M N : Nat}

theorem sqd_nonneg (a b : Fin N → ℝ) : 0 ≤ sqd a b := Finset.sum_nonneg fun _ _ => sq_nonneg _

theorem pow_form (u : Fin M → ℝ) (c : Fin M → Fin N → ℝ) (n : Nat) :
    ∑ i, ∑ j, u i * u j * (∑ k, c i k * c j k) ^ n =
      ∑ q : Fin n → Fin N, (∑ j, u j * ∏ m, c j (q m)) ^ 2 := by
  have h : ∀ i j, u i * u j * (∑ k, c i k * c j k) ^ n =
      ∑ q : Fin n → Fin N, (u i * ∏ m, c i (q m)) * (u j * ∏ m, c j (q m)) := by
    intro i j
    rw [Fintype.sum_pow, Finset.mul_sum]
    refine Finset.sum_congr rfl fun q _ => ?_
    rw [Finset.prod_mul_distrib]; ring
  simp_rw [h]
  have h2 : ∀ i, ∑ j, ∑ q : Fin n → Fin N, (u i * ∏ m, c i (q m)) * (u j * ∏ m, c j (q m)) =
      ∑ q : Fin n → Fin N, (u i * ∏ m, c i (q m)) * ∑ j, (u j * ∏ m, c j (q m)) := by
    intro i
    rw [Finset.sum_comm]
    exact Finset.sum_congr rfl fun q _ => by rw [Finset.mul_sum]
  simp_rw [h2]
  rw [Finset.sum_comm]
  exact Finset.sum_congr rfl fun q _ => by rw [← Finset.sum_mul, sq]

theorem exp_form (u : Fin M → ℝ) (c : Fin M → Fin N → ℝ) (s : ℝ) :
    HasSum (fun n : Nat => s ^ n / n.factorial * ∑ i, ∑ j, u i * u j * (∑ k, c i k * c j k) ^ n)
      (∑ i, ∑ j, u i * u j * Real.exp (s * ∑ k, c i k * c j k)) := by
  have h : ∀ n : Nat, s ^ n / n.factorial * ∑ i, ∑ j, u i * u j * (∑ k, c i k * c j k) ^ n =
      ∑ i, ∑ j, u i * u j * ((s * ∑ k, c i k * c j k) ^ n / n.factorial) := by
    intro n
    rw [Finset.mul_sum]
    refine Finset.sum_congr rfl fun i _ => ?_
    rw [Finset.mul_sum]
    refine Finset.sum_congr rfl fun j _ => ?_
    rw [mul_pow]; ring
  simp_rw [h]
  refine hasSum_sum fun i _ => hasSum_sum fun j _ => HasSum.mul_left _ ?_
  rw [Real.exp_eq_exp_ℝ]
  exact NormedSpace.expSeries_div_hasSum_exp (s * ∑ k, c i k * c j k)

/-- The Gaussian kernel as an exponential of inner products. -/
theorem gauss_factor (w : Fin M → ℝ) (c : Fin M → Fin N → ℝ) (t : ℝ) :
    ∑ i, ∑ j, w i * w j * Real.exp (-t * sqd (c i) (c j)) =
      ∑ i, ∑ j, (w i * Real.exp (-t * ∑ k, c i k ^ 2)) * (w j * Real.exp (-t * ∑ k, c j k ^ 2)) *
        Real.exp (2 * t * ∑ k, c i k * c j k) := by
  refine Finset.sum_congr rfl fun i _ => Finset.sum_congr rfl fun j _ => ?_
  have : -t * sqd (c i) (c j) = -t * ∑ k, c i k ^ 2 + -t * ∑ k, c j k ^ 2 + 2 * t * ∑ k, c i k * c j k := by
    unfold sqd
    have : ∀ k, (c i k - c j k) ^ 2 = c i k ^ 2 + c j k ^ 2 - 2 * (c i k * c j k) := fun k => by ring
    simp_rw [this, Finset.sum_sub_distrib, Finset.sum_add_distrib, ← Finset.mul_sum]
    ring
  rw [this, Real.exp_add, Real.exp_add]; ring

theorem gauss_psd (w : Fin M → ℝ) (c : Fin M → Fin N → ℝ) {t : ℝ} (ht : 0 ≤ t) :
    0 ≤ ∑ i, ∑ j, w i * w j * Real.exp (-t * sqd (c i) (c j)) := by
  rw [gauss_factor]
  refine (exp_form _ c (2 * t)).nonneg fun n => ?_
  rw [pow_form]
  exact mul_nonneg (by positivity) (Finset.sum_nonneg fun _ _ => sq_nonneg _)

theorem exists_sep (c : Fin M → Fin N → ℝ) (hc : Function.Injective c) :
    ∃ v : Fin N → ℝ, Function.Injective fun j => ∑ k, c j k * v k := by
  obtain ⟨f, hf⟩ := Module.exists_dual_forall_apply_ne_zero (K := ℝ)
    (fun q : {q : Fin M × Fin M // q.1 ≠ q.2} => c q.1.1 - c q.1.2)
    (fun q h => q.2 (hc (sub_eq_zero.1 h)))
  have e : ∀ x : Fin N → ℝ, f x = ∑ k, x k * f (Pi.single k 1) := by
    intro x
    conv_lhs => rw [pi_eq_sum_univ' x]
    simp [map_sum]
  refine ⟨fun k => f (Pi.single k 1), fun i j h => ?_⟩
  by_contra hij
  have := hf ⟨(i, j), hij⟩
  apply this
  rw [map_sub, e, e]
  exact sub_eq_zero.2 h

theorem gauss_pd (w : Fin M → ℝ) (c : Fin M → Fin N → ℝ) {t : ℝ} (ht : 0 < t) (hc : Function.Injective c)
    (hw : w ≠ 0) : 0 < ∑ i, ∑ j, w i * w j * Real.exp (-t * sqd (c i) (c j)) := by
  refine lt_of_le_of_ne (gauss_psd w c ht.le) fun h0 => hw ?_
  rw [gauss_factor] at h0
  set u : Fin M → ℝ := fun i => w i * Real.exp (-t * ∑ k, c i k ^ 2) with hu
  have hs := exp_form u c (2 * t)
  rw [← h0] at hs
  have hz := (hasSum_zero_iff_of_nonneg (fun n => by
    show 0 ≤ _
    rw [pow_form]
    exact mul_nonneg (by positivity) (Finset.sum_nonneg fun _ _ => sq_nonneg _))).1 hs
  have hT : ∀ n : Nat, ∀ q : Fin n → Fin N, ∑ j, u j * ∏ m, c j (q m) = 0 := by
    intro n q
    have h1 := congrFun hz n
    simp only [Pi.zero_apply] at h1
    rcases mul_eq_zero.1 h1 with h | h
    · have : 0 < (2 * t) ^ n / (n.factorial : ℝ) := by positivity
      exact absurd h this.ne'
    · rw [pow_form] at h
      have := (Finset.sum_eq_zero_iff_of_nonneg (fun _ _ => sq_nonneg _)).1 h q (Finset.mem_univ _)
      exact pow_eq_zero_iff (two_ne_zero) |>.1 this
  obtain ⟨v, hv⟩ := exists_sep c hc
  have : u = 0 := by
    refine Matrix.eq_zero_of_forall_pow_sum_mul_pow_eq_zero hv fun n => ?_
    have e : ∀ j, u j * (∑ k, c j k * v k) ^ (n : Nat) =
        ∑ q : Fin (n : Nat) → Fin N, (u j * ∏ m, c j (q m)) * ∏ m, v (q m) := by
      intro j
      rw [Fintype.sum_pow, Finset.mul_sum]
      refine Finset.sum_congr rfl fun q _ => ?_
      rw [Finset.prod_mul_distrib]; ring
    simp_rw [e]
    rw [Finset.sum_comm]
    refine Finset.sum_eq_zero fun q _ => ?_
    rw [← Finset.sum_mul, hT, zero_mul]
  funext i
  have h := congrFun this i
  simp only [hu, Pi.zero_apply] at h
  exact (mul_eq_zero.1 h).resolve_right (Real.exp_pos _).ne'

/-! ### Inverse multiquadric -/

theorem inv_sqrt_integral {a : ℝ} (ha : 0 < a) :
    ∫ t in Set.Ioi (0 : ℝ), t ^ (-(1 / 2) : ℝ) * Real.exp (-(a * t)) = √Real.pi * (1 / √a) := by
  have h := Real.integral_rpow_mul_exp_neg_mul_Ioi (a := 1 / 2) (r := a) (by norm_num) ha
  rw [Real.Gamma_one_half_eq, ← Real.sqrt_eq_rpow, Real.sqrt_div' _ ha.le, Real.sqrt_one] at h
  rw [show (-(1 / 2) : ℝ) = 1 / 2 - 1 by norm_num, h]; ring

theorem inv_sqrt_integrable {a : ℝ} (ha : 0 < a) :
    MeasureTheory.IntegrableOn (fun t : ℝ => t ^ (-(1 / 2) : ℝ) * Real.exp (-(a * t))) (Set.Ioi 0) := by
  have := integrableOn_rpow_mul_exp_neg_mul_rpow (p := 1) (s := -(1 / 2)) (b := a) (by norm_num) (by norm_num) ha
  simpa using this

theorem invmulti_form (w : Fin M → ℝ) (c : Fin M → Fin N → ℝ) {τ : ℝ} (hτ : 0 < τ) :
    √Real.pi * ∑ i, ∑ j, w i * w j * (1 / √(sqd (c i) (c j) + τ)) =
      ∫ t in Set.Ioi (0 : ℝ), t ^ (-(1 / 2) : ℝ) * Real.exp (-(τ * t)) * ∑ i, ∑ j, w i * w j * Real.exp (-t * sqd (c i) (c j)) := by
  have e : ∀ t : ℝ, t ^ (-(1 / 2) : ℝ) * Real.exp (-(τ * t)) * ∑ i, ∑ j, w i * w j * Real.exp (-t * sqd (c i) (c j)) =
      ∑ i, ∑ j, w i * w j * (t ^ (-(1 / 2) : ℝ) * Real.exp (-((sqd (c i) (c j) + τ) * t))) := by
    intro t
    rw [Finset.mul_sum]
    refine Finset.sum_congr rfl fun i _ => ?_
    rw [Finset.mul_sum]
    refine Finset.sum_congr rfl fun j _ => ?_
    rw [show -((sqd (c i) (c j) + τ) * t) = -(τ * t) + -t * sqd (c i) (c j) by ring, Real.exp_add]; ring
  have pos : ∀ i j, 0 < sqd (c i) (c j) + τ := fun i j => add_pos_of_nonneg_of_pos (sqd_nonneg _ _) hτ
  simp_rw [e]
  rw [MeasureTheory.integral_finsetSum _ fun i _ => MeasureTheory.integrable_finsetSum _ fun j _ => (inv_sqrt_integrable (pos i j)).const_mul _]
  rw [Finset.mul_sum]
  refine Finset.sum_congr rfl fun i _ => ?_
  rw [MeasureTheory.integral_finsetSum _ fun j _ => (inv_sqrt_integrable (pos i j)).const_mul _, Finset.mul_sum]
  refine Finset.sum_congr rfl fun j _ => ?_
  rw [MeasureTheory.integral_const_mul, inv_sqrt_integral (pos i j)]; ring

theorem invmulti_integrable (w : Fin M → ℝ) (c : Fin M → Fin N → ℝ) {τ : ℝ} (hτ : 0 < τ) :
    MeasureTheory.IntegrableOn (fun t : ℝ => t ^ (-(1 / 2) : ℝ) * Real.exp (-(τ * t)) *
      ∑ i, ∑ j, w i * w j * Real.exp (-t * sqd (c i) (c j))) (Set.Ioi 0) := by
  have e : ∀ t : ℝ, t ^ (-(1 / 2) : ℝ) * Real.exp (-(τ * t)) * ∑ i, ∑ j, w i * w j * Real.exp (-t * sqd (c i) (c j)) =
      ∑ i, ∑ j, w i * w j * (t ^ (-(1 / 2) : ℝ) * Real.exp (-((sqd (c i) (c j) + τ) * t))) := by
    intro t
    rw [Finset.mul_sum]
    refine Finset.sum_congr rfl fun i _ => ?_
    rw [Finset.mul_sum]
    refine Finset.sum_congr rfl fun j _ => ?_
    rw [show -((sqd (c i) (c j) + τ) * t) = -(τ * t) + -t * sqd (c i) (c j) by ring, Real.exp_add]; ring
  have pos : ∀ i j, 0 < sqd (c i) (c j) + τ := fun i j => add_pos_of_nonneg_of_pos (sqd_nonneg _ _) hτ
  simp_rw [e]
  exact MeasureTheory.integrable_finsetSum _ fun i _ => MeasureTheory.integrable_finsetSum _ fun j _ => (inv_sqrt_integrable (pos i j)).const_mul _

theorem invmulti_psd (w : Fin M → ℝ) (c : Fin M → Fin N → ℝ) {τ : ℝ} (hτ : 0 < τ) :
    0 ≤ ∑ i, ∑ j, w i * w j * (1 / √(sqd (c i) (c j) + τ)) := by
  have h : 0 ≤ √Real.pi * ∑ i, ∑ j, w i * w j * (1 / √(sqd (c i) (c j) + τ)) := by
    rw [invmulti_form w c hτ]
    refine MeasureTheory.setIntegral_nonneg measurableSet_Ioi fun t ht => ?_
    exact mul_nonneg (mul_nonneg (Real.rpow_nonneg (le_of_lt ht) _) (Real.exp_pos _).le) (gauss_psd w c (le_of_lt ht))
  exact nonneg_of_mul_nonneg_right h (Real.sqrt_pos.2 Real.pi_pos)

theorem invmulti_pd (w : Fin M → ℝ) (c : Fin M → Fin N → ℝ) {τ : ℝ} (hτ : 0 < τ) (hc : Function.Injective c)
    (hw : w ≠ 0) : 0 < ∑ i, ∑ j, w i * w j * (1 / √(sqd (c i) (c j) + τ)) := by
  have h : 0 < √Real.pi * ∑ i, ∑ j, w i * w j * (1 / √(sqd (c i) (c j) + τ)) := by
    rw [invmulti_form w c hτ]
    have pos : ∀ t ∈ Set.Ioi (0 : ℝ), 0 < t ^ (-(1 / 2) : ℝ) * Real.exp (-(τ * t)) *
        ∑ i, ∑ j, w i * w j * Real.exp (-t * sqd (c i) (c j)) := fun t ht =>
      mul_pos (mul_pos (Real.rpow_pos_of_pos ht _) (Real.exp_pos _)) (gauss_pd w c ht hc hw)
    rw [MeasureTheory.setIntegral_pos_iff_support_of_nonneg_ae
      ((MeasureTheory.ae_restrict_iff' measurableSet_Ioi).2 (.of_forall fun t ht => (pos t ht).le))
      (invmulti_integrable w c hτ)]
    refine lt_of_lt_of_le (b := MeasureTheory.volume (Set.Ioi (0 : ℝ))) (by simp) (MeasureTheory.measure_mono fun t ht => ⟨(pos t ht).ne', ht⟩)
  exact pos_of_mul_pos_right h (Real.sqrt_nonneg _)

/-! ### Multiquadric -/

theorem sqrt_add_sub (d : ℝ) (hd : 0 ≤ d) :
    Filter.Tendsto (fun τ : ℝ => √(d + τ) - √τ) Filter.atTop (nhds 0) := by
  have h1 : Filter.Tendsto (fun τ : ℝ => d / √τ) Filter.atTop (nhds 0) :=
    Filter.Tendsto.const_div_atTop Real.tendsto_sqrt_atTop d
  refine tendsto_of_tendsto_of_tendsto_of_le_of_le' tendsto_const_nhds h1 ?_ ?_
  · filter_upwards with τ
    exact sub_nonneg.2 (Real.sqrt_le_sqrt (by linarith))
  · filter_upwards [Filter.eventually_gt_atTop 0] with τ hτ
    have hs := Real.sqrt_pos.2 hτ
    rw [le_div_iff₀ hs]
    have a := Real.sq_sqrt (show 0 ≤ d + τ by linarith)
    have b := Real.sq_sqrt hτ.le
    have c : √τ ≤ √(d + τ) := Real.sqrt_le_sqrt (by linarith)
    nlinarith [Real.sqrt_nonneg (d + τ)]

theorem multi_tendsto (w : Fin M → ℝ) (c : Fin M → Fin N → ℝ) (hw : ∑ i, w i = 0) :
    Filter.Tendsto (fun τ : ℝ => ∑ i, ∑ j, w i * w j * √(sqd (c i) (c j) + τ)) Filter.atTop (nhds 0) := by
  have e : ∀ τ : ℝ, ∑ i, ∑ j, w i * w j * √(sqd (c i) (c j) + τ) =
      ∑ i, ∑ j, w i * w j * (√(sqd (c i) (c j) + τ) - √τ) := by
    intro τ
    have : ∑ i, ∑ j, w i * w j * √τ = 0 := by
      have : ∀ i, ∑ j, w i * w j * √τ = w i * √τ * ∑ j, w j := fun i => by
        rw [Finset.mul_sum]; exact Finset.sum_congr rfl fun j _ => by ring
      simp_rw [this, hw]; simp
    simp_rw [mul_sub, Finset.sum_sub_distrib]
    rw [this, sub_zero]
  simp_rw [e]
  have z : (0 : ℝ) = ∑ i : Fin M, ∑ j : Fin M, w i * w j * 0 := by simp
  rw [z]
  exact tendsto_finsetSum _ fun i _ => tendsto_finsetSum _ fun j _ =>
    (sqrt_add_sub _ (sqd_nonneg _ _)).const_mul _

theorem multi_deriv (w : Fin M → ℝ) (c : Fin M → Fin N → ℝ) {τ : ℝ} (hτ : 0 < τ) :
    HasDerivAt (fun τ : ℝ => ∑ i, ∑ j, w i * w j * √(sqd (c i) (c j) + τ))
      (∑ i, ∑ j, w i * w j * (1 / (2 * √(sqd (c i) (c j) + τ)))) τ := by
  refine HasDerivAt.fun_sum fun i _ => HasDerivAt.fun_sum fun j _ => HasDerivAt.const_mul _ ?_
  exact ((hasDerivAt_id τ).const_add (sqd (c i) (c j))).sqrt
    (add_pos_of_nonneg_of_pos (sqd_nonneg _ _) hτ).ne'

/-- The multiquadric is negative definite on the weights of sum zero. -/
theorem multi_cnd (w : Fin M → ℝ) (c : Fin M → Fin N → ℝ) {τ : ℝ} (hτ : 0 < τ) (hc : Function.Injective c)
    (hw : w ≠ 0) (h0 : ∑ i, w i = 0) : ∑ i, ∑ j, w i * w j * √(sqd (c i) (c j) + τ) < 0 := by
  have mono : StrictMonoOn (fun τ : ℝ => ∑ i, ∑ j, w i * w j * √(sqd (c i) (c j) + τ)) (Set.Ioi 0) := by
    refine strictMonoOn_of_deriv_pos (convex_Ioi 0) (fun τ hτ => (multi_deriv w c hτ).continuousAt.continuousWithinAt) fun τ hτ => ?_
    rw [interior_Ioi] at hτ
    rw [(multi_deriv w c hτ).deriv]
    have := invmulti_pd w c hτ hc hw
    have e : ∑ i, ∑ j, w i * w j * (1 / (2 * √(sqd (c i) (c j) + τ))) =
        1 / 2 * ∑ i, ∑ j, w i * w j * (1 / √(sqd (c i) (c j) + τ)) := by
      rw [Finset.mul_sum]
      refine Finset.sum_congr rfl fun i _ => ?_
      rw [Finset.mul_sum]
      refine Finset.sum_congr rfl fun j _ => ?_
      rw [one_div, one_div, mul_inv]; ring
    rw [e]; positivity
  have h1 : τ < τ + 1 := by linarith
  have a := mono hτ (show (0:ℝ) < τ + 1 by linarith) h1
  refine lt_of_lt_of_le a ?_
  refine ge_of_tendsto (multi_tendsto w c h0) ?_
  filter_upwards [Filter.eventually_ge_atTop (τ + 1)] with σ hσ
  exact mono.monotoneOn (show (0:ℝ) < τ + 1 by linarith) (show (0:ℝ) < σ by linarith) hσ

end Pwtools.Rbf
