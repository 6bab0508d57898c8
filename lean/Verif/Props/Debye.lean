import Verif.Model.Debye
import Verif.Spec.Debye
import Mathlib.MeasureTheory.Integral.IntervalIntegral.TrapezoidalRule
/-!
# C121: Debye function and thermal expansion
-/
namespace Pwtools.Debye
open Spec MeasureTheory intervalIntegral

/-! ## The trapezoidal rule on a grid -/

theorem trapz_grid (f : ℝ → ℝ) (h : ℝ) (N : Nat) (a : ℝ) :
    Num.trapz (((List.range (N + 1)).map fun k : Nat => a + k * h).map f) ((List.range (N + 1)).map fun k : Nat => a + k * h) =
      ∑ i ∈ Finset.range N, trapezoidal_integral f 1 (a + i * h) (a + (i + 1) * h) := by
  induction N generalizing a with
  | zero => simp [Num.trapz]
  | succ N ih =>
    have e : (List.range (N + 2)).map (fun k : Nat => a + k * h) = a :: (List.range (N + 1)).map fun k : Nat => (a + h) + k * h := by
      rw [List.range_succ_eq_map, List.map_cons, List.map_map]
      congr 1
      · simp
      · apply List.map_congr_left
        intro k _
        simp only [Function.comp_apply, Nat.succ_eq_add_one, Nat.cast_add, Nat.cast_one]
        ring
    have e2 : (List.range (N + 1)).map (fun k : Nat => (a + h) + k * h) = (a + h) :: (List.range N).map fun k : Nat => (a + h) + (k + 1 : ℝ) * h := by
      rw [List.range_succ_eq_map, List.map_cons, List.map_map]
      congr 1
      · simp
      · apply List.map_congr_left
        intro k _
        simp only [Function.comp_apply, Nat.succ_eq_add_one, Nat.cast_add, Nat.cast_one]
    have ih := ih (a + h)
    rw [e]
    rw [e2] at ih ⊢
    simp only [List.map_cons, Num.trapz] at ih ⊢
    rw [ih, Finset.sum_range_succ']
    rw [add_comm]
    congr 1
    · apply Finset.sum_congr rfl
      intro i _
      push_cast
      congr 1 <;> ring
    · simp
      ring

theorem trapz_linspace (f : ℝ → ℝ) (a b : ℝ) (n : Nat) (hn : 2 ≤ n) :
    Num.trapz ((linspace a b n).map f) (linspace a b n) = trapezoidal_integral f (n - 1) a b := by
  obtain ⟨N, rfl⟩ : ∃ N, n = N + 1 := ⟨n - 1, by omega⟩
  have hN : 0 < N := by omega
  unfold linspace
  rw [trapz_grid, sum_trapezoidal_integral_adjacent_intervals hN]
  have : (N : ℝ) ≠ 0 := by positivity
  congr 1
  push_cast
  rw [add_sub_cancel_right, mul_div_cancel₀ _ this]
  ring

theorem trapz_error (f f1 f2 : ℝ → ℝ) (a b ζ : ℝ) (hab : a < b) (h1 : ∀ t ∈ Set.Icc a b, HasDerivAt f (f1 t) t)
    (h2 : ∀ t ∈ Set.Icc a b, HasDerivAt f1 (f2 t) t) (hb : ∀ t ∈ Set.Icc a b, |f2 t| ≤ ζ) (N : Nat) (hN : 0 < N) :
    |trapezoidal_integral f N a b - ∫ t in a..b, f t| ≤ (b - a) ^ 3 * ζ / (12 * N ^ 2) := by
  have hu : UniqueDiffOn ℝ (Set.Icc a b) := uniqueDiffOn_Icc hab
  have e1 : ∀ t ∈ Set.Icc a b, derivWithin f (Set.Icc a b) t = f1 t := fun t ht => (h1 t ht).hasDerivWithinAt.derivWithin (hu t ht)
  have e2 : ∀ t ∈ Set.Icc a b, derivWithin (derivWithin f (Set.Icc a b)) (Set.Icc a b) t = f2 t := fun t ht => by
    rw [derivWithin_congr e1 (e1 t ht)]
    exact (h2 t ht).hasDerivWithinAt.derivWithin (hu t ht)
  have hz : 0 ≤ ζ := (abs_nonneg _).trans (hb a ⟨le_rfl, hab.le⟩)
  have := trapezoidal_error_le (f := f) (a := a) (b := b) (ζ := ζ) (N := N) ?_ ?_ ?_ hN
  · rw [abs_of_pos (sub_pos.2 hab)] at this
    exact this
  · rw [Set.uIcc_of_lt hab]
    exact fun t ht => (h1 t ht).differentiableAt.differentiableWithinAt
  · rw [Set.uIcc_of_lt hab]
    intro t ht
    exact ((h2 t ht).differentiableAt.differentiableWithinAt).congr e1 (e1 t ht)
  · rw [Set.uIcc_of_lt hab]
    intro t
    rw [iteratedDerivWithin_eq_iterate]
    by_cases ht : t ∈ Set.Icc a b
    · show |derivWithin (derivWithin f (Set.Icc a b)) (Set.Icc a b) t| ≤ ζ
      rw [e2 t ht]
      exact hb t ht
    · show |derivWithin (derivWithin f (Set.Icc a b)) (Set.Icc a b) t| ≤ ζ
      rw [derivWithin_zero_of_notMem_closure (by rwa [closure_Icc]), abs_zero]
      exact hz

/-! ## The integrand -/

theorem exp_gt (x t : ℝ) (hx : 0 < x) (ht : 0 < t) : 0 < Real.exp (t * x) - 1 := by
  have := Real.add_one_lt_exp (mul_pos ht hx).ne'
  have := mul_pos ht hx
  linarith

theorem exp_deriv (x t : ℝ) : HasDerivAt (fun t => Real.exp (t * x) - 1) (Real.exp (t * x) * x) t := by
  have h : HasDerivAt (fun t : ℝ => t * x) x t := by simpa using (hasDerivAt_id t).mul_const x
  exact (h.exp).sub_const 1

/-- First derivative. -/
noncomputable def g1 (x t : ℝ) : ℝ := (3 * t ^ 2 * (Real.exp (t * x) - 1) - t ^ 3 * (Real.exp (t * x) * x)) / (Real.exp (t * x) - 1) ^ 2

/-- Second derivative. -/
noncomputable def g2 (x t : ℝ) : ℝ :=
  6 * t / (Real.exp (t * x) - 1) - 6 * t ^ 2 * x * Real.exp (t * x) / (Real.exp (t * x) - 1) ^ 2 -
    t ^ 3 * x ^ 2 * Real.exp (t * x) / (Real.exp (t * x) - 1) ^ 2 + 2 * t ^ 3 * x ^ 2 * Real.exp (t * x) ^ 2 / (Real.exp (t * x) - 1) ^ 3

theorem hasDeriv1 (x t : ℝ) (hx : 0 < x) (ht : 0 < t) : HasDerivAt (fun t => t ^ 3 / (Real.exp (t * x) - 1)) (g1 x t) t := by
  have h3 : HasDerivAt (fun t : ℝ => t ^ 3) (3 * t ^ 2) t := by simpa using hasDerivAt_pow 3 t
  exact h3.div (exp_deriv x t) (exp_gt x t hx ht).ne'

theorem hasDeriv2 (x t : ℝ) (hx : 0 < x) (ht : 0 < t) : HasDerivAt (g1 x) (g2 x t) t := by
  have h3 : HasDerivAt (fun t : ℝ => t ^ 3) (3 * t ^ 2) t := by simpa using hasDerivAt_pow 3 t
  have h2 : HasDerivAt (fun t : ℝ => 3 * t ^ 2) (3 * (2 * t)) t := by simpa using (hasDerivAt_pow 2 t).const_mul 3
  have he := exp_deriv x t
  have he' : HasDerivAt (fun t => Real.exp (t * x) * x) (Real.exp (t * x) * x * x) t := by
    have h : HasDerivAt (fun t : ℝ => t * x) x t := by simpa using (hasDerivAt_id t).mul_const x
    exact h.exp.mul_const x
  have hpos := (exp_gt x t hx ht).ne'
  have := (((h2.mul he).sub (h3.mul he')).div (he.pow 2) (pow_ne_zero 2 hpos))
  refine this.congr_deriv ?_
  unfold g2
  simp only [Pi.mul_apply, Pi.sub_apply, Pi.pow_apply]
  field_simp
  ring

theorem g2_bound (x t : ℝ) (hx : 0 < x) (ht : 0 < t) : |g2 x t| ≤ 16 / x := by
  have hu : 0 < t * x := mul_pos ht hx
  set u := t * x with hudef
  set E := Real.exp u with hE
  have hE1 : 0 < E - 1 := exp_gt x t hx ht
  have hsum : u + u ^ 2 / 2 + u ^ 3 / 6 ≤ E - 1 := by
    have := Real.sum_le_exp_of_nonneg hu.le 4
    simp [Finset.sum_range_succ, Nat.factorial] at this
    linarith
  set h := u / (E - 1) with hh
  have h0 : 0 ≤ h := by positivity
  have h1 : h ≤ 1 := by
    rw [hh, div_le_one hE1]
    nlinarith [sq_nonneg u, pow_pos hu 3]
  have huh : u * h ≤ 2 := by
    rw [hh, mul_div_assoc', div_le_iff₀ hE1]
    nlinarith [sq_nonneg u, pow_pos hu 3]
  have huuh : u ^ 2 * h ≤ 6 := by
    rw [hh, mul_div_assoc', div_le_iff₀ hE1]
    nlinarith [sq_nonneg u, pow_pos hu 3]
  have e : g2 x t = (6 * h - 6 * h ^ 2 - 6 * (u * h) + 2 * h ^ 3 + 3 * (u * h) * h + u ^ 2 * h) / x := by
    unfold g2
    rw [← hudef, ← hE, hh, hudef]
    field_simp
    ring
  rw [e, abs_div, abs_of_pos hx]
  apply div_le_div_of_nonneg_right _ hx.le
  have p1 : 0 ≤ u * h := by positivity
  have p2 : 0 ≤ u ^ 2 * h := by positivity
  have p3 : 0 ≤ h * (1 - h) := mul_nonneg h0 (by linarith)
  have p4 : h * (1 - h) ≤ 1 / 4 := by nlinarith [sq_nonneg (h - 1 / 2)]
  have p5 : h ^ 3 ≤ 1 := pow_le_one₀ h0 h1
  have p6 : 0 ≤ h ^ 3 := by positivity
  have p7 : (u * h) * h ≤ 2 := by nlinarith
  have p8 : 0 ≤ (u * h) * h := by positivity
  rw [abs_le]
  constructor <;> nlinarith

/-! ## The integral near zero -/

theorem integrand_bounds (x t : ℝ) (hx : 0 < x) (ht : 0 ≤ t) :
    0 ≤ t ^ 3 / (Real.exp (t * x) - 1) ∧ t ^ 3 / (Real.exp (t * x) - 1) ≤ t ^ 2 / x ∧ t ^ 2 / x * Real.exp (-(t * x)) ≤ t ^ 3 / (Real.exp (t * x) - 1) := by
  rcases ht.eq_or_lt with rfl | ht
  · simp
  · have hE := exp_gt x t hx ht
    have hu := mul_pos ht hx
    refine ⟨by positivity, ?_, ?_⟩
    · rw [div_le_div_iff₀ hE hx]
      have := Real.add_one_le_exp (t * x)
      nlinarith [pow_pos ht 2]
    · rw [div_mul_eq_mul_div, div_le_div_iff₀ hx hE]
      have h1 := Real.add_one_le_exp (-(t * x))
      have h2 : Real.exp (-(t * x)) * Real.exp (t * x) = 1 := by rw [← Real.exp_add]; simp
      have h3 : Real.exp (-(t * x)) * (Real.exp (t * x) - 1) ≤ t * x := by
        rw [mul_sub, h2]
        linarith
      calc t ^ 2 * Real.exp (-(t * x)) * (Real.exp (t * x) - 1) = t ^ 2 * (Real.exp (-(t * x)) * (Real.exp (t * x) - 1)) := by ring
        _ ≤ t ^ 2 * (t * x) := by gcongr
        _ = t ^ 3 * x := by ring

theorem integrand_int (x a b : ℝ) (hx : 0 < x) (ha : 0 ≤ a) (hab : a ≤ b) :
    IntervalIntegrable (fun t => t ^ 3 / (Real.exp (t * x) - 1)) volume a b := by
  have hg : IntervalIntegrable (fun t : ℝ => t ^ 2 / x) volume a b := (by fun_prop : Continuous fun t : ℝ => t ^ 2 / x).intervalIntegrable a b
  refine hg.mono_fun (by
    apply Measurable.aestronglyMeasurable
    fun_prop) ?_
  rw [Filter.EventuallyLE, ae_restrict_iff' measurableSet_uIoc]
  filter_upwards with t ht
  rw [Set.uIoc_of_le hab] at ht
  have ht0 : 0 ≤ t := ha.trans ht.1.le
  have hb := integrand_bounds x t hx ht0
  rw [Real.norm_of_nonneg hb.1, Real.norm_of_nonneg (by positivity)]
  exact hb.2.1

/-- **C121** The Debye function: the difference to the integral is at most `4 / (x (nstep-1)^2) + zero^3 / x`. -/
theorem C121_debye (nstep : Nat) (zero x : ℝ) (hn : 2 ≤ nstep) (hz : 0 < zero) (hz1 : zero < 1) (hx : 0 < x) :
    |debyeFunc nstep zero x - debye x| ≤ 4 / (x * ((nstep : ℝ) - 1) ^ 2) + zero ^ 3 / x := by
  set f : ℝ → ℝ := fun t => t ^ 3 / (Real.exp (t * x) - 1) with hf
  have hd : debyeFunc nstep zero x = 3 * trapezoidal_integral f (nstep - 1) zero 1 := by
    unfold debyeFunc
    simp only
    rw [trapz_linspace f zero 1 nstep hn]
  have hN : (((nstep - 1 : Nat) : Nat) : ℝ) = (nstep : ℝ) - 1 := by
    rw [Nat.cast_sub (by omega)]
    simp
  have herr := trapz_error f (g1 x) (g2 x) zero 1 (16 / x) hz1 (fun t ht => hasDeriv1 x t hx (hz.trans_le ht.1)) (fun t ht => hasDeriv2 x t hx (hz.trans_le ht.1))
    (fun t ht => g2_bound x t hx (hz.trans_le ht.1)) (nstep - 1) (by omega)
  rw [hN] at herr
  have hsplit : debye x = 3 * ((∫ t in (0:ℝ)..zero, f t) + ∫ t in zero..1, f t) := by
    unfold debye
    rw [integral_add_adjacent_intervals (integrand_int x 0 zero hx le_rfl hz.le) (integrand_int x zero 1 hx hz.le hz1.le)]
  have hi0 : 0 ≤ ∫ t in (0:ℝ)..zero, f t := integral_nonneg hz.le fun t ht => (integrand_bounds x t hx ht.1).1
  have hi1 : (∫ t in (0:ℝ)..zero, f t) ≤ zero ^ 3 / (3 * x) := by
    have : (∫ t in (0:ℝ)..zero, t ^ 2 / x) = zero ^ 3 / (3 * x) := by
      rw [intervalIntegral.integral_div, integral_pow]
      norm_num
      field_simp
    rw [← this]
    exact integral_mono_on hz.le (integrand_int x 0 zero hx le_rfl hz.le) ((by fun_prop : Continuous fun t : ℝ => t ^ 2 / x).intervalIntegrable 0 zero)
      fun t ht => (integrand_bounds x t hx ht.1).2.1
  have hM : 0 < (nstep : ℝ) - 1 := by
    have : (2 : ℝ) ≤ nstep := by exact_mod_cast hn
    linarith
  have hz3 : (1 - zero) ^ 3 ≤ 1 := pow_le_one₀ (by linarith) (by linarith)
  have hb : (1 - zero) ^ 3 * (16 / x) / (12 * ((nstep : ℝ) - 1) ^ 2) ≤ 4 / (3 * (x * ((nstep : ℝ) - 1) ^ 2)) := by
    rw [show 4 / (3 * (x * ((nstep : ℝ) - 1) ^ 2)) = 1 * (16 / x) / (12 * ((nstep : ℝ) - 1) ^ 2) by field_simp; norm_num]
    gcongr
  have hab := abs_le.1 (herr.trans hb)
  rw [hd, hsplit]
  have e1 : 3 * (zero ^ 3 / (3 * x)) = zero ^ 3 / x := by field_simp
  have e2 : 3 * (4 / (3 * (x * ((nstep : ℝ) - 1) ^ 2))) = 4 / (x * ((nstep : ℝ) - 1) ^ 2) := by field_simp
  have hp : 0 ≤ zero ^ 3 / x := by positivity
  rw [abs_le, ← e1, ← e2]
  constructor <;> nlinarith [hab.1, hab.2]

/-- Bounds of the Debye function. -/
theorem debye_bounds (x : ℝ) (hx : 0 < x) : Real.exp (-x) ≤ x * debye x ∧ x * debye x ≤ 1 := by
  have e : (∫ t in (0:ℝ)..1, t ^ 2 / x) = 1 / (3 * x) := by
    rw [intervalIntegral.integral_div, integral_pow]
    norm_num
    field_simp
  have hc : IntervalIntegrable (fun t : ℝ => t ^ 2 / x) volume 0 1 := (by fun_prop : Continuous fun t : ℝ => t ^ 2 / x).intervalIntegrable 0 1
  unfold debye
  constructor
  · have hc2 : IntervalIntegrable (fun t : ℝ => t ^ 2 / x * Real.exp (-x)) volume 0 1 :=
      (by fun_prop : Continuous fun t : ℝ => t ^ 2 / x * Real.exp (-x)).intervalIntegrable 0 1
    have h := integral_mono_on (zero_le_one) hc2 (integrand_int x 0 1 hx le_rfl zero_le_one) fun t ht => by
      refine le_trans ?_ (integrand_bounds x t hx ht.1).2.2
      have : Real.exp (-x) ≤ Real.exp (-(t * x)) := by
        apply Real.exp_le_exp.2
        nlinarith [ht.2]
      have : 0 ≤ t ^ 2 / x := by positivity
      gcongr
    rw [intervalIntegral.integral_mul_const, e] at h
    have h2 := mul_le_mul_of_nonneg_left h (show 0 ≤ x * 3 by positivity)
    rw [show x * 3 * (1 / (3 * x) * Real.exp (-x)) = Real.exp (-x) by field_simp] at h2
    linarith
  · have h := integral_mono_on (zero_le_one) (integrand_int x 0 1 hx le_rfl zero_le_one) hc fun t ht => (integrand_bounds x t hx ht.1).2.1
    rw [e] at h
    have h2 := mul_le_mul_of_nonneg_left h (show 0 ≤ x * 3 by positivity)
    rw [show x * 3 * (1 / (3 * x)) = 1 by field_simp] at h2
    linarith

theorem einstein_bounds (x : ℝ) (hx : 0 < x) : Real.exp (-x) ≤ x * einsteinFunc x ∧ x * einsteinFunc x ≤ 1 := by
  have hE : 0 < Real.exp x - 1 := by simpa using exp_gt x 1 hx one_pos
  have h := integrand_bounds x 1 hx zero_le_one
  simp only [one_pow, one_mul] at h
  unfold einsteinFunc
  constructor
  · have h2 := mul_le_mul_of_nonneg_left h.2.2 hx.le
    rw [show x * (1 / x * Real.exp (-x)) = Real.exp (-x) by field_simp] at h2
    exact h2
  · have h2 := mul_le_mul_of_nonneg_left h.2.1 hx.le
    rw [show x * (1 / x) = 1 by field_simp] at h2
    exact h2

theorem expansion_eq (func : ℝ → ℝ) (T alpha theta x0 : ℝ) (hT : 0 < T) :
    expansion func T alpha theta x0 - x0 = x0 * alpha * T * ((theta / T) * func (theta / T)) := by
  unfold expansion
  field_simp
  ring

/-- **C121** Thermal expansion of the Einstein model: `(x(T) - x0) / (x0 T)` differs from `alpha` by at most `|alpha| (1 - exp(-theta/T))`: at high
temperature the slope is `alpha`, at low temperature the length is `x0`. -/
theorem C121_expansion_einstein (T alpha theta x0 : ℝ) (hT : 0 < T) (hth : 0 < theta) :
    |(expansion einsteinFunc T alpha theta x0 - x0) - x0 * alpha * T| ≤ |x0 * alpha * T| * (1 - Real.exp (-(theta / T))) := by
  have hb := einstein_bounds (theta / T) (div_pos hth hT)
  rw [expansion_eq _ _ _ _ _ hT, show x0 * alpha * T * (theta / T * einsteinFunc (theta / T)) - x0 * alpha * T =
    x0 * alpha * T * (theta / T * einsteinFunc (theta / T) - 1) by ring, abs_mul]
  apply mul_le_mul_of_nonneg_left _ (abs_nonneg _)
  rw [abs_le]
  constructor <;> linarith [hb.1, hb.2]

/-- **C121** Thermal expansion of the Debye model, with the error of the numerical integration. -/
theorem C121_expansion_debye (nstep : Nat) (zero T alpha theta x0 : ℝ) (hn : 2 ≤ nstep) (hz : 0 < zero) (hz1 : zero < 1) (hT : 0 < T) (hth : 0 < theta) :
    |(expansion (debyeFunc nstep zero) T alpha theta x0 - x0) - x0 * alpha * T| ≤
      |x0 * alpha * T| * (1 - Real.exp (-(theta / T)) + 4 / ((nstep : ℝ) - 1) ^ 2 + zero ^ 3) := by
  have hu := div_pos hth hT
  have hb := debye_bounds (theta / T) hu
  have he := C121_debye nstep zero (theta / T) hn hz hz1 hu
  have hM : 0 < (nstep : ℝ) - 1 := by
    have : (2 : ℝ) ≤ nstep := by exact_mod_cast hn
    linarith
  rw [expansion_eq _ _ _ _ _ hT, show x0 * alpha * T * (theta / T * debyeFunc nstep zero (theta / T)) - x0 * alpha * T =
    x0 * alpha * T * (theta / T * debyeFunc nstep zero (theta / T) - 1) by ring, abs_mul]
  apply mul_le_mul_of_nonneg_left _ (abs_nonneg _)
  set u := theta / T
  have h2 : |u * debyeFunc nstep zero u - u * debye u| ≤ 4 / ((nstep : ℝ) - 1) ^ 2 + zero ^ 3 := by
    rw [← mul_sub, abs_mul, abs_of_pos hu]
    have := mul_le_mul_of_nonneg_left he hu.le
    rwa [show u * (4 / (u * ((nstep : ℝ) - 1) ^ 2) + zero ^ 3 / u) = 4 / ((nstep : ℝ) - 1) ^ 2 + zero ^ 3 by field_simp] at this
  rw [abs_le] at h2 ⊢
  constructor <;> linarith [hb.1, hb.2, h2.1, h2.2]

/-- Non-vacuity: with the defaults the error is at most 5e-4. -/
example : |debyeFunc 100 (1 / 10 ^ 8) 1 - debye 1| ≤ 5 / 10 ^ 4 := by
  refine (C121_debye 100 (1 / 10 ^ 8) 1 (by norm_num) (by norm_num) (by norm_num) one_pos).trans ?_
  norm_num

end Pwtools.Debye
