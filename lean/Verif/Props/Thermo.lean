import Verif.Model.Thermo
import Verif.Spec.Thermo
import Verif.Props.Num2
import Mathlib.Tactic.FieldSimp
import Mathlib.Analysis.Calculus.Deriv.Slope
import Mathlib.Tactic.LinearCombination
/-!
# C66, C67: harmonic thermodynamics
-/
namespace Pwtools.Thermo
open Spec

theorem quad_add {I J : List ℝ → List ℝ → ℝ} {x : List ℝ}
    (hI : ∃ w : Nat → ℝ, ∀ y : List ℝ, y.length = x.length → I y x = ∑ i ∈ Finset.range x.length, w i * y.getD i 0)
    (hJ : ∃ w : Nat → ℝ, ∀ y : List ℝ, y.length = x.length → J y x = ∑ i ∈ Finset.range x.length, w i * y.getD i 0) (a b : ℝ) :
    ∃ w : Nat → ℝ, ∀ y : List ℝ, y.length = x.length → a * I y x + b * J y x = ∑ i ∈ Finset.range x.length, w i * y.getD i 0 := by
  obtain ⟨u, hu⟩ := hI
  obtain ⟨v, hv⟩ := hJ
  refine ⟨fun i => a * u i + b * v i, fun y hy => ?_⟩
  rw [hu y hy, hv y hy, Finset.mul_sum, Finset.mul_sum, ← Finset.sum_add_distrib]
  apply Finset.sum_congr rfl
  intro i _; ring

theorem trapz_quad : IsQuadrature (Num.trapz (K := ℝ)) := by
  intro x
  induction x with
  | nil => exact ⟨fun _ => 0, fun y hy => by simp at hy; subst hy; simp [Num.trapz]⟩
  | cons x0 xs ih =>
    obtain ⟨w, hw⟩ := ih
    cases xs with
    | nil => exact ⟨fun _ => 0, fun y hy => by
        rcases y with _ | ⟨y0, _ | ⟨y1, ys⟩⟩ <;> simp [Num.trapz] at *⟩
    | cons x1 xs =>
      refine ⟨fun i => (match i with | 0 => (x1 - x0) / 2 | 1 => (x1 - x0) / 2 + w 0 | (i + 2) => w (i + 1)), fun y hy => ?_⟩
      rcases y with _ | ⟨y0, _ | ⟨y1, ys⟩⟩
      · simp at hy
      · simp at hy
      · rw [Num.trapz, hw (y1 :: ys) (by simpa using hy)]
        simp only [List.length_cons]
        rw [Finset.sum_range_succ' _ (xs.length + 1), Finset.sum_range_succ' _ xs.length, Finset.sum_range_succ' _ xs.length]
        simp only [List.getD_cons_zero, List.getD_cons_succ]
        ring

/-- Derivative under the integral sign. -/
theorem quad_deriv {integ : List ℝ → List ℝ → ℝ} (hI : IsQuadrature integ) (f dos : List ℝ) (hl : f.length = dos.length)
    (φ : ℝ → ℝ → ℝ → ℝ) (φ' : ℝ → ℝ → ℝ) (T : ℝ)
    (h : ∀ x ∈ f, ∀ d, HasDerivAt (fun T => φ T d x) (φ' d x) T) :
    HasDerivAt (fun T => integ (List.zipWith (φ T) dos f) f) (integ (List.zipWith φ' dos f) f) T := by
  obtain ⟨w, hw⟩ := hI f
  have e : ∀ g : ℝ → ℝ → ℝ, integ (List.zipWith g dos f) f =
      ∑ i ∈ Finset.range f.length, w i * g (dos.getD i 0) (f.getD i 0) := by
    intro g
    rw [hw _ (by simp [hl])]
    apply Finset.sum_congr rfl
    intro i hi
    have hi := Finset.mem_range.1 hi
    have hi2 : i < dos.length := by omega
    simp [List.getD_eq_getElem?_getD, hi, hi2]
  simp only [e]
  apply HasDerivAt.fun_sum
  intro i hi
  have hi := Finset.mem_range.1 hi
  apply HasDerivAt.const_mul
  apply h
  simp [List.getD_eq_getElem?_getD, hi]

/-- Linear combination under the integral sign. -/
theorem quad_lin {integ : List ℝ → List ℝ → ℝ} (hI : IsQuadrature integ) (f dos : List ℝ) (hl : f.length = dos.length)
    (g g1 g2 : ℝ → ℝ → ℝ) (a b : ℝ) (h : ∀ x ∈ f, ∀ d, g d x = a * g1 d x + b * g2 d x) :
    integ (List.zipWith g dos f) f = a * integ (List.zipWith g1 dos f) f + b * integ (List.zipWith g2 dos f) f := by
  obtain ⟨w, hw⟩ := hI f
  have e : ∀ g : ℝ → ℝ → ℝ, integ (List.zipWith g dos f) f =
      ∑ i ∈ Finset.range f.length, w i * g (dos.getD i 0) (f.getD i 0) := by
    intro g
    rw [hw _ (by simp [hl])]
    apply Finset.sum_congr rfl
    intro i hi
    have hi := Finset.mem_range.1 hi
    have hi2 : i < dos.length := by omega
    simp [List.getD_eq_getElem?_getD, hi, hi2]
  rw [e, e, e, Finset.mul_sum, Finset.mul_sum, ← Finset.sum_add_distrib]
  apply Finset.sum_congr rfl
  intro i hi
  have hi := Finset.mem_range.1 hi
  rw [h _ (by simp [List.getD_eq_getElem?_getD, hi])]
  ring

theorem sinh_pos {x : ℝ} (h : 0 < x) : 0 < Real.sinh x := Real.sinh_pos_iff.2 h

theorem coth_eq {x : ℝ} (h : 0 < x) : 1 / 2 * coth (x / 2) = 1 / 2 + 1 / (Real.exp x - 1) := by
  have h1 : 0 < Real.sinh (x / 2) := sinh_pos (by linarith)
  have h2 : 0 < Real.cosh (x / 2) := Real.cosh_pos _
  have h3 : 1 < Real.exp x := Real.one_lt_exp_iff.2 h
  unfold coth
  rw [Real.tanh_eq_sinh_div_cosh, one_div_div]
  rw [Real.sinh_eq, Real.cosh_eq, Real.exp_neg]
  have e : Real.exp x = Real.exp (x / 2) ^ 2 := by rw [← Real.exp_nat_mul]; congr 1; push_cast; ring
  have hE := Real.exp_pos (x / 2)
  rw [e] at h3 ⊢
  set E := Real.exp (x / 2)
  have h4 : E ^ 2 - 1 ≠ 0 := by linarith
  have h5 : E - E⁻¹ ≠ 0 := by
    intro h0
    apply h4
    have : E * (E - E⁻¹) = 0 := by rw [h0, mul_zero]
    rw [mul_sub, mul_inv_cancel₀ hE.ne'] at this
    linarith
  field_simp
  ring

/-- The entropy of one mode is positive. -/
theorem svib_term_pos {x : ℝ} (h : 0 < x) : 0 < x * coth x - Real.log (2 * Real.sinh x) := by
  have h1 := sinh_pos h
  have h2 : 1 < coth x := by
    unfold coth
    rw [Real.tanh_eq_sinh_div_cosh, one_div_div, lt_div_iff₀ h1, one_mul]
    exact Real.sinh_lt_cosh x
  have h3 : Real.log (2 * Real.sinh x) < x := by
    rw [Real.log_lt_iff_lt_exp (by positivity), Real.sinh_eq]
    have := Real.exp_pos (-x)
    linarith
  nlinarith

section
variable (c : Const) (integ : List ℝ → List ℝ → ℝ) (f dos : List ℝ)

/-- **C66** (E = F + T S). For positive frequencies and `T > 0`: `evib` (eV) is `fvib` (eV) plus `T` times
`svib` (in units of kb) times kb (in eV). -/
theorem C66_energy (hh : 0 < c.h) (hk : 0 < c.kb) (he : c.eV ≠ 0) (hI : IsQuadrature integ)
    (hl : f.length = dos.length) (hf : ∀ x ∈ f, 0 < x) (T : ℝ) (hT : 0 < T) :
    evib c integ f dos T = fvib c integ f dos T + T * (svib c integ f dos T * (c.kb / c.eV)) := by
  unfold evib fvib svib
  rw [quad_lin hI f dos hl (fun d f => d * (1 / 2 / T * (c.h / c.kb) * f * coth (arg c T f / 2) -
    Real.log (2 * Real.sinh (arg c T f / 2)))) (fun d f => d * f * (1 / 2 + 1 / (Real.exp (arg c T f) - 1)))
    (fun d f => d * Real.log (2 * Real.sinh (arg c T f / 2))) (c.h / (c.kb * T)) (-1)]
  · field_simp
    ring
  · intro x hx d
    have := coth_eq (x := arg c T x) (by unfold arg; have := hf x hx; positivity)
    rw [← this]
    field_simp
    ring

/-- **C66** (S = -dF/dT), in units of eV/K. -/
theorem C66_entropy (hh : 0 < c.h) (hk : 0 < c.kb) (hI : IsQuadrature integ)
    (hl : f.length = dos.length) (hf : ∀ x ∈ f, 0 < x) (T : ℝ) (hT : 0 < T) :
    HasDerivAt (fvib c integ f dos) (-(svib c integ f dos T * (c.kb / c.eV))) T := by
  have key : HasDerivAt (fun T => integ (List.zipWith (fun d f => d * Real.log (2 * Real.sinh (arg c T f / 2))) dos f) f)
      (integ (List.zipWith (fun d f => d * (-(1 / 2 / T ^ 2 * (c.h / c.kb) * f * coth (arg c T f / 2)))) dos f) f) T := by
    apply quad_deriv hI f dos hl (fun T d f => d * Real.log (2 * Real.sinh (arg c T f / 2)))
    intro x hx d
    have hx := hf x hx
    apply HasDerivAt.const_mul
    have ha : 0 < arg c T x / 2 := by unfold arg; positivity
    have h1 : HasDerivAt (fun T => arg c T x / 2) (-(c.h * x / (c.kb * T ^ 2)) / 2) T := by
      have := (((hasDerivAt_inv hT.ne').const_mul (c.h * x / c.kb)).div_const 2)
      have e : (fun y : ℝ => c.h * x / c.kb * y⁻¹ / 2) = fun T => arg c T x / 2 := by
        funext y; unfold arg; rw [div_mul_eq_mul_div, ← div_eq_mul_inv, div_right_comm, div_div (c.h * x)]
        ring_nf
      rw [← e]
      refine this.congr_deriv ?_
      field_simp
    have h2 := ((h1.sinh).const_mul 2).log (by have := sinh_pos ha; positivity)
    refine h2.congr_deriv ?_
    have := sinh_pos ha
    unfold coth
    rw [Real.tanh_eq_sinh_div_cosh]
    field_simp
  have h3 := (key.mul (hasDerivAt_id T)).mul_const (c.kb / c.eV)
  have e : fvib c integ f dos = fun y => (integ (List.zipWith (fun d f => d * Real.log (2 * Real.sinh (arg c y f / 2))) dos f) f) * id y * (c.kb / c.eV) := rfl
  rw [e]
  refine h3.congr_deriv ?_
  unfold svib
  rw [quad_lin hI f dos hl (fun d f => d * (1 / 2 / T * (c.h / c.kb) * f * coth (arg c T f / 2) -
    Real.log (2 * Real.sinh (arg c T f / 2))))
    (fun d f => d * (-(1 / 2 / T ^ 2 * (c.h / c.kb) * f * coth (arg c T f / 2))))
    (fun d f => d * Real.log (2 * Real.sinh (arg c T f / 2))) (-T) (-1)]
  · simp only [id]; ring
  · intro x hx d
    field_simp
    ring

/-- **C66** (Cv = dE/dT), in units of eV/K. -/
theorem C66_cv (hh : 0 < c.h) (hk : 0 < c.kb) (hI : IsQuadrature integ)
    (hl : f.length = dos.length) (hf : ∀ x ∈ f, 0 < x) (T : ℝ) (hT : 0 < T) :
    HasDerivAt (evib c integ f dos) (cv c integ f dos T * (c.kb / c.eV)) T := by
  have key : HasDerivAt (fun T => integ (List.zipWith (fun d f => d * f * (1 / 2 + 1 / (Real.exp (arg c T f) - 1))) dos f) f)
      (integ (List.zipWith (fun d f => (c.h / (c.kb * T ^ 2)) / 4 * (d * f ^ 2 / Real.sinh (arg c T f / 2) ^ 2)) dos f) f) T := by
    apply quad_deriv hI f dos hl (fun T d f => d * f * (1 / 2 + 1 / (Real.exp (arg c T f) - 1)))
    intro x hx d
    have hx := hf x hx
    have ha : 0 < arg c T x := by unfold arg; positivity
    have h1 : HasDerivAt (fun T => arg c T x) (-(c.h * x / (c.kb * T ^ 2))) T := by
      have := ((hasDerivAt_inv hT.ne').const_mul (c.h * x / c.kb))
      have e : (fun y : ℝ => c.h * x / c.kb * y⁻¹) = fun T => arg c T x := by
        funext y; unfold arg; rw [← div_eq_mul_inv, div_div (c.h * x)]
      rw [← e]
      refine this.congr_deriv ?_
      field_simp
    have h3 : 1 < Real.exp (arg c T x) := Real.one_lt_exp_iff.2 ha
    have h2 := ((((h1.exp).sub_const 1).inv (by linarith)).const_add (1 / 2)).const_mul (d * x)
    have e : (fun T => d * x * (1 / 2 + 1 / (Real.exp (arg c T x) - 1))) =
        fun y => d * x * (1 / 2 + (Real.exp (arg c y x) - 1)⁻¹) := by
      funext y; rw [one_div (Real.exp _ - 1)]
    rw [e]
    refine h2.congr_deriv ?_
    have hs : Real.sinh (arg c T x / 2) ^ 2 * (4 * Real.exp (arg c T x)) = (Real.exp (arg c T x) - 1) ^ 2 := by
      rw [Real.sinh_eq, Real.exp_neg]
      have e : Real.exp (arg c T x) = Real.exp (arg c T x / 2) ^ 2 := by rw [← Real.exp_nat_mul]; congr 1; push_cast; ring
      have := Real.exp_pos (arg c T x / 2)
      rw [e]
      field_simp
      ring
    have hE := Real.exp_pos (arg c T x)
    have h5 : (Real.exp (arg c T x) - 1) ≠ 0 := by linarith
    have hs2 : Real.sinh (arg c T x / 2) ^ 2 = (Real.exp (arg c T x) - 1) ^ 2 / (4 * Real.exp (arg c T x)) := by
      rw [← hs]; field_simp
    rw [hs2]
    field_simp
  have h3 := key.mul_const (c.h / c.eV)
  refine h3.congr_deriv ?_
  unfold cv
  rw [quad_lin hI f dos hl (fun d f => (c.h / (c.kb * T ^ 2)) / 4 * (d * f ^ 2 / Real.sinh (arg c T f / 2) ^ 2))
    (fun d f => d * f ^ 2 / Real.sinh (arg c T f / 2) ^ 2) (fun _ _ => 0) (c.h / (c.kb * T ^ 2) / 4) 0]
  · field_simp; ring
  · intro x hx d; ring

theorem zipWith_quad (hI : IsQuadrature integ) (hl : f.length = dos.length) :
    ∃ w : Nat → ℝ, ∀ g : ℝ → ℝ → ℝ, integ (List.zipWith g dos f) f =
      ∑ i ∈ Finset.range f.length, w i * g (dos.getD i 0) (f.getD i 0) := by
  obtain ⟨w, hw⟩ := hI f
  refine ⟨w, fun g => ?_⟩
  rw [hw _ (by simp [hl])]
  apply Finset.sum_congr rfl
  intro i hi
  have hi := Finset.mem_range.1 hi
  have hi2 : i < dos.length := by omega
  simp [List.getD_eq_getElem?_getD, hi, hi2]

/-- **C66** (high temperatures, Dulong-Petit). For `T → ∞` the heat capacity tends to the integral of the
dos. -/
theorem C66_high_temperature (hh : 0 < c.h) (hk : 0 < c.kb) (hI : IsQuadrature integ)
    (hl : f.length = dos.length) (hf : ∀ x ∈ f, 0 < x) :
    Filter.Tendsto (cv c integ f dos) Filter.atTop (nhds (integ dos f)) := by
  obtain ⟨w, hw⟩ := zipWith_quad integ f dos hI hl
  have e0 : integ dos f = ∑ i ∈ Finset.range f.length, w i * dos.getD i 0 := by
    have := hw (fun d _ => d)
    rw [← this]
    congr 1
    apply List.ext_getElem <;> simp [hl]
  have e1 : cv c integ f dos = fun T => ∑ i ∈ Finset.range f.length, w i * (dos.getD i 0 *
      ((arg c T (f.getD i 0) / 2) / Real.sinh (arg c T (f.getD i 0) / 2)) ^ 2) := by
    funext T
    unfold cv
    rw [hw (fun d f => d * f ^ 2 / Real.sinh (arg c T f / 2) ^ 2), Finset.sum_mul]
    apply Finset.sum_congr rfl
    intro i _
    rw [div_pow (arg c T (f.getD i 0) / 2) (Real.sinh _), div_eq_mul_inv, div_eq_mul_inv ((arg c T (f.getD i 0) / 2) ^ 2)]
    have : (arg c T (f.getD i 0) / 2) ^ 2 = (f.getD i 0) ^ 2 * (c.h / (c.kb * 2 * T)) ^ 2 := by
      unfold arg; rw [← mul_pow]; congr 1
      rw [mul_div_assoc' , div_div, mul_comm (f.getD i 0)]
      congr 1; ring
    rw [this]; ring
  rw [e0, e1]
  apply tendsto_finsetSum
  intro i hi
  have hi := Finset.mem_range.1 hi
  apply Filter.Tendsto.const_mul
  have hx : 0 < f.getD i 0 := hf _ (by simp [List.getD_eq_getElem?_getD, hi])
  have t1 : Filter.Tendsto (fun T => arg c T (f.getD i 0) / 2) Filter.atTop (nhdsWithin 0 {0}ᶜ) := by
    rw [tendsto_nhdsWithin_iff]
    constructor
    · have : (fun T => arg c T (f.getD i 0) / 2) = fun T => (c.h * f.getD i 0 / c.kb / 2) / T := by
        funext T; unfold arg; rw [div_div, div_div, div_div]; congr 1; ring
      rw [this]
      exact Filter.Tendsto.div_atTop tendsto_const_nhds Filter.tendsto_id
    · filter_upwards [Filter.eventually_gt_atTop 0] with T hT
      have : 0 < arg c T (f.getD i 0) / 2 := by unfold arg; positivity
      simpa using this.ne'
  have t2 : Filter.Tendsto (fun x : ℝ => x⁻¹ * Real.sinh x) (nhdsWithin 0 {0}ᶜ) (nhds 1) := by
    have := (hasDerivAt_iff_tendsto_slope_zero.1 (Real.hasDerivAt_sinh 0))
    simpa using this
  have t3 := ((t2.comp t1).inv₀ one_ne_zero).pow 2
  have := t3.const_mul (dos.getD i 0)
  simp only [inv_one, one_pow, mul_one] at this
  refine this.congr (fun T => ?_)
  simp only [Function.comp, mul_inv, inv_inv, div_eq_mul_inv]

/-- **C66** (signs). With a rule with non-negative weights (the trapezoidal rule on an increasing axis) and a
non-negative dos the entropy and the heat capacity are not negative. -/
theorem C66_nonneg (hh : 0 < c.h) (hk : 0 < c.kb) (hl : f.length = dos.length) (hf : ∀ x ∈ f, 0 < x)
    (hd : ∀ x ∈ dos, 0 ≤ x) (hpos : ∀ y : List ℝ, y.length = f.length → (∀ v ∈ y, 0 ≤ v) → 0 ≤ integ y f) (T : ℝ) (hT : 0 < T) :
    0 ≤ svib c integ f dos T ∧ 0 ≤ cv c integ f dos T := by
  have mem : ∀ (g : ℝ → ℝ → ℝ), (∀ d ∈ dos, ∀ x ∈ f, 0 ≤ g d x) → ∀ v ∈ List.zipWith g dos f, 0 ≤ v := by
    intro g hg v hv
    rw [← List.map_uncurry_zip_eq_zipWith] at hv
    obtain ⟨p, hp, rfl⟩ := List.mem_map.1 hv
    exact hg _ (List.of_mem_zip hp).1 _ (List.of_mem_zip hp).2
  constructor
  · apply hpos _ (by simp [hl])
    apply mem
    intro d hd' x hx
    have hx := hf x hx
    have := svib_term_pos (x := arg c T x / 2) (by unfold arg; positivity)
    apply mul_nonneg (hd d hd')
    have e : 1 / 2 / T * (c.h / c.kb) * x = arg c T x / 2 := by unfold arg; field_simp
    rw [e]
    exact this.le
  · apply mul_nonneg _ (by positivity)
    apply hpos _ (by simp [hl])
    apply mem
    intro d hd' x hx
    have := hd d hd'
    positivity

theorem trapz_nonneg (y x : List ℝ) (hy : ∀ v ∈ y, 0 ≤ v) (hx : x.Pairwise (· ≤ ·)) : 0 ≤ Num.trapz y x := by
  induction y generalizing x with
  | nil => simp [Num.trapz]
  | cons y0 y ih =>
    rcases y with _ | ⟨y1, y⟩
    · simp [Num.trapz]
    rcases x with _ | ⟨x0, _ | ⟨x1, x⟩⟩
    · simp [Num.trapz]
    · simp [Num.trapz]
    · rw [Num.trapz]
      have h1 := ih (x1 :: x) (fun v hv => hy v (List.mem_cons_of_mem _ hv)) (List.Pairwise.of_cons hx)
      have h2 : x0 ≤ x1 := List.rel_of_pairwise_cons hx (List.mem_cons_self ..)
      have h3 := hy y0 (by simp)
      have h4 := hy y1 (by simp)
      have h5 : 0 ≤ x1 - x0 := by linarith
      positivity

/-- **C66** (arguments). A `temp` argument is used instead of the temperatures of the object; without any
temperatures the methods raise; the result belongs to the temperatures one by one. -/
theorem C66_temperatures (q : ℝ → ℝ) (selfT : Option (List ℝ)) (t : List ℝ) :
    onTemps q selfT (some t) = some (t.map q) ∧ onTemps q (some t) none = some (t.map q) ∧ onTemps q none none = none :=
  ⟨rfl, rfl, rfl⟩
end

/-- The rules of the default and of scipy: for three points at 1, 2, 4 and a dos of area 1. -/
example : IsQuadrature (Num.trapz (K := ℝ)) ∧ (∀ x ∈ [(1 : ℝ), 2, 4], 0 < x) ∧ Num.trapz [(0 : ℝ), 2 / 3, 0] [1, 2, 4] = 1 := by
  refine ⟨trapz_quad, by simp, ?_⟩
  norm_num [Num.trapz]

/-! ## Simpson's rule -/

/-- A sum over positions, with weights. -/
def HasWeights (n : Nat) (F : List ℝ → ℝ) : Prop :=
  ∃ w : Nat → ℝ, ∀ y : List ℝ, y.length = n → F y = ∑ i ∈ Finset.range n, w i * y.getD i 0

theorem HasWeights.zero (n : Nat) : HasWeights n (fun _ => 0) := ⟨fun _ => 0, by simp⟩

theorem HasWeights.get (n i : Nat) (hi : i < n) : HasWeights n (fun y => y.getD i 0) :=
  ⟨fun j => if j = i then 1 else 0, fun y _ => by simp [hi]⟩

theorem HasWeights.add {n : Nat} {F G : List ℝ → ℝ} (hF : HasWeights n F) (hG : HasWeights n G) : HasWeights n (fun y => F y + G y) := by
  obtain ⟨u, hu⟩ := hF
  obtain ⟨v, hv⟩ := hG
  refine ⟨fun i => u i + v i, fun y hy => ?_⟩
  simp only [hu y hy, hv y hy, add_mul, Finset.sum_add_distrib]

theorem HasWeights.smul {n : Nat} {F : List ℝ → ℝ} (hF : HasWeights n F) (a : ℝ) : HasWeights n (fun y => a * F y) := by
  obtain ⟨u, hu⟩ := hF
  refine ⟨fun i => a * u i, fun y hy => ?_⟩
  simp only [hu y hy, Finset.mul_sum, mul_assoc]

theorem HasWeights.drop {n : Nat} {F : List ℝ → ℝ} (k : Nat) (hF : HasWeights (n - k) F) : HasWeights n (fun y => F (y.drop k)) := by
  obtain ⟨u, hu⟩ := hF
  refine ⟨fun i => if i < k then 0 else u (i - k), fun y hy => ?_⟩
  show F (y.drop k) = _
  rw [hu _ (by simp [hy])]
  by_cases hk : k ≤ n
  · obtain ⟨m, rfl⟩ := Nat.exists_eq_add_of_le hk
    rw [Finset.sum_range_add]
    have : ∑ i ∈ Finset.range k, (if i < k then 0 else u (i - k)) * y.getD i 0 = 0 := by
      apply Finset.sum_eq_zero
      intro i hi
      rw [if_pos (Finset.mem_range.1 hi), zero_mul]
    rw [this, zero_add]
    simp [List.getD_eq_getElem?_getD]
  · have : n - k = 0 := by omega
    rw [this]
    symm
    simp only [Finset.range_zero, Finset.sum_empty]
    apply Finset.sum_eq_zero
    intro i hi
    have := Finset.mem_range.1 hi
    rw [if_pos (by omega), zero_mul]

theorem HasWeights.take {n : Nat} {F : List ℝ → ℝ} (k : Nat) (hk : k ≤ n) (hF : HasWeights k F) : HasWeights n (fun y => F (y.take k)) := by
  obtain ⟨u, hu⟩ := hF
  refine ⟨fun i => if i < k then u i else 0, fun y hy => ?_⟩
  show F (y.take k) = _
  rw [hu _ (by simp [hy, hk])]
  obtain ⟨m, rfl⟩ := Nat.exists_eq_add_of_le hk
  rw [Finset.sum_range_add]
  have : ∑ i ∈ Finset.range m, (if k + i < k then u (k + i) else 0) * y.getD (k + i) 0 = 0 := by
    apply Finset.sum_eq_zero
    intro i hi
    rw [if_neg (by omega), zero_mul]
  rw [this, add_zero]
  apply Finset.sum_congr rfl
  intro i hi
  have := Finset.mem_range.1 hi
  simp [List.getD_eq_getElem?_getD, this, List.getElem?_take]

theorem simpsOdd_weights : ∀ (n : Nat) (x : List ℝ), x.length ≤ n → HasWeights x.length (fun y => Num.simpsOdd y x) := by
  intro n
  induction n with
  | zero =>
    intro x hx
    have : x = [] := by simpa using hx
    subst this
    exact ⟨fun _ => 0, fun y hy => by have : y = [] := by simpa using hy
                                      subst this; simp [Num.simpsOdd]⟩
  | succ n ih =>
    intro x hx
    rcases x with _ | ⟨x0, _ | ⟨x1, _ | ⟨x2, xs⟩⟩⟩
    · exact ih [] (by simp)
    · exact ⟨fun _ => 0, fun y hy => by rcases y with _ | ⟨y0, _ | ⟨y1, ys⟩⟩ <;> simp [Num.simpsOdd] at *⟩
    · exact ⟨fun _ => 0, fun y hy => by rcases y with _ | ⟨y0, _ | ⟨y1, _ | ⟨y2, ys⟩⟩⟩ <;> simp [Num.simpsOdd] at *⟩
    · have h1 := ih (x2 :: xs) (by simp at hx ⊢; omega)
      have hlen : (x0 :: x1 :: x2 :: xs).length - 2 = (x2 :: xs).length := by simp
      have h2 : HasWeights (x0 :: x1 :: x2 :: xs).length (fun y => Num.simpsOdd (y.drop 2) (x2 :: xs)) :=
        HasWeights.drop (F := fun y => Num.simpsOdd y (x2 :: xs)) 2 (by rw [hlen]; exact h1)
      have h3 := ((((HasWeights.get (x0 :: x1 :: x2 :: xs).length 0 (by simp)).smul ((x1 - x0 + (x2 - x1)) / 6 * (2 - (x2 - x1) / (x1 - x0)))).add
        ((HasWeights.get (x0 :: x1 :: x2 :: xs).length 1 (by simp)).smul ((x1 - x0 + (x2 - x1)) / 6 * ((x1 - x0 + (x2 - x1)) * ((x1 - x0 + (x2 - x1)) / ((x1 - x0) * (x2 - x1))))))).add
        ((HasWeights.get (x0 :: x1 :: x2 :: xs).length 2 (by simp)).smul ((x1 - x0 + (x2 - x1)) / 6 * (2 - (x1 - x0) / (x2 - x1))))).add h2
      obtain ⟨w, hw⟩ := h3
      refine ⟨w, fun y hy => ?_⟩
      rw [← hw y hy]
      rcases y with _ | ⟨y0, _ | ⟨y1, _ | ⟨y2, ys⟩⟩⟩
      · simp at hy
      · simp at hy
      · simp at hy
      · simp only [Num.simpsOdd, List.getD_cons_zero, List.getD_cons_succ, List.drop_succ_cons, List.drop_zero]
        ring

/-- **C66** (rules). The rules which the documentation names, the trapezoidal rule and Simpson's rule, are
rules in the sense of the specification (two points or more for Simpson's rule with an even number of
points; one point has the integral zero). -/
theorem C66_rules : IsQuadrature (Num.trapz (K := ℝ)) ∧ ∀ x : List ℝ, x ≠ [] → ∃ w : Nat → ℝ, ∀ y : List ℝ, y.length = x.length →
    Num.simps y x = ∑ i ∈ Finset.range x.length, w i * y.getD i 0 := by
  refine ⟨trapz_quad, fun x hx => ?_⟩
  by_cases hodd : x.length % 2 = 1
  · obtain ⟨w, hw⟩ := simpsOdd_weights x.length x (le_refl _)
    refine ⟨w, fun y hy => ?_⟩
    rw [← hw y hy]
    simp [Num.simps, hy, hodd]
  · have hpos := List.length_pos_iff.2 hx
    set n := x.length with hn
    have h2 : 2 ≤ n := by omega
    have tq : ∀ z : List ℝ, HasWeights z.length (fun y => Num.trapz y z) := fun z => trapz_quad z
    have sq : ∀ z : List ℝ, HasWeights z.length (fun y => Num.simpsOdd y z) := fun z => simpsOdd_weights z.length z (le_refl _)
    have a1 : HasWeights n (fun y => Num.simpsOdd (y.take (n - 1)) (x.take (n - 1))) :=
      HasWeights.take (F := fun y => Num.simpsOdd y (x.take (n - 1))) (n - 1) (by omega) (by
        have := sq (x.take (n - 1)); rwa [List.length_take, ← hn, min_eq_left (by omega)] at this)
    have a2 : HasWeights n (fun y => Num.trapz (y.drop (n - 2)) (x.drop (n - 2))) :=
      HasWeights.drop (F := fun y => Num.trapz y (x.drop (n - 2))) (n - 2) (by
        have := tq (x.drop (n - 2)); rwa [List.length_drop, ← hn] at this)
    have a3 : HasWeights n (fun y => Num.simpsOdd (y.drop 1) (x.drop 1)) :=
      HasWeights.drop (F := fun y => Num.simpsOdd y (x.drop 1)) 1 (by
        have := sq (x.drop 1); rwa [List.length_drop, ← hn] at this)
    have a4 : HasWeights n (fun y => Num.trapz (y.take 2) (x.take 2)) :=
      HasWeights.take (F := fun y => Num.trapz y (x.take 2)) 2 h2 (by
        have := tq (x.take 2); rwa [List.length_take, ← hn, min_eq_left h2] at this)
    obtain ⟨w, hw⟩ := ((a1.add a2).add (a3.add a4)).smul (1 / 2)
    refine ⟨w, fun y hy => ?_⟩
    rw [← hw y hy]
    simp only [Num.simps, hy, ← hn, hodd, if_false]
    ring

/-! ## C67 -/

/-- **C67** (skipfreq). With `skipfreq=True` and no `dosarea` exactly the points with `freq > eps` are used,
in their order, each as often as it is given, and with its own dos value. -/
theorem C67_skipfreq (integ : List ℝ → List ℝ → ℝ) (freq dos : List ℝ) (eps : ℝ) (hl : freq.length = dos.length) :
    ∃ f d, harmInit integ freq dos true eps none = some (f, d) ∧ f.length = d.length ∧
      (f.zip d).Sublist (freq.zip dos) ∧
      ∀ p : ℝ × ℝ, (f.zip d).count p = if p.1 > eps then (freq.zip dos).count p else 0 := by
  refine ⟨_, _, by simp only [harmInit, hl, ne_eq, not_true_eq_false, if_false, if_true]; rfl, by simp, ?_, ?_⟩
  · rw [← List.unzip_fst, ← List.unzip_snd, List.zip_unzip]
    exact List.filter_sublist
  · intro p
    rw [← List.unzip_fst, ← List.unzip_snd, List.zip_unzip]
    split
    · rw [List.count_filter]; simpa
    · rename_i h
      rw [List.count_eq_zero]
      simp [h]

/-- **C67** (no skipfreq). Otherwise all points are used. Arrays of different length are refused. -/
theorem C67_noskip (integ : List ℝ → List ℝ → ℝ) (freq dos : List ℝ) (eps : ℝ) :
    (freq.length = dos.length → harmInit integ freq dos false eps none = some (freq, dos)) ∧
    (freq.length ≠ dos.length → ∀ skip area, harmInit integ freq dos skip eps area = none) := by
  constructor
  · intro h
    simp only [harmInit, h, ne_eq, not_true_eq_false, if_false, Bool.false_eq_true]
    rw [← List.unzip_fst, ← List.unzip_snd, List.unzip_zip h]
  · intro h skip area
    simp [harmInit, h]

/-- **C67** (dosarea). With `dosarea` the same frequencies are used as without, and the dos is multiplied by
one constant such that its integral is `dosarea`; if the integral is zero that is not possible. -/
theorem C67_dosarea (integ : List ℝ → List ℝ → ℝ) (hI : Spec.Homogeneous integ) (freq dos : List ℝ) (skip : Bool) (eps area : ℝ)
    (hl : freq.length = dos.length) :
    ∃ f d, harmInit integ freq dos skip eps none = some (f, d) ∧
      (integ d f ≠ 0 → ∃ d' k, harmInit integ freq dos skip eps (some area) = some (f, d') ∧ d' = d.map (· * k) ∧ integ d' f = area) ∧
      (integ d f = 0 → harmInit integ freq dos skip eps (some area) = none) := by
  simp only [harmInit, hl, ne_eq, not_true_eq_false, if_false]
  refine ⟨_, _, rfl, fun h => ?_, fun h => ?_⟩
  · obtain ⟨y', k, h1, h2, h3, -⟩ := Num.C29_norm_int integ hI _ _ area true h
    refine ⟨y', k, ?_, h2, h3⟩
    rw [h1]; rfl
  · rw [Num.C29_zero integ hI _ _ area true h]; rfl

/-- Three points, of which one is skipped; the rest is rescaled to the area 3. -/
example : ∃ f d, harmInit Num.trapz [-1, 1, 3] [7, 2, 4] true 0 none = some (f, d) ∧ f = [1, 3] ∧ d = [2, 4] ∧ Num.trapz d f ≠ (0 : ℝ) := by
  refine ⟨[1, 3], [2, 4], ?_, rfl, rfl, by norm_num [Num.trapz]⟩
  norm_num [harmInit]

end Pwtools.Thermo
