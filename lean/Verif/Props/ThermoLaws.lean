import Verif.Props.Thermo
import Mathlib.Analysis.SpecialFunctions.Exp
import Mathlib.Analysis.Calculus.MeanValue
import Mathlib.Analysis.Calculus.Deriv.MeanValue
/-!
# C157: laws of thermodynamics for `HarmonicThermo`

No new model: Model/Thermo.
-/
namespace Pwtools.Thermo
open Pwtools.Spec Filter Topology

theorem exp_neg_lim : Tendsto (fun a : ℝ => Real.exp (-a)) atTop (𝓝 0) :=
  Real.tendsto_exp_neg_atTop_nhds_zero

theorem one_sub_lim : Tendsto (fun a : ℝ => 1 - Real.exp (-a)) atTop (𝓝 1) := by
  simpa using exp_neg_lim.const_sub 1

/-- The occupation of one mode. -/
theorem occ_lim : Tendsto (fun a : ℝ => 1 / (Real.exp a - 1)) atTop (𝓝 0) := by
  have := (Real.tendsto_exp_atTop.atTop_add (tendsto_const_nhds (x := (-1 : ℝ)))).inv_tendsto_atTop
  refine this.congr (fun a => ?_)
  simp [sub_eq_add_neg]

theorem lin_occ_lim : Tendsto (fun a : ℝ => a / (Real.exp a - 1)) atTop (𝓝 0) := by
  have h1 : Tendsto (fun a : ℝ => a ^ 1 * Real.exp (-a)) atTop (𝓝 0) := Real.tendsto_pow_mul_exp_neg_atTop_nhds_zero 1
  have := h1.div one_sub_lim one_ne_zero
  rw [zero_div] at this
  refine this.congr (fun a => ?_)
  have h2 : Real.exp a - 1 = Real.exp a * (1 - Real.exp (-a)) := by
    rw [mul_sub, mul_one, ← Real.exp_add]; simp
  simp only [Pi.div_apply]
  rw [h2, pow_one, Real.exp_neg]
  field_simp

theorem sinh_lim : Tendsto (fun x : ℝ => x / Real.sinh x) atTop (𝓝 0) := by
  have h1 : Tendsto (fun a : ℝ => a ^ 1 * Real.exp (-a)) atTop (𝓝 0) := Real.tendsto_pow_mul_exp_neg_atTop_nhds_zero 1
  have h2 : Tendsto (fun a : ℝ => (1 - Real.exp (-(2 * a))) / 2) atTop (𝓝 (1 / 2)) :=
    (one_sub_lim.comp (tendsto_id.const_mul_atTop (by norm_num : (0 : ℝ) < 2))).div_const 2
  have := h1.div h2 (by norm_num)
  rw [zero_div] at this
  refine this.congr (fun a => ?_)
  have h3 : Real.sinh a = Real.exp a * ((1 - Real.exp (-(2 * a))) / 2) := by
    rw [Real.sinh_eq, show Real.exp (-a) = Real.exp a * Real.exp (-(2 * a)) by rw [← Real.exp_add]; congr 1; ring]
    ring
  simp only [Pi.div_apply]
  rw [h3, pow_one, Real.exp_neg]
  field_simp

/-- The entropy of one mode in terms of the occupation. -/
theorem mode_entropy {a : ℝ} (h : 0 < a) :
    a / 2 * coth (a / 2) - Real.log (2 * Real.sinh (a / 2)) = a / (Real.exp a - 1) - Real.log (1 - Real.exp (-a)) := by
  have h1 := coth_eq h
  have e : 2 * Real.sinh (a / 2) = Real.exp (a / 2) * (1 - Real.exp (-a)) := by
    rw [Real.sinh_eq, mul_sub, mul_one, ← Real.exp_add, show a / 2 + -a = -(a / 2) by ring]; ring
  have hp : 0 < 1 - Real.exp (-a) := by
    have : Real.exp (-a) < Real.exp 0 := Real.exp_lt_exp.2 (by linarith)
    rw [Real.exp_zero] at this; linarith
  rw [e, Real.log_mul (Real.exp_pos _).ne' hp.ne', Real.log_exp]
  have : a / 2 * coth (a / 2) = a * (1 / 2 * coth (a / 2)) := by ring
  rw [this, h1]
  ring

theorem mode_entropy_lim : Tendsto (fun a : ℝ => a / 2 * coth (a / 2) - Real.log (2 * Real.sinh (a / 2))) atTop (𝓝 0) := by
  have h1 : Tendsto (fun a : ℝ => Real.log (1 - Real.exp (-a))) atTop (𝓝 (Real.log 1)) := one_sub_lim.log one_ne_zero
  rw [Real.log_one] at h1
  have := lin_occ_lim.sub h1
  rw [sub_zero] at this
  refine this.congr' ?_
  filter_upwards [eventually_gt_atTop 0] with a ha
  exact (mode_entropy ha).symm

section
variable (c : Const) (integ : List ℝ → List ℝ → ℝ) (f dos : List ℝ)

theorem arg_lim (hh : 0 < c.h) (hk : 0 < c.kb) (x : ℝ) (hx : 0 < x) : Tendsto (fun T => arg c T x) (𝓝[>] 0) atTop := by
  have : (fun T => arg c T x) = fun T => c.h * x / c.kb * T⁻¹ := by
    funext T; unfold arg; rw [← div_div, div_eq_mul_inv (c.h * x / c.kb)]
  rw [this]
  exact tendsto_inv_nhdsGT_zero.const_mul_atTop (by positivity)

/-- Limits under the integral sign. -/
theorem quad_lim (hI : IsQuadrature integ) (hl : f.length = dos.length) (φ : ℝ → ℝ → ℝ → ℝ) (ψ : ℝ → ℝ → ℝ) (F : Filter ℝ)
    (h : ∀ x ∈ f, ∀ d, Tendsto (fun T => φ T d x) F (𝓝 (ψ d x))) :
    Tendsto (fun T => integ (List.zipWith (φ T) dos f) f) F (𝓝 (integ (List.zipWith ψ dos f) f)) := by
  obtain ⟨w, hw⟩ := zipWith_quad integ f dos hI hl
  simp only [hw]
  apply tendsto_finsetSum
  intro i hi
  have hi := Finset.mem_range.1 hi
  exact (h _ (by simp [List.getD_eq_getElem?_getD, hi]) _).const_mul _

theorem quad_zero (hI : IsQuadrature integ) (hl : f.length = dos.length) : integ (List.zipWith (fun _ _ => (0 : ℝ)) dos f) f = 0 := by
  obtain ⟨w, hw⟩ := zipWith_quad integ f dos hI hl
  rw [hw]; simp

/-- **C157** (third law). For positive frequencies and `T → 0` the entropy and the heat capacity tend to 0, the
internal and the free energy to the zero point energy, the integral over half the energy of the modes. -/
theorem C157_low_temperature (hh : 0 < c.h) (hk : 0 < c.kb) (he : c.eV ≠ 0) (hI : IsQuadrature integ)
    (hl : f.length = dos.length) (hf : ∀ x ∈ f, 0 < x) :
    Tendsto (svib c integ f dos) (𝓝[>] 0) (𝓝 0) ∧ Tendsto (cv c integ f dos) (𝓝[>] 0) (𝓝 0) ∧
    Tendsto (evib c integ f dos) (𝓝[>] 0) (𝓝 (integ (List.zipWith (fun d x => d * x / 2) dos f) f * (c.h / c.eV))) ∧
    Tendsto (fvib c integ f dos) (𝓝[>] 0) (𝓝 (integ (List.zipWith (fun d x => d * x / 2) dos f) f * (c.h / c.eV))) := by
  have hS : Tendsto (svib c integ f dos) (𝓝[>] 0) (𝓝 0) := by
    have := quad_lim integ f dos hI hl (fun T d f => d * (1 / 2 / T * (c.h / c.kb) * f * coth (arg c T f / 2) -
      Real.log (2 * Real.sinh (arg c T f / 2)))) (fun _ _ => 0) (𝓝[>] 0) (by
        intro x hx d
        have := ((mode_entropy_lim.comp (arg_lim c hh hk x (hf x hx))).const_mul d)
        rw [mul_zero] at this
        refine this.congr (fun T => ?_)
        simp only [Function.comp]
        have e : 1 / 2 / T * (c.h / c.kb) * x = arg c T x / 2 := by
          unfold arg
          rw [div_div, div_mul_div_comm, div_mul_eq_mul_div, div_div]
          congr 1 <;> ring
        rw [e])
    rwa [quad_zero integ f dos hI hl] at this
  have hE : Tendsto (evib c integ f dos) (𝓝[>] 0) (𝓝 (integ (List.zipWith (fun d x => d * x / 2) dos f) f * (c.h / c.eV))) := by
    apply Tendsto.mul_const
    apply quad_lim integ f dos hI hl (fun T d f => d * f * (1 / 2 + 1 / (Real.exp (arg c T f) - 1)))
    intro x hx d
    have := ((occ_lim.comp (arg_lim c hh hk x (hf x hx))).const_add (1 / 2)).const_mul (d * x)
    rw [add_zero, mul_one_div] at this
    exact this
  refine ⟨hS, ?_, hE, ?_⟩
  · have := quad_lim integ f dos hI hl (fun T d x => d * (arg c T x / 2 / Real.sinh (arg c T x / 2)) ^ 2) (fun _ _ => 0) (𝓝[>] 0) (by
        intro x hx d
        have t := (arg_lim c hh hk x (hf x hx)).atTop_div_const (by norm_num : (0 : ℝ) < 2)
        have := ((sinh_lim.comp t).pow 2).const_mul d
        simpa using this)
    rw [quad_zero integ f dos hI hl] at this
    refine this.congr (fun T => ?_)
    unfold cv
    rw [quad_lin hI f dos hl (fun d x => d * (arg c T x / 2 / Real.sinh (arg c T x / 2)) ^ 2)
      (fun d f => d * f ^ 2 / Real.sinh (arg c T f / 2) ^ 2) (fun _ _ => 0) ((c.h / (c.kb * 2 * T)) ^ 2) 0]
    · ring
    · intro x _ d
      have e : arg c T x / 2 = c.h / (c.kb * 2 * T) * x := by
        unfold arg; rw [div_div, div_mul_eq_mul_div]; congr 1; ring
      rw [div_pow, zero_mul, add_zero]
      nth_rewrite 1 [e]
      rw [mul_pow]; ring
  · have hT : Tendsto (fun T : ℝ => T) (𝓝[>] 0) (𝓝 0) := tendsto_nhdsWithin_of_tendsto_nhds tendsto_id
    have := hE.sub (hT.mul (hS.mul_const (c.kb / c.eV)))
    rw [zero_mul, sub_zero] at this
    refine this.congr' ?_
    filter_upwards [self_mem_nhdsWithin] with T hT
    rw [C66_energy c integ f dos hh hk he hI hl hf T hT]
    ring

/-- **C157** (heat). The slope of the entropy is the heat capacity divided by the temperature. -/
theorem C157_heat (hh : 0 < c.h) (hk : 0 < c.kb) (he : c.eV ≠ 0) (hI : IsQuadrature integ)
    (hl : f.length = dos.length) (hf : ∀ x ∈ f, 0 < x) (T : ℝ) (hT : 0 < T) :
    HasDerivAt (svib c integ f dos) (cv c integ f dos T / T) T := by
  have h1 := C66_cv c integ f dos hh hk hI hl hf T hT
  have h2 := C66_entropy c integ f dos hh hk hI hl hf T hT
  have h3 := (h1.sub h2).div (hasDerivAt_id T) hT.ne'
  have h4 := h3.mul_const (c.eV / c.kb)
  have e := C66_energy c integ f dos hh hk he hI hl hf T hT
  refine (h4.congr_of_eventuallyEq ?_).congr_deriv ?_
  · filter_upwards [eventually_gt_nhds hT] with t ht
    have := C66_energy c integ f dos hh hk he hI hl hf t ht
    simp only [Pi.div_apply, Pi.sub_apply, id]
    rw [this]
    field_simp
    ring
  · simp only [Pi.sub_apply, id]
    rw [e]
    field_simp
    ring

/-- **C157** (second law, stability). With a rule with non-negative weights and a non-negative dos: the
internal energy and the entropy do not decrease and the free energy does not increase with temperature. -/
theorem C157_monotone (hh : 0 < c.h) (hk : 0 < c.kb) (he : 0 < c.eV) (hI : IsQuadrature integ)
    (hl : f.length = dos.length) (hf : ∀ x ∈ f, 0 < x)
    (hd : ∀ x ∈ dos, 0 ≤ x) (hpos : ∀ y : List ℝ, y.length = f.length → (∀ v ∈ y, 0 ≤ v) → 0 ≤ integ y f) :
    MonotoneOn (evib c integ f dos) (Set.Ioi 0) ∧ MonotoneOn (svib c integ f dos) (Set.Ioi 0) ∧
    AntitoneOn (fvib c integ f dos) (Set.Ioi 0) := by
  have hn := fun T hT => C66_nonneg c integ f dos hh hk hl hf hd hpos T hT
  have k : 0 ≤ c.kb / c.eV := by positivity
  have mono : ∀ (g : ℝ → ℝ) (g' : ℝ → ℝ), (∀ T, 0 < T → HasDerivAt g (g' T) T) → (∀ T, 0 < T → 0 ≤ g' T) →
      MonotoneOn g (Set.Ioi 0) := by
    intro g g' h h'
    apply monotoneOn_of_deriv_nonneg (convex_Ioi 0)
    · intro T hT; exact (h T hT).continuousAt.continuousWithinAt
    · intro T hT; rw [interior_Ioi] at hT; exact (h T hT).differentiableAt.differentiableWithinAt
    · intro T hT; rw [interior_Ioi] at hT; rw [(h T hT).deriv]; exact h' T hT
  refine ⟨mono _ _ (fun T hT => C66_cv c integ f dos hh hk hI hl hf T hT) (fun T hT => mul_nonneg (hn T hT).2 k),
    mono _ _ (fun T hT => C157_heat c integ f dos hh hk he.ne' hI hl hf T hT) (fun T hT => div_nonneg (hn T hT).2 (le_of_lt hT)), ?_⟩
  have := mono (fun T => -fvib c integ f dos T) _ (fun T hT => (C66_entropy c integ f dos hh hk hI hl hf T hT).neg)
    (fun T hT => by rw [neg_neg]; exact mul_nonneg (hn T hT).1 k)
  intro a ha b hb hab
  exact neg_le_neg_iff.1 (this ha hb hab)

/-- **C157** (zero point energy). Under the same conditions the internal energy is never below the zero point
energy, and the free energy never above it. -/
theorem C157_zero_point (hh : 0 < c.h) (hk : 0 < c.kb) (he : 0 < c.eV) (hI : IsQuadrature integ)
    (hl : f.length = dos.length) (hf : ∀ x ∈ f, 0 < x)
    (hd : ∀ x ∈ dos, 0 ≤ x) (hpos : ∀ y : List ℝ, y.length = f.length → (∀ v ∈ y, 0 ≤ v) → 0 ≤ integ y f) (T : ℝ) (hT : 0 < T) :
    integ (List.zipWith (fun d x => d * x / 2) dos f) f * (c.h / c.eV) ≤ evib c integ f dos T ∧
    fvib c integ f dos T ≤ integ (List.zipWith (fun d x => d * x / 2) dos f) f * (c.h / c.eV) := by
  obtain ⟨m1, _, m3⟩ := C157_monotone c integ f dos hh hk he hI hl hf hd hpos
  obtain ⟨_, _, l1, l2⟩ := C157_low_temperature c integ f dos hh hk he.ne' hI hl hf
  have hev : ∀ᶠ t in 𝓝[>] (0 : ℝ), 0 < t ∧ t ≤ T := by
    filter_upwards [Ioc_mem_nhdsGT hT] with t ht using ht
  constructor
  · exact le_of_tendsto l1 (hev.mono (fun t ht => m1 ht.1 hT ht.2))
  · exact ge_of_tendsto l2 (hev.mono (fun t ht => m3 ht.1 hT ht.2))

/-- **C157** (composition). All quantities of a sum of two phonon densities of states (on the same frequency
axis) with factors are the sums of the quantities with these factors: thermodynamic functions of parts add up. -/
theorem C157_additive (hI : IsQuadrature integ) (dos1 dos2 : List ℝ) (h1 : f.length = dos1.length) (h2 : f.length = dos2.length)
    (a b T : ℝ) :
    let sum := List.zipWith (fun p q => a * p + b * q) dos1 dos2
    evib c integ f sum T = a * evib c integ f dos1 T + b * evib c integ f dos2 T ∧
    fvib c integ f sum T = a * fvib c integ f dos1 T + b * fvib c integ f dos2 T ∧
    svib c integ f sum T = a * svib c integ f dos1 T + b * svib c integ f dos2 T ∧
    cv c integ f sum T = a * cv c integ f dos1 T + b * cv c integ f dos2 T := by
  intro sum
  have h3 : f.length = sum.length := by simp [sum, ← h1, ← h2]
  have key : ∀ (g : ℝ → ℝ → ℝ) (g0 : ℝ → ℝ), (∀ d x, g d x = d * g0 x) →
      integ (List.zipWith g sum f) f = a * integ (List.zipWith g dos1 f) f + b * integ (List.zipWith g dos2 f) f := by
    intro g g0 hg
    obtain ⟨w, hw⟩ := hI f
    rw [hw _ (by simp [← h3]), hw _ (by simp [← h1]), hw _ (by simp [← h2]), Finset.mul_sum, Finset.mul_sum, ← Finset.sum_add_distrib]
    apply Finset.sum_congr rfl
    intro i hi
    have hi := Finset.mem_range.1 hi
    have hi1 : i < dos1.length := by omega
    have hi2 : i < dos2.length := by omega
    simp only [List.getD_eq_getElem?_getD, List.getElem?_zipWith, sum, List.getElem?_eq_getElem hi, List.getElem?_eq_getElem hi1,
      List.getElem?_eq_getElem hi2, Option.getD_some, hg]
    ring
  unfold evib fvib svib cv
  refine ⟨?_, ?_, ?_, ?_⟩
  · rw [key _ (fun f => f * (1 / 2 + 1 / (Real.exp (arg c T f) - 1))) (fun d x => by ring)]; ring
  · rw [key _ (fun f => Real.log (2 * Real.sinh (arg c T f / 2))) (fun d x => rfl)]; ring
  · rw [key _ (fun f => 1 / 2 / T * (c.h / c.kb) * f * coth (arg c T f / 2) - Real.log (2 * Real.sinh (arg c T f / 2))) (fun d x => rfl)]
  · rw [key _ (fun f => f ^ 2 / Real.sinh (arg c T f / 2) ^ 2) (fun d x => by ring)]; ring
end

/-- Non-vacuity: the trapezoidal rule on an increasing axis of positive frequencies with a non-negative dos. -/
example : IsQuadrature (Num.trapz (K := ℝ)) ∧ (∀ x ∈ [(1 : ℝ), 2, 4], 0 < x) ∧ (∀ x ∈ [(0 : ℝ), 2 / 3, 0], 0 ≤ x) ∧
    ∀ y : List ℝ, y.length = [(1 : ℝ), 2, 4].length → (∀ v ∈ y, 0 ≤ v) → 0 ≤ Num.trapz y [1, 2, 4] :=
  ⟨trapz_quad, by simp, by norm_num, fun y _ hy => trapz_nonneg y _ hy (by simp; norm_num)⟩

end Pwtools.Thermo
