import Verif.Props.Thermo
import Mathlib.Analysis.SpecialFunctions.Exp
/-!
# C66: low temperatures
-/
namespace Pwtools.Thermo
open Spec Filter Topology

theorem tendsto_bose : Tendsto (fun y : ℝ => y / (Real.exp y - 1)) atTop (𝓝 0) := by
  have h1 : Tendsto (fun y : ℝ => Real.exp y / y) atTop atTop := by
    simpa using Real.tendsto_exp_div_pow_atTop 1
  have h2 : Tendsto (fun y : ℝ => -(1 / y)) atTop (𝓝 0) := by
    simpa using (tendsto_inv_atTop_zero (𝕜 := ℝ)).neg
  have h3 : Tendsto (fun y : ℝ => Real.exp y / y + -(1 / y)) atTop atTop := h1.atTop_add h2
  refine (tendsto_inv_atTop_zero.comp h3).congr' ?_
  filter_upwards [eventually_gt_atTop 0] with y hy
  have h4 : 1 < Real.exp y := Real.one_lt_exp_iff.2 hy
  have h5 : Real.exp y - 1 ≠ 0 := by linarith
  simp only [Function.comp]
  rw [← sub_eq_add_neg, ← sub_div, inv_div]

theorem tendsto_arg (c : Const) (hh : 0 < c.h) (hk : 0 < c.kb) {x : ℝ} (hx : 0 < x) : Tendsto (fun T => arg c T x) (𝓝[>] 0) atTop := by
  have : (fun T => arg c T x) = fun T => c.h * x / c.kb * T⁻¹ := by
    funext T; unfold arg; rw [← div_eq_mul_inv, div_div]
  rw [this]
  exact tendsto_inv_nhdsGT_zero.const_mul_atTop (by positivity)

theorem tendsto_evib_term : Tendsto (fun y : ℝ => 1 / 2 + 1 / (Real.exp y - 1)) atTop (𝓝 (1 / 2)) := by
  have h : Tendsto (fun y : ℝ => Real.exp y - 1) atTop atTop := Real.tendsto_exp_atTop.atTop_add (tendsto_const_nhds (x := (-1 : ℝ)))
  have h2 := (tendsto_inv_atTop_zero.comp h).const_add (1 / 2 : ℝ)
  simpa [Function.comp_def] using h2

theorem tendsto_svib_term : Tendsto (fun y : ℝ => y / 2 * coth (y / 2) - Real.log (2 * Real.sinh (y / 2))) atTop (𝓝 0) := by
  have h1 : Tendsto (fun y : ℝ => Real.log (1 - Real.exp (-y))) atTop (𝓝 0) := by
    have h2 : Tendsto (fun y : ℝ => 1 - Real.exp (-y)) atTop (𝓝 1) := by
      simpa using (Real.tendsto_exp_neg_atTop_nhds_zero).const_sub 1
    simpa using h2.log one_ne_zero
  have h3 := tendsto_bose.sub h1
  rw [sub_zero] at h3
  refine h3.congr' ?_
  filter_upwards [eventually_gt_atTop 0] with y hy
  have e1 := coth_eq hy
  have h4 : 1 < Real.exp y := Real.one_lt_exp_iff.2 hy
  have e2 : 2 * Real.sinh (y / 2) = Real.exp (y / 2) * (1 - Real.exp (-y)) := by
    rw [Real.sinh_eq, mul_sub, ← Real.exp_add]
    have : y / 2 + -y = -(y / 2) := by ring
    rw [this]; ring
  have h5 : Real.exp (-y) < 1 := by simpa using hy
  rw [e2, Real.log_mul (Real.exp_pos _).ne' (by linarith), Real.log_exp]
  have e3 : y / 2 * coth (y / 2) = y * (1 / 2 * coth (y / 2)) := by ring
  rw [e3, e1]
  ring

theorem tendsto_cv_term : Tendsto (fun y : ℝ => (y / 2 / Real.sinh (y / 2)) ^ 2) atTop (𝓝 0) := by
  have h1 : Tendsto (fun y : ℝ => y / 2 / Real.sinh (y / 2)) atTop (𝓝 0) := by
    have h2 : Tendsto (fun y : ℝ => 2 * (y / 2 / (Real.exp (y / 2) - 1))) atTop (𝓝 0) := by
      have := (tendsto_bose.comp (tendsto_id.atTop_div_const (show (0 : ℝ) < 2 by norm_num))).const_mul 2
      simpa [Function.comp_def] using this
    refine tendsto_of_tendsto_of_tendsto_of_le_of_le' tendsto_const_nhds h2 ?_ ?_
    · filter_upwards [eventually_gt_atTop 0] with y hy
      have := sinh_pos (x := y / 2) (by linarith)
      positivity
    · filter_upwards [eventually_gt_atTop 0] with y hy
      have h3 := sinh_pos (x := y / 2) (by linarith)
      have h4 : 1 < Real.exp (y / 2) := Real.one_lt_exp_iff.2 (by linarith)
      have h5 : Real.exp (-(y / 2)) < 1 := by simpa using hy
      have h6 : Real.exp (y / 2) - 1 ≤ 2 * Real.sinh (y / 2) := by
        rw [Real.sinh_eq]; linarith
      have h7 : (0 : ℝ) < Real.exp (y / 2) - 1 := by linarith
      rw [← mul_div_assoc, div_le_div_iff₀ h3 h7]
      nlinarith
  simpa using h1.pow 2

variable (c : Const) (integ : List ℝ → List ℝ → ℝ) (f dos : List ℝ)

/-- Limit under the integral sign. -/
theorem quad_tendsto (hI : IsQuadrature integ) (hl : f.length = dos.length) (φ : ℝ → ℝ → ℝ → ℝ) (lim : ℝ → ℝ → ℝ) (F : Filter ℝ)
    (h : ∀ x ∈ f, ∀ d, Tendsto (fun T => φ T d x) F (𝓝 (lim d x))) :
    Tendsto (fun T => integ (List.zipWith (φ T) dos f) f) F (𝓝 (integ (List.zipWith lim dos f) f)) := by
  obtain ⟨w, hw⟩ := zipWith_quad integ f dos hI hl
  simp only [hw]
  apply tendsto_finsetSum
  intro i hi
  have hi := Finset.mem_range.1 hi
  exact (h _ (by simp [List.getD_eq_getElem?_getD, hi]) _).const_mul _

/-- The integral of zero. -/
theorem quad_zero (hI : IsQuadrature integ) (hl : f.length = dos.length) : integ (List.zipWith (fun _ _ => 0) dos f) f = 0 := by
  obtain ⟨w, hw⟩ := zipWith_quad integ f dos hI hl
  rw [hw]; simp

/-- **C66** (low temperatures). For `T → 0` the heat capacity and the entropy tend to zero (third law), and both energies tend to the zero point energy. -/
theorem C66_low_temperature (hh : 0 < c.h) (hk : 0 < c.kb) (he : c.eV ≠ 0) (hI : IsQuadrature integ) (hl : f.length = dos.length) (hf : ∀ x ∈ f, 0 < x) :
    Tendsto (cv c integ f dos) (𝓝[>] 0) (𝓝 0) ∧ Tendsto (svib c integ f dos) (𝓝[>] 0) (𝓝 0) ∧
    Tendsto (evib c integ f dos) (𝓝[>] 0) (𝓝 (integ (List.zipWith (fun d x => d * (x / 2)) dos f) f * (c.h / c.eV))) ∧
    Tendsto (fvib c integ f dos) (𝓝[>] 0) (𝓝 (integ (List.zipWith (fun d x => d * (x / 2)) dos f) f * (c.h / c.eV))) := by
  have hS : Tendsto (svib c integ f dos) (𝓝[>] 0) (𝓝 0) := by
    have key := quad_tendsto integ f dos hI hl (fun T d f => d * (1 / 2 / T * (c.h / c.kb) * f * coth (arg c T f / 2) - Real.log (2 * Real.sinh (arg c T f / 2)))) (fun _ _ => 0) (𝓝[>] 0) ?_
    · rw [quad_zero integ f dos hI hl] at key
      exact key
    intro x hx d
    have := ((tendsto_svib_term.comp (tendsto_arg c hh hk (hf x hx))).const_mul d)
    rw [mul_zero] at this
    refine this.congr fun T => ?_
    simp only [Function.comp]
    have e : 1 / 2 / T * (c.h / c.kb) * x = arg c T x / 2 := by
      unfold arg
      rw [div_div, div_mul_div_comm, div_mul_eq_mul_div, div_div]
      congr 1 <;> ring
    rw [e]
  have hE : Tendsto (evib c integ f dos) (𝓝[>] 0) (𝓝 (integ (List.zipWith (fun d x => d * (x / 2)) dos f) f * (c.h / c.eV))) := by
    apply Tendsto.mul_const
    apply quad_tendsto integ f dos hI hl (fun T d f => d * f * (1 / 2 + 1 / (Real.exp (arg c T f) - 1))) (fun d x => d * (x / 2))
    intro x hx d
    have := ((tendsto_evib_term.comp (tendsto_arg c hh hk (hf x hx))).const_mul (d * x))
    have e : d * x * (1 / 2) = d * (x / 2) := by ring
    rw [e] at this
    exact this
  refine ⟨?_, hS, hE, ?_⟩
  · have key := quad_tendsto integ f dos hI hl (fun T d f => d * (arg c T f / 2 / Real.sinh (arg c T f / 2)) ^ 2) (fun _ _ => 0) (𝓝[>] 0) (by
      intro x hx d
      have := ((tendsto_cv_term.comp (tendsto_arg c hh hk (hf x hx))).const_mul d)
      rw [mul_zero] at this
      exact this)
    rw [quad_zero integ f dos hI hl] at key
    refine key.congr fun T => ?_
    unfold cv
    rw [quad_lin hI f dos hl (fun d f => d * (arg c T f / 2 / Real.sinh (arg c T f / 2)) ^ 2) (fun d f => d * f ^ 2 / Real.sinh (arg c T f / 2) ^ 2) (fun _ _ => 0) ((c.h / (c.kb * 2 * T)) ^ 2) 0]
    · ring
    · intro x _ d
      have : arg c T x / 2 = x * (c.h / (c.kb * 2 * T)) := by
        unfold arg; rw [mul_div_assoc', div_div, mul_comm x]; congr 1; ring
      rw [div_pow, this]
      ring
  · have h0 : Tendsto (fun T : ℝ => T) (𝓝[>] 0) (𝓝 0) := tendsto_nhdsWithin_of_tendsto_nhds tendsto_id
    have := hE.sub (h0.mul (hS.mul_const (c.kb / c.eV)))
    simp only [zero_mul, sub_zero] at this
    refine this.congr' ?_
    filter_upwards [self_mem_nhdsWithin] with T hT
    rw [C66_energy c integ f dos hh hk he hI hl hf T hT]
    ring

/-- Met by the trapezoidal rule and a dos with three points. -/
example : Tendsto (svib ⟨1, 1, 1⟩ (Num.trapz (K := ℝ)) [1, 2, 3] [1, 0, 2]) (𝓝[>] 0) (𝓝 0) :=
  (C66_low_temperature ⟨1, 1, 1⟩ _ [1, 2, 3] [1, 0, 2] (by norm_num) (by norm_num) (by norm_num) trapz_quad rfl (by
    intro x hx; simp at hx; rcases hx with rfl | rfl | rfl <;> norm_num)).2.1

end Pwtools.Thermo
