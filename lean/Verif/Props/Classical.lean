import Verif.Props.ThermoLaws
import Mathlib.Analysis.SpecialFunctions.Trigonometric.DerivHyp
/-!
# C175: the classical limit of `HarmonicThermo`

No new model: Model/Thermo.
-/
namespace Pwtools.Thermo
open Pwtools.Spec Filter Topology

theorem id_cosh_mono : MonotoneOn (fun x : ℝ => x * Real.cosh x - Real.sinh x) (Set.Ici 0) := by
  have hd : ∀ x : ℝ, HasDerivAt (fun x : ℝ => x * Real.cosh x - Real.sinh x) (x * Real.sinh x) x := by
    intro x
    have := ((hasDerivAt_id x).mul (Real.hasDerivAt_cosh x)).sub (Real.hasDerivAt_sinh x)
    refine this.congr_deriv ?_
    simp
  apply monotoneOn_of_deriv_nonneg (convex_Ici 0)
  · intro x _; exact (hd x).continuousAt.continuousWithinAt
  · intro x _; exact (hd x).differentiableAt.differentiableWithinAt
  · intro x hx
    rw [interior_Ici] at hx
    rw [(hd x).deriv]
    exact mul_nonneg (le_of_lt hx) (sinh_pos hx).le

theorem sinh_le_id_cosh {x : ℝ} (hx : 0 ≤ x) : Real.sinh x ≤ x * Real.cosh x := by
  have := id_cosh_mono (Set.mem_Ici.2 (le_refl (0 : ℝ))) (Set.mem_Ici.2 hx) hx
  simp at this
  linarith

/-- `sinh x / x` rises. -/
theorem sinh_div_mono : MonotoneOn (fun x : ℝ => Real.sinh x / x) (Set.Ioi 0) := by
  have hd : ∀ x : ℝ, 0 < x → HasDerivAt (fun x : ℝ => Real.sinh x / x) ((Real.cosh x * x - Real.sinh x * 1) / x ^ 2) x :=
    fun x hx => (Real.hasDerivAt_sinh x).div (hasDerivAt_id x) hx.ne'
  apply monotoneOn_of_deriv_nonneg (convex_Ioi 0)
  · intro x hx; exact (hd x hx).continuousAt.continuousWithinAt
  · intro x hx; rw [interior_Ioi] at hx; exact (hd x hx).differentiableAt.differentiableWithinAt
  · intro x hx
    rw [interior_Ioi] at hx
    rw [(hd x hx).deriv]
    have := sinh_le_id_cosh (le_of_lt hx)
    apply div_nonneg _ (sq_nonneg _)
    linarith

/-- The Langevin function `coth y - 1 / y` lies between 0 and `tanh (y / 2)`. -/
theorem langevin {y : ℝ} (hy : 0 < y) : 0 ≤ coth y - 1 / y ∧ coth y - 1 / y ≤ Real.tanh (y / 2) := by
  have hs := sinh_pos hy
  have h1 := sinh_le_id_cosh hy.le
  have hc : coth y = Real.cosh y / Real.sinh y := by
    unfold coth; rw [Real.tanh_eq_sinh_div_cosh, one_div_div]
  have hs2 : 0 < Real.sinh (y / 2) := sinh_pos (by linarith)
  have hc2 : 0 < Real.cosh (y / 2) := Real.cosh_pos _
  have e1 : Real.sinh y = 2 * Real.sinh (y / 2) * Real.cosh (y / 2) := by
    rw [← Real.sinh_two_mul]; congr 1; ring
  have e2 : Real.cosh y = 2 * Real.sinh (y / 2) ^ 2 + 1 := by
    rw [show y = 2 * (y / 2) by ring, Real.cosh_two_mul, Real.cosh_sq]
    ring_nf
  have h2 : y ≤ Real.sinh y := Real.self_le_sinh_iff.2 hy.le
  rw [hc]
  constructor
  · rw [sub_nonneg, div_le_div_iff₀ hy hs]; linarith
  · have e3 : Real.tanh (y / 2) = (Real.cosh y - 1) / Real.sinh y := by
      rw [Real.tanh_eq_sinh_div_cosh, e1, e2]; field_simp; ring
    rw [e3, sub_div]
    have : 1 / Real.sinh y ≤ 1 / y := one_div_le_one_div_of_le hy h2
    linarith

section
variable (c : Const) (integ : List ℝ → List ℝ → ℝ) (f dos : List ℝ)

theorem arg_lim_top (x : ℝ) : Tendsto (fun T => arg c T x) atTop (𝓝 0) := by
  have : (fun T => arg c T x) = fun T => c.h * x / c.kb * T⁻¹ := by
    funext T; unfold arg; rw [← div_div, div_eq_mul_inv (c.h * x / c.kb)]
  rw [this]
  simpa using tendsto_inv_atTop_zero.const_mul (c.h * x / c.kb)

theorem arg_pos' (hh : 0 < c.h) (hk : 0 < c.kb) {x T : ℝ} (hx : 0 < x) (hT : 0 < T) : 0 < arg c T x := by
  unfold arg; positivity

/-- Sums with a rule which is non-negative on non-negative arrays are monotone in the integrand. -/
theorem quad_mono (hI : IsQuadrature integ) (hl : f.length = dos.length)
    (hd : ∀ x ∈ dos, 0 ≤ x) (hpos : ∀ y : List ℝ, y.length = f.length → (∀ v ∈ y, 0 ≤ v) → 0 ≤ integ y f)
    (g1 g2 : ℝ → ℝ → ℝ) (h : ∀ d, 0 ≤ d → ∀ x ∈ f, g1 d x ≤ g2 d x) :
    integ (List.zipWith g1 dos f) f ≤ integ (List.zipWith g2 dos f) f := by
  have e := quad_lin hI f dos hl (fun d x => g2 d x - g1 d x) g2 g1 1 (-1) (fun x _ d => by ring)
  have p : 0 ≤ integ (List.zipWith (fun d x => g2 d x - g1 d x) dos f) f := by
    apply hpos _ (by simp [hl])
    intro v hv
    rw [← List.map_uncurry_zip_eq_zipWith] at hv
    obtain ⟨q, hq, rfl⟩ := List.mem_map.1 hv
    exact sub_nonneg.2 (h _ (hd _ (List.of_mem_zip hq).1) _ (List.of_mem_zip hq).2)
  linarith

/-- **C175** (heat capacity). With a non-negative dos the heat capacity never falls with the temperature and
never exceeds the classical value, the integral of the dos. -/
theorem C175_heat (hh : 0 < c.h) (hk : 0 < c.kb) (hI : IsQuadrature integ)
    (hl : f.length = dos.length) (hf : ∀ x ∈ f, 0 < x)
    (hd : ∀ x ∈ dos, 0 ≤ x) (hpos : ∀ y : List ℝ, y.length = f.length → (∀ v ∈ y, 0 ≤ v) → 0 ≤ integ y f) :
    MonotoneOn (cv c integ f dos) (Set.Ioi 0) ∧ ∀ T, 0 < T → cv c integ f dos T ≤ integ dos f := by
  have hm : MonotoneOn (cv c integ f dos) (Set.Ioi 0) := by
    intro T hT T' hT' hTT
    have hT0 : 0 < T := hT
    have hT0' : 0 < T' := hT'
    have e : ∀ t, cv c integ f dos t = integ (List.zipWith (fun d x =>
        (c.h / (c.kb * 2 * t)) ^ 2 * (d * x ^ 2 / Real.sinh (arg c t x / 2) ^ 2)) dos f) f := by
      intro t
      unfold cv
      rw [quad_lin hI f dos hl (fun d x => (c.h / (c.kb * 2 * t)) ^ 2 * (d * x ^ 2 / Real.sinh (arg c t x / 2) ^ 2))
        (fun d x => d * x ^ 2 / Real.sinh (arg c t x / 2) ^ 2) (fun _ _ => 0) ((c.h / (c.kb * 2 * t)) ^ 2) 0 (fun x _ d => by ring)]
      ring
    rw [e T, e T']
    apply quad_mono integ f dos hI hl hd hpos
    intro d hd0 x hx
    have hx := hf x hx
    have ha := arg_pos' c hh hk hx hT0
    have ha' := arg_pos' c hh hk hx hT0'
    have hle : arg c T' x / 2 ≤ arg c T x / 2 := by
      unfold arg
      have : c.h * x / (c.kb * T') ≤ c.h * x / (c.kb * T) := by
        apply div_le_div_of_nonneg_left (by positivity) (by positivity)
        exact mul_le_mul_of_nonneg_left hTT hk.le
      linarith
    have hm := sinh_div_mono (show arg c T' x / 2 ∈ Set.Ioi 0 by simp [ha']) (show arg c T x / 2 ∈ Set.Ioi 0 by simp [ha]) hle
    have hs := sinh_pos (show 0 < arg c T x / 2 by linarith)
    have hs' := sinh_pos (show 0 < arg c T' x / 2 by linarith)
    have key : ∀ t, 0 < t → (c.h / (c.kb * 2 * t)) ^ 2 * (d * x ^ 2 / Real.sinh (arg c t x / 2) ^ 2) =
        d / (Real.sinh (arg c t x / 2) / (arg c t x / 2)) ^ 2 := by
      intro t ht
      have hst := sinh_pos (show 0 < arg c t x / 2 by have := arg_pos' c hh hk hx ht; linarith)
      have : c.h / (c.kb * 2 * t) = arg c t x / 2 / x := by unfold arg; field_simp
      rw [this]
      field_simp
    rw [key T hT0, key T' hT0']
    apply div_le_div_of_nonneg_left hd0 (by positivity)
    apply pow_le_pow_left₀ (by positivity) hm
  refine ⟨hm, fun T hT => ?_⟩
  apply ge_of_tendsto (C66_high_temperature c integ f dos hh hk hI hl hf)
  filter_upwards [eventually_ge_atTop T] with t ht
  exact hm hT (lt_of_lt_of_le hT ht) ht

/-- **C175** (energy). For `T → ∞` the internal energy approaches the classical value `k T` times the integral of
the dos: the difference goes to 0. -/
theorem C175_energy (hh : 0 < c.h) (hk : 0 < c.kb) (he : c.eV ≠ 0) (hI : IsQuadrature integ)
    (hl : f.length = dos.length) (hf : ∀ x ∈ f, 0 < x) :
    Tendsto (fun T => evib c integ f dos T - c.kb / c.eV * T * integ dos f) atTop (𝓝 0) := by
  have e0 : integ dos f = integ (List.zipWith (fun d _ => d) dos f) f := by
    congr 1
    apply List.ext_getElem
    · simp [hl]
    · intro i h1 h2; simp
  have key := quad_lim integ f dos hI hl (fun T d x => d * (x * (1 / 2 + 1 / (Real.exp (arg c T x) - 1)) - c.kb / c.h * T))
    (fun _ _ => 0) atTop (by
      intro x hx d
      have hx := hf x hx
      have hb : Tendsto (fun T => x / 2 * Real.tanh (arg c T x / 2 / 2)) atTop (𝓝 0) := by
        have h1 : Tendsto (fun T => arg c T x / 2 / 2) atTop (𝓝 0) := by
          simpa using ((arg_lim_top c x).div_const 2).div_const 2
        have h2 : Tendsto Real.tanh (𝓝 0) (𝓝 0) := by
          have h3 : Real.tanh = fun x => Real.sinh x / Real.cosh x := by
            funext x; exact Real.tanh_eq_sinh_div_cosh x
          have : Continuous Real.tanh := by
            rw [h3]
            exact Real.continuous_sinh.div Real.continuous_cosh (fun x => (Real.cosh_pos x).ne')
          simpa using this.tendsto 0
        simpa using (h2.comp h1).const_mul (x / 2)
      have := (squeeze_zero' (f := fun T => x * (1 / 2 + 1 / (Real.exp (arg c T x) - 1)) - c.kb / c.h * T) ?_ ?_ hb).const_mul d
      · simpa using this
      all_goals
        filter_upwards [eventually_gt_atTop 0] with T hT
        have ha := arg_pos' c hh hk hx hT
        have hL := langevin (show 0 < arg c T x / 2 by linarith)
        have e : x * (1 / 2 + 1 / (Real.exp (arg c T x) - 1)) - c.kb / c.h * T = x / 2 * (coth (arg c T x / 2) - 1 / (arg c T x / 2)) := by
          rw [← coth_eq ha, mul_sub]
          have : x / 2 * (1 / (arg c T x / 2)) = c.kb / c.h * T := by unfold arg; field_simp
          rw [this]; ring
        rw [e]
      · exact mul_nonneg (by linarith) hL.1
      · exact mul_le_mul_of_nonneg_left hL.2 (by linarith))
  rw [quad_zero integ f dos hI hl] at key
  have := key.mul_const (c.h / c.eV)
  rw [zero_mul] at this
  refine this.congr (fun T => ?_)
  unfold evib
  rw [e0, quad_lin hI f dos hl (fun d x => d * (x * (1 / 2 + 1 / (Real.exp (arg c T x) - 1)) - c.kb / c.h * T))
    (fun d x => d * x * (1 / 2 + 1 / (Real.exp (arg c T x) - 1))) (fun d _ => d) 1 (-(c.kb / c.h * T)) (fun x _ d => by ring)]
  field_simp
  ring

/-- **C175** (bounds). With a non-negative dos the internal energy is never below the classical value `k T ∫ dos`,
and never above it by more than the zero point energy. -/
theorem C175_energy_bounds (hh : 0 < c.h) (hk : 0 < c.kb) (he : 0 < c.eV) (hI : IsQuadrature integ)
    (hl : f.length = dos.length) (hf : ∀ x ∈ f, 0 < x)
    (hd : ∀ x ∈ dos, 0 ≤ x) (hpos : ∀ y : List ℝ, y.length = f.length → (∀ v ∈ y, 0 ≤ v) → 0 ≤ integ y f) (T : ℝ) (hT : 0 < T) :
    c.kb / c.eV * T * integ dos f ≤ evib c integ f dos T ∧
    evib c integ f dos T ≤ c.kb / c.eV * T * integ dos f + integ (List.zipWith (fun d x => d * x / 2) dos f) f * (c.h / c.eV) := by
  have hD : ∀ t, 0 < t → HasDerivAt (fun T => evib c integ f dos T - c.kb / c.eV * T * integ dos f)
      (cv c integ f dos t * (c.kb / c.eV) - c.kb / c.eV * integ dos f) t := by
    intro t ht
    have h1 := ((hasDerivAt_id t).const_mul (c.kb / c.eV)).mul_const (integ dos f)
    exact ((C66_cv c integ f dos hh hk hI hl hf t ht).sub h1).congr_deriv (by simp)
  have hanti : AntitoneOn (fun T => evib c integ f dos T - c.kb / c.eV * T * integ dos f) (Set.Ioi 0) := by
    apply antitoneOn_of_deriv_nonpos (convex_Ioi 0)
    · intro t ht; exact (hD t ht).continuousAt.continuousWithinAt
    · intro t ht; rw [interior_Ioi] at ht; exact (hD t ht).differentiableAt.differentiableWithinAt
    · intro t ht
      rw [interior_Ioi] at ht
      rw [(hD t ht).deriv]
      have := (C175_heat c integ f dos hh hk hI hl hf hd hpos).2 t ht
      have hp : 0 < c.kb / c.eV := by positivity
      nlinarith
  constructor
  · have := le_of_tendsto (C175_energy c integ f dos hh hk he.ne' hI hl hf)
      (b := evib c integ f dos T - c.kb / c.eV * T * integ dos f) (by
        filter_upwards [eventually_ge_atTop T] with t ht
        exact hanti hT (lt_of_lt_of_le hT ht) ht)
    linarith
  · obtain ⟨_, _, l1, _⟩ := C157_low_temperature c integ f dos hh hk he.ne' hI hl hf
    have hid : Tendsto (fun t : ℝ => c.kb / c.eV * t * integ dos f) (𝓝[>] 0) (𝓝 0) := by
      have : Continuous (fun t : ℝ => c.kb / c.eV * t * integ dos f) := by fun_prop
      have := (this.tendsto 0).mono_left (nhdsWithin_le_nhds (s := Set.Ioi 0))
      simpa using this
    have := ge_of_tendsto (l1.sub hid) (b := evib c integ f dos T - c.kb / c.eV * T * integ dos f) (by
      filter_upwards [Ioc_mem_nhdsGT hT] with t ht
      exact hanti ht.1 hT ht.2)
    linarith

/-- `log (sinh y / y)` lies between 0 and `cosh y - 1`. -/
theorem log_sinhc {y : ℝ} (hy : 0 < y) : 0 ≤ Real.log (Real.sinh y / y) ∧ Real.log (Real.sinh y / y) ≤ Real.cosh y - 1 := by
  have h1 : 1 ≤ Real.sinh y / y := (one_le_div hy).2 (Real.self_le_sinh_iff.2 hy.le)
  refine ⟨Real.log_nonneg h1, ?_⟩
  have h2 : Real.sinh y / y ≤ Real.cosh y := by
    rw [div_le_iff₀ hy]; have := sinh_le_id_cosh hy.le; linarith
  have := Real.log_le_sub_one_of_pos (show 0 < Real.sinh y / y by linarith)
  linarith

theorem cosh_slope : Tendsto (fun y : ℝ => (Real.cosh y - 1) / y) (𝓝[>] 0) (𝓝 0) := by
  have h := (hasDerivAt_iff_tendsto_slope.1 (Real.hasDerivAt_cosh 0)).mono_left
    (nhdsWithin_mono 0 (fun x (hx : x ∈ Set.Ioi (0 : ℝ)) => (ne_of_gt hx : x ≠ 0)))
  rw [Real.sinh_zero] at h
  refine h.congr (fun y => ?_)
  simp [slope_def_field]

/-- **C175** (free energy). For `T → ∞` the difference of the free energy and its classical value
`k T ∫ dos log (h f / (k T))` goes to 0, and with a non-negative dos the free energy is never below it. -/
theorem C175_free (hh : 0 < c.h) (hk : 0 < c.kb) (he : 0 < c.eV) (hI : IsQuadrature integ)
    (hl : f.length = dos.length) (hf : ∀ x ∈ f, 0 < x) :
    Tendsto (fun T => fvib c integ f dos T -
      c.kb / c.eV * T * integ (List.zipWith (fun d x => d * Real.log (c.h * x / (c.kb * T))) dos f) f) atTop (𝓝 0) ∧
    ((∀ x ∈ dos, 0 ≤ x) → (∀ y : List ℝ, y.length = f.length → (∀ v ∈ y, 0 ≤ v) → 0 ≤ integ y f) → ∀ T, 0 < T →
      c.kb / c.eV * T * integ (List.zipWith (fun d x => d * Real.log (c.h * x / (c.kb * T))) dos f) f ≤ fvib c integ f dos T) := by
  have mode : ∀ x ∈ f, ∀ T, 0 < T → Real.log (2 * Real.sinh (arg c T x / 2)) - Real.log (c.h * x / (c.kb * T)) =
      Real.log (Real.sinh (arg c T x / 2) / (arg c T x / 2)) := by
    intro x hx T hT
    have ha := arg_pos' c hh hk (hf x hx) hT
    have hs := sinh_pos (show 0 < arg c T x / 2 by linarith)
    rw [← Real.log_div (by positivity) (by have := hf x hx; positivity)]
    congr 1
    show 2 * Real.sinh (arg c T x / 2) / arg c T x = _
    field_simp
  constructor
  · have key := quad_lim integ f dos hI hl (fun T d x => d * (T * (Real.log (2 * Real.sinh (arg c T x / 2)) - Real.log (c.h * x / (c.kb * T)))))
      (fun _ _ => 0) atTop (by
        intro x hx d
        have hx' := hf x hx
        have h0 : Tendsto (fun T => arg c T x / 2) atTop (𝓝[>] 0) := by
          apply tendsto_nhdsWithin_iff.2
          refine ⟨by simpa using (arg_lim_top c x).div_const 2, ?_⟩
          filter_upwards [eventually_gt_atTop 0] with T hT
          have := arg_pos' c hh hk hx' hT
          exact Set.mem_Ioi.2 (by linarith)
        have hb := (cosh_slope.comp h0).const_mul (c.h * x / (2 * c.kb))
        rw [mul_zero] at hb
        have := (squeeze_zero' (f := fun T => T * (Real.log (2 * Real.sinh (arg c T x / 2)) - Real.log (c.h * x / (c.kb * T)))) ?_ ?_ hb).const_mul d
        · simpa using this
        all_goals
          filter_upwards [eventually_gt_atTop 0] with T hT
          have ha := arg_pos' c hh hk hx' hT
          have hL := log_sinhc (show 0 < arg c T x / 2 by linarith)
          rw [mode x hx T hT]
        · exact mul_nonneg hT.le hL.1
        · have e : c.h * x / (2 * c.kb) * (((fun y : ℝ => (Real.cosh y - 1) / y) ∘ fun T => arg c T x / 2) T) = T * (Real.cosh (arg c T x / 2) - 1) := by
            simp only [Function.comp]
            have : c.h * x / (2 * c.kb) = T * (arg c T x / 2) := by unfold arg; field_simp
            rw [this]; field_simp
          rw [e]
          exact mul_le_mul_of_nonneg_left hL.2 hT.le)
    rw [quad_zero integ f dos hI hl] at key
    have := key.mul_const (c.kb / c.eV)
    rw [zero_mul] at this
    refine this.congr (fun T => ?_)
    unfold fvib
    rw [quad_lin hI f dos hl (fun d x => d * (T * (Real.log (2 * Real.sinh (arg c T x / 2)) - Real.log (c.h * x / (c.kb * T)))))
      (fun d x => d * Real.log (2 * Real.sinh (arg c T x / 2))) (fun d x => d * Real.log (c.h * x / (c.kb * T))) T (-T) (fun x _ d => by ring)]
    ring
  · intro hd hpos T hT
    have := quad_mono integ f dos hI hl hd hpos (fun d x => d * Real.log (c.h * x / (c.kb * T)))
      (fun d x => d * Real.log (2 * Real.sinh (arg c T x / 2))) (by
        intro d hd0 x hx
        apply mul_le_mul_of_nonneg_left _ hd0
        have ha := arg_pos' c hh hk (hf x hx) hT
        have := mode x hx T hT
        have := (log_sinhc (show 0 < arg c T x / 2 by linarith)).1
        linarith)
    unfold fvib
    have h2 := mul_le_mul_of_nonneg_left this (show 0 ≤ c.kb / c.eV * T by positivity)
    linarith

/-- **C175** (entropy). For `T → ∞` the difference of the entropy and its classical value
`∫ dos (1 - log (h f / (k T)))` goes to 0. -/
theorem C175_entropy (hh : 0 < c.h) (hk : 0 < c.kb) (he : 0 < c.eV) (hI : IsQuadrature integ)
    (hl : f.length = dos.length) (hf : ∀ x ∈ f, 0 < x) :
    Tendsto (fun T => svib c integ f dos T -
      integ (List.zipWith (fun d x => d * (1 - Real.log (c.h * x / (c.kb * T)))) dos f) f) atTop (𝓝 0) := by
  have h1 := C175_energy c integ f dos hh hk he.ne' hI hl hf
  have h2 := (C175_free c integ f dos hh hk he hI hl hf).1
  have h3 := ((h1.sub h2).mul tendsto_inv_atTop_zero).const_mul (c.eV / c.kb)
  simp only [sub_zero, mul_zero] at h3
  refine h3.congr' ?_
  filter_upwards [eventually_gt_atTop 0] with T hT
  have e0 : integ dos f = integ (List.zipWith (fun d _ => d) dos f) f := by
    congr 1
    apply List.ext_getElem
    · simp [hl]
    · intro i h1 h2; simp
  rw [C66_energy c integ f dos hh hk he.ne' hI hl hf T hT, quad_lin hI f dos hl (fun d x => d * (1 - Real.log (c.h * x / (c.kb * T))))
    (fun d _ => d) (fun d x => d * Real.log (c.h * x / (c.kb * T))) 1 (-1) (fun x _ d => by ring), ← e0]
  field_simp
  ring

/-- **C175** (law of Dulong and Petit). An object made with `dosarea=area` from a non-negative dos whose integral over the
frequencies in use is positive: for `T → ∞` the heat capacity tends to `area`, the internal energy divided by
the temperature to `k · area`, and the heat capacity is between 0 and `area` at each temperature. -/
theorem C175_dulong_petit (hh : 0 < c.h) (hk : 0 < c.kb) (he : 0 < c.eV) (hI : IsQuadrature integ) (hH : Homogeneous integ)
    (freq : List ℝ) (skip : Bool) (eps area : ℝ) (harea : 0 ≤ area) (hl : freq.length = dos.length)
    (hd : ∀ x ∈ dos, 0 ≤ x) (f d : List ℝ) (h0 : harmInit integ freq dos skip eps none = some (f, d))
    (hf : ∀ x ∈ f, 0 < x) (hpos : ∀ y : List ℝ, y.length = f.length → (∀ v ∈ y, 0 ≤ v) → 0 ≤ integ y f) (hA : integ d f ≠ 0) :
    ∃ d', harmInit integ freq dos skip eps (some area) = some (f, d') ∧
      Tendsto (cv c integ f d') atTop (𝓝 area) ∧ Tendsto (fun T => evib c integ f d' T / T) atTop (𝓝 (c.kb / c.eV * area)) ∧
      ∀ T, 0 < T → 0 ≤ cv c integ f d' T ∧ cv c integ f d' T ≤ area := by
  obtain ⟨f1, d1, e1, e2, _⟩ := C67_dosarea integ hH freq dos skip eps area hl
  rw [h0] at e1
  obtain ⟨rfl, rfl⟩ : f = f1 ∧ d = d1 := by simpa using e1
  obtain ⟨d', k, e3, e4, e5⟩ := e2 hA
  have hlen : f.length = d.length ∧ ∀ x ∈ d, 0 ≤ x := by
    simp only [harmInit, hl, ne_eq, not_true_eq_false, if_false, Option.some.injEq, Prod.mk.injEq] at h0
    obtain ⟨rfl, rfl⟩ := h0
    refine ⟨by simp, fun x hx => ?_⟩
    obtain ⟨q, hq, rfl⟩ := List.mem_map.1 hx
    have : q ∈ freq.zip dos := by
      split at hq
      · exact List.mem_of_mem_filter hq
      · exact hq
    exact hd _ (List.of_mem_zip this).2
  have hl' : f.length = d'.length := by rw [e4]; simp [hlen.1]
  have hA0 : 0 < integ d f := lt_of_le_of_ne (hpos d hlen.1.symm hlen.2) (Ne.symm hA)
  have hk0 : 0 ≤ k := by
    have h1 := hH d f k 1 one_ne_zero
    simp only [div_one, List.map_id'] at h1
    rw [← e4, e5] at h1
    by_contra hneg
    push Not at hneg
    have := mul_neg_of_pos_of_neg hA0 hneg
    linarith
  have hd' : ∀ x ∈ d', 0 ≤ x := by
    rw [e4]
    intro x hx
    obtain ⟨q, hq, rfl⟩ := List.mem_map.1 hx
    exact mul_nonneg (hlen.2 q hq) hk0
  refine ⟨d', e3, ?_, ?_, fun T hT => ⟨(C66_nonneg c integ f d' hh hk hl' hf hd' hpos T hT).2, ?_⟩⟩
  · have := C66_high_temperature c integ f d' hh hk hI hl' hf
    rwa [e5] at this
  · have h1 := (C175_energy c integ f d' hh hk he.ne' hI hl' hf).mul tendsto_inv_atTop_zero
    have h2 := h1.add_const (c.kb / c.eV * area)
    rw [mul_zero, zero_add] at h2
    refine h2.congr' ?_
    filter_upwards [eventually_gt_atTop 0] with T hT
    rw [e5]
    field_simp
    ring
  · rw [← e5]
    exact (C175_heat c integ f d' hh hk hI hl' hf hd' hpos).2 T hT

/-- **C175** (units). With a homogeneous rule: frequencies in another unit, the dos per new unit and the constant `h` in the
new unit give the same energies, entropy and heat capacity. With `h` unchanged, the same change of frequencies and dos is
one of the temperature scale: entropy and heat capacity at `s T` are those at `T`, the energies `s` times those at `T`. -/
theorem C175_units (hI : Homogeneous integ) (s : ℝ) (hs : s ≠ 0) (T : ℝ) (hT : T ≠ 0) (hk : c.kb ≠ 0) :
    let f' := f.map (· * s)
    let dos' := dos.map (· / s)
    let c' : Const := { c with h := c.h / s }
    (evib c' integ f' dos' T = evib c integ f dos T ∧ fvib c' integ f' dos' T = fvib c integ f dos T ∧
      svib c' integ f' dos' T = svib c integ f dos T ∧ cv c' integ f' dos' T = cv c integ f dos T) ∧
    (evib c integ f' dos' (s * T) = s * evib c integ f dos T ∧ fvib c integ f' dos' (s * T) = s * fvib c integ f dos T ∧
      svib c integ f' dos' (s * T) = svib c integ f dos T ∧ cv c integ f' dos' (s * T) = cv c integ f dos T) := by
  intro f' dos' c'
  have key : ∀ (g g' : ℝ → ℝ → ℝ) (a : ℝ), (∀ d x, g' (d / s) (x * s) = g d x * a) →
      integ (List.zipWith g' dos' f') f' = integ (List.zipWith g dos f) f * (a * s) := by
    intro g g' a hg
    have e1 : List.zipWith g' dos' f' = (List.zipWith g dos f).map (· * a) := by
      simp only [dos', f', List.zipWith_map, List.map_zipWith, hg]
    have e2 : f' = f.map (· / s⁻¹) := by
      simp only [f', div_inv_eq_mul]
    rw [e1, e2, hI _ _ _ _ (inv_ne_zero hs), div_inv_eq_mul, mul_assoc]
  have a1 : ∀ x, arg c' T (x * s) = arg c T x := by
    intro x; simp only [arg, c']; field_simp
  have a2 : ∀ x, arg c (s * T) (x * s) = arg c T x := by
    intro x; simp only [arg]; field_simp
  refine ⟨⟨?_, ?_, ?_, ?_⟩, ?_, ?_, ?_, ?_⟩
  · unfold evib
    rw [key (fun d f => d * f * (1 / 2 + 1 / (Real.exp (arg c T f) - 1))) _ 1 (fun d x => by rw [a1]; field_simp)]
    simp only [c']; field_simp
  · unfold fvib
    rw [key (fun d f => d * Real.log (2 * Real.sinh (arg c T f / 2))) _ s⁻¹ (fun d x => by rw [a1]; field_simp)]
    simp only [c']; field_simp
  · unfold svib
    rw [key (fun d f => d * (1 / 2 / T * (c.h / c.kb) * f * coth (arg c T f / 2) - Real.log (2 * Real.sinh (arg c T f / 2)))) _ s⁻¹ (fun d x => by rw [a1]; simp only [c']; field_simp)]
    field_simp
  · unfold cv
    rw [key (fun d f => d * f ^ 2 / Real.sinh (arg c T f / 2) ^ 2) _ s (fun d x => by rw [a1]; field_simp)]
    simp only [c']; field_simp
  · unfold evib
    rw [key (fun d f => d * f * (1 / 2 + 1 / (Real.exp (arg c T f) - 1))) _ 1 (fun d x => by rw [a2]; field_simp)]
    field_simp
  · unfold fvib
    rw [key (fun d f => d * Real.log (2 * Real.sinh (arg c T f / 2))) _ s⁻¹ (fun d x => by rw [a2]; field_simp)]
    field_simp
  · unfold svib
    rw [key (fun d f => d * (1 / 2 / T * (c.h / c.kb) * f * coth (arg c T f / 2) - Real.log (2 * Real.sinh (arg c T f / 2)))) _ s⁻¹ (fun d x => by rw [a2]; field_simp)]
    field_simp
  · unfold cv
    rw [key (fun d f => d * f ^ 2 / Real.sinh (arg c T f / 2) ^ 2) _ s (fun d x => by rw [a2]; field_simp)]
    field_simp

end

/-- Non-vacuity: the trapezoidal rule, positive increasing frequencies of which one is skipped, a non-negative dos. -/
example : IsQuadrature (Num.trapz (K := ℝ)) ∧ Homogeneous (Num.trapz (K := ℝ)) ∧
    harmInit Num.trapz [(-1 : ℝ), 1, 2, 4] [5, 0, 2, 0] true 0 none = some ([1, 2, 4], [0, 2, 0]) ∧
    (∀ x ∈ [(1 : ℝ), 2, 4], 0 < x) ∧ (∀ x ∈ [(5 : ℝ), 0, 2, 0], 0 ≤ x) ∧ Num.trapz [(0 : ℝ), 2, 0] [1, 2, 4] ≠ 0 ∧
    ∀ y : List ℝ, y.length = [(1 : ℝ), 2, 4].length → (∀ v ∈ y, 0 ≤ v) → 0 ≤ Num.trapz y [1, 2, 4] :=
  ⟨trapz_quad, Num.trapz_homogeneous, by norm_num [harmInit], by simp, by norm_num, by norm_num [Num.trapz],
    fun y _ hy => trapz_nonneg y _ hy (by simp; norm_num)⟩

end Pwtools.Thermo
