import Verif.Props.Eos
import Verif.Spec.EosPhys
import Mathlib.Topology.Order.IntermediateValue
/-!
# C165: the meaning of the parameters of the Vinet equation of state
-/
namespace Pwtools.Eos
open Spec
variable (p : Params)

theorem eta_lt_one (hv : 0 < p.v0) {V : ℝ} (hV : 0 < V) : eta p V < 1 ↔ V < p.v0 := by
  have h3 := eta_cube p hv hV
  have hq := eta_pos p hv hV
  rw [← pow_lt_one_iff_of_nonneg hq.le (n := 3) (by norm_num), h3, div_lt_one hv]

theorem eta_le_one (hv : 0 < p.v0) {V : ℝ} (hV : 0 < V) : eta p V ≤ 1 ↔ V ≤ p.v0 := by
  have h3 := eta_cube p hv hV
  have hq := eta_pos p hv hV
  rw [← pow_le_one_iff_of_nonneg hq.le (n := 3) (by norm_num), h3, div_le_one hv]

/-- The volume with a given `eta`. -/
theorem eta_of (hv : 0 < p.v0) {η : ℝ} (hη : 0 < η) : eta p (p.v0 * η ^ 3) = η := by
  unfold eta
  rw [mul_div_cancel_left₀ _ hv.ne', ← Real.rpow_natCast, ← Real.rpow_mul hη.le]
  norm_num

/-- `E''` up to a positive factor. -/
theorem vinet2_form (V : ℝ) : vinet2 p V = -(3 * (p.b1 - 1) * eta p V ^ 2 - (3 * p.b1 - 5) * eta p V - 4) *
    (p.b0 / (2 * eta p V ^ 5 * p.v0) * Real.exp (1.5 * (-eta p V * p.b1 + p.b1 + eta p V - 1))) := by
  unfold vinet2
  simp only
  ring

theorem factor_pos (hv : 0 < p.v0) (hb : 0 < p.b0) {V : ℝ} (hV : 0 < V) :
    0 < p.b0 / (2 * eta p V ^ 5 * p.v0) * Real.exp (1.5 * (-eta p V * p.b1 + p.b1 + eta p V - 1)) := by
  have := eta_pos p hv hV
  have := Real.exp_pos (1.5 * (-eta p V * p.b1 + p.b1 + eta p V - 1))
  positivity

/-- **C165** (parameter `b1`). With the bulk modulus `B = V E''` and the pressure `P = -E'`, `dB/dP` at `V0` is the parameter `b1`. -/
theorem C165_b1 (spl : Nat → ℝ → ℝ) (conv : ℝ) (hc : conv ≠ 0) (hv : 0 < p.v0) (hb : p.b0 ≠ 0) :
    ∃ B' P', HasDerivAt (fun V => V * call p spl V 2 * conv) B' p.v0 ∧ HasDerivAt (fun V => pressure p spl conv V) P' p.v0 ∧
      P' ≠ 0 ∧ B' / P' = p.b1 := by
  have he := eta_deriv p hv hv
  rw [eta_v0 p hv] at he
  have h1 := (((((((he.pow 2).const_mul 3).mul_const p.b1).sub ((he.const_mul 3).mul_const p.b1)).sub ((he.pow 2).const_mul 3)).add
    (he.const_mul 5)).sub_const 4).const_mul (-p.b0)
  have hden := ((he.pow 5).const_mul 2).mul_const p.v0
  have h2 := h1.div hden (by simp [eta_v0 p hv, hv.ne'])
  have h3 := h2.mul ((((((he.neg).mul_const p.b1).add_const p.b1).add he).sub_const 1).const_mul 1.5).exp
  have h4 := ((hasDerivAt_id p.v0).mul h3).mul_const conv
  refine ⟨-p.b0 * p.b1 / p.v0 * conv, -p.b0 / p.v0 * conv, ?_, ?_, ?_, ?_⟩
  · refine (h4.congr_deriv ?_ : HasDerivAt (fun V => V * vinet2 p V * conv) _ p.v0)
    simp only [Pi.pow_apply, Pi.mul_apply, Pi.add_apply, Pi.sub_apply, Pi.neg_apply, Pi.div_apply, eta_v0 p hv, id]
    norm_num
    left
    field_simp
    ring
  · have h5 := (C69_deriv2 p spl hv p.v0 hv).neg.mul_const conv
    refine (h5.congr_deriv ?_ : HasDerivAt (fun V => -(call p spl V 1) * conv) _ p.v0)
    simp only [call, vinet2, eta_v0 p hv]
    norm_num
    field_simp
  · have := hv.ne'
    simp [hb, hc, this]
  · have := hv.ne'
    field_simp

/-- **C165** (parameters `v0`, `e0`). With positive `b0` the energy has its smallest value `e0` at `v0` only. -/
theorem C165_minimum (spl : Nat → ℝ → ℝ) (hv : 0 < p.v0) (hb0 : 0 < p.b0) (hb : p.b1 ≠ 1) (V : ℝ) (hV : 0 < V) (hne : V ≠ p.v0) :
    p.e0 < call p spl V 0 := by
  have h0 : call p spl p.v0 0 = p.e0 := (C69_minimum p spl 1 hv hb).2.1
  have hd := C69_deriv1 p spl hv hb
  rw [← h0]
  rcases lt_or_gt_of_ne hne with h | h
  · have := strictAntiOn_of_deriv_neg (f := fun V => call p spl V 0) (convex_Icc V p.v0)
      (fun x hx => (hd x (hV.trans_le hx.1)).continuousAt.continuousWithinAt) (fun x hx => by
        rw [interior_Icc] at hx
        rw [(hd x (hV.trans hx.1)).deriv]
        have := (C69_pressure_sign p spl 1 one_pos hv hb0 x (hV.trans hx.1)).1 hx.2
        simp only [pressure, mul_one] at this
        linarith)
    exact this ⟨le_rfl, h.le⟩ ⟨h.le, le_rfl⟩ h
  · have := strictMonoOn_of_deriv_pos (f := fun V => call p spl V 0) (convex_Icc p.v0 V)
      (fun x hx => (hd x (hv.trans_le hx.1)).continuousAt.continuousWithinAt) (fun x hx => by
        rw [interior_Icc] at hx
        rw [(hd x (hv.trans hx.1)).deriv]
        have := (C69_pressure_sign p spl 1 one_pos hv hb0 x (hv.trans hx.1)).2 hx.1
        simp only [pressure, mul_one] at this
        linarith)
    exact this ⟨le_rfl, h.le⟩ ⟨h.le, le_rfl⟩ h

/-- **C165** (stability). For `b1 > 1` and positive `b0` there is exactly one volume above `v0` at which the bulk modulus is zero; it is
positive at all smaller volumes and negative at all larger ones. -/
theorem C165_stability (spl : Nat → ℝ → ℝ) (hv : 0 < p.v0) (hb0 : 0 < p.b0) (hb : 1 < p.b1) :
    ∃ Vs, p.v0 < Vs ∧ call p spl Vs 2 = 0 ∧ (∀ V, 0 < V → V < Vs → 0 < call p spl V 2) ∧ ∀ V, Vs < V → call p spl V 2 < 0 := by
  set A := 3 * (p.b1 - 1) with hA
  have hA0 : 0 < A := by rw [hA]; linarith
  set C := 3 * p.b1 - 5 with hC
  set D := Real.sqrt (C ^ 2 + 16 * A) with hD
  have hD2 : D ^ 2 = C ^ 2 + 16 * A := Real.sq_sqrt (by positivity)
  have hDpos : 0 ≤ D := Real.sqrt_nonneg _
  set s := (C + D) / (2 * A) with hs
  have hCA : C = A - 2 := by rw [hC, hA]; ring
  -- the other root is negative
  have hDC : |C| < D := by
    rw [hD]
    apply Real.lt_sqrt_of_sq_lt
    rw [sq_abs]
    linarith
  have hs0 : 0 < s := by
    rw [hs]
    have := neg_abs_le C
    exact div_pos (by linarith) (by linarith)
  have hfac : ∀ η : ℝ, A * η ^ 2 - C * η - 4 = A * (η - s) * (η + (D - C) / (2 * A)) := by
    intro η
    rw [hs]
    field_simp
    linear_combination hD2
  have hs1 : 1 < s := by
    by_contra h
    have h1 := hfac 1
    have h2 : 0 ≤ A * (1 - s) * (1 + (D - C) / (2 * A)) := by
      have : 0 ≤ (D - C) / (2 * A) := div_nonneg (by linarith [le_abs_self C]) (by linarith)
      have : 0 ≤ 1 - s := by linarith
      positivity
    rw [← h1] at h2
    linarith
  have hform : ∀ V, 0 < V → ∃ c, 0 < c ∧ call p spl V 2 = (s - eta p V) * c := by
    intro V hV
    have hη := eta_pos p hv hV
    have hf := factor_pos p hv hb0 hV
    refine ⟨A * (eta p V + (D - C) / (2 * A)) * (p.b0 / (2 * eta p V ^ 5 * p.v0) * Real.exp (1.5 * (-eta p V * p.b1 + p.b1 + eta p V - 1))), ?_, ?_⟩
    · have : 0 ≤ (D - C) / (2 * A) := div_nonneg (by linarith [le_abs_self C]) (by linarith)
      have : 0 < eta p V + (D - C) / (2 * A) := by linarith
      positivity
    · show vinet2 p V = _
      rw [vinet2_form, hfac (eta p V)]
      ring
  have hmono : ∀ V, 0 < V → (eta p V < s ↔ V < p.v0 * s ^ 3) := by
    intro V hV
    rw [← pow_lt_pow_iff_left₀ (eta_pos p hv hV).le hs0.le (n := 3) (by norm_num), eta_cube p hv hV, div_lt_iff₀' hv]
  have hVs : 0 < p.v0 * s ^ 3 := by positivity
  refine ⟨p.v0 * s ^ 3, ?_, ?_, ?_, ?_⟩
  · have : 1 < s ^ 3 := one_lt_pow₀ hs1 (by norm_num)
    nlinarith
  · obtain ⟨c, -, h⟩ := hform _ hVs
    rw [h, eta_of p hv hs0]
    ring
  · intro V hV hlt
    obtain ⟨c, hc, h⟩ := hform V hV
    rw [h]
    exact mul_pos (by linarith [(hmono V hV).2 hlt]) hc
  · intro V hlt
    have hV := hVs.trans hlt
    obtain ⟨c, hc, h⟩ := hform V hV
    rw [h]
    refine mul_neg_of_neg_of_pos ?_ hc
    have h1 : ¬ eta p V < s := fun h' => absurd ((hmono V hV).1 h') (not_lt.2 hlt.le)
    have h2 : eta p V ≠ s := by
      intro e
      have := eta_cube p hv hV
      rw [e, eq_div_iff hv.ne'] at this
      linarith
    have := lt_of_le_of_ne (not_lt.1 h1) (Ne.symm h2)
    linarith

/-- **C165** (compression). For `b1 > 1` and positive `b0` each non-negative pressure belongs to exactly one volume up to `v0`, and higher
pressures to smaller volumes. -/
theorem C165_compression (spl : Nat → ℝ → ℝ) (conv : ℝ) (hc : 0 < conv) (hv : 0 < p.v0) (hb0 : 0 < p.b0) (hb : 1 < p.b1) :
    StrictAntiOn (pressure p spl conv) (Set.Ioc 0 p.v0) ∧ ∀ P, 0 ≤ P → ∃! V, V ∈ Set.Ioc 0 p.v0 ∧ pressure p spl conv V = P := by
  have hd : ∀ V, 0 < V → HasDerivAt (pressure p spl conv) (-(call p spl V 2) * conv) V :=
    fun V hV => (C69_deriv2 p spl hv V hV).neg.mul_const conv
  have hanti : StrictAntiOn (pressure p spl conv) (Set.Ioc 0 p.v0) := by
    refine strictAntiOn_of_deriv_neg (convex_Ioc 0 p.v0) (fun x hx => (hd x hx.1).continuousAt.continuousWithinAt) (fun x hx => ?_)
    rw [interior_Ioc] at hx
    rw [(hd x hx.1).deriv]
    obtain ⟨Vs, h1, -, h2, -⟩ := C165_stability p spl hv hb0 hb
    have := h2 x hx.1 (hx.2.trans h1)
    have := mul_pos this hc
    linarith
  refine ⟨hanti, fun P hP => ?_⟩
  -- a volume with a higher pressure
  set η := min (1 / 2) (1.5 * p.b0 * conv / (P + 1)) with hη
  have hη0 : 0 < η := lt_min (by norm_num) (by positivity)
  have hη1 : η ≤ 1 / 2 := min_le_left _ _
  have hη2 : η ≤ 1.5 * p.b0 * conv / (P + 1) := min_le_right _ _
  have hV1 : 0 < p.v0 * η ^ 3 := by positivity
  have hle : p.v0 * η ^ 3 ≤ p.v0 := by
    have : η ^ 3 ≤ 1 := pow_le_one₀ hη0.le (by linarith)
    nlinarith
  have hbig : P ≤ pressure p spl conv (p.v0 * η ^ 3) := by
    simp only [pressure, call, vinet1, eta_of p hv hη0]
    have hex : 1 ≤ Real.exp (1.5 * (-η * p.b1 + p.b1 + η - 1)) := by
      apply Real.one_le_exp
      have : 0 ≤ (p.b1 - 1) * (1 - η) := mul_nonneg (by linarith) (by linarith)
      nlinarith
    have e1 : -((3 * η - 3) / η ^ 2 * p.b0 * Real.exp (1.5 * (-η * p.b1 + p.b1 + η - 1))) * conv =
        3 * (1 - η) * p.b0 * conv / η ^ 2 * Real.exp (1.5 * (-η * p.b1 + p.b1 + η - 1)) := by ring
    rw [e1]
    have hk : 0 < p.b0 * conv := mul_pos hb0 hc
    have h2 : P + 1 ≤ 3 * (1 - η) * p.b0 * conv / η ^ 2 := by
      rw [le_div_iff₀ (by positivity)]
      rw [le_div_iff₀ (by linarith)] at hη2
      have h3 : (P + 1) * η ^ 2 ≤ (1.5 * p.b0 * conv) * η := by nlinarith
      have h4 : (1.5 * p.b0 * conv) * η ≤ 1.5 * (p.b0 * conv) := by nlinarith
      have h5 : 1.5 * (p.b0 * conv) ≤ 3 * (1 - η) * (p.b0 * conv) := by nlinarith
      linarith
    have h3 : 0 < 3 * (1 - η) * p.b0 * conv / η ^ 2 := by linarith
    nlinarith
  have hzero : pressure p spl conv p.v0 = 0 := (C69_minimum p spl conv hv hb.ne').2.2.1
  have hcont : ContinuousOn (pressure p spl conv) (Set.Icc (p.v0 * η ^ 3) p.v0) :=
    fun x hx => (hd x (hV1.trans_le hx.1)).continuousAt.continuousWithinAt
  obtain ⟨V, hV, e⟩ := intermediate_value_Icc' hle hcont (by rw [hzero]; exact ⟨hP, hbig⟩)
  refine ⟨V, ⟨⟨hV1.trans_le hV.1, hV.2⟩, e⟩, ?_⟩
  rintro W ⟨hW, e'⟩
  exact hanti.injOn hW ⟨hV1.trans_le hV.1, hV.2⟩ (e'.trans e.symm)

/-- **C165** (units and size). Energies in another unit, and energy and volume per atom instead of per cell, change the parameters as
quantities of these dimensions; `b1` stays. -/
theorem C165_units (spl spl' : Nat → ℝ → ℝ) (V c l : ℝ) (hl : 0 < l) :
    call ⟨c * l * p.e0, c * p.b0, p.b1, l * p.v0⟩ spl' (l * V) 0 = c * l * call p spl V 0 ∧
    call ⟨c * l * p.e0, c * p.b0, p.b1, l * p.v0⟩ spl' (l * V) 1 = c * call p spl V 1 ∧
    call ⟨c * l * p.e0, c * p.b0, p.b1, l * p.v0⟩ spl' (l * V) 2 = c / l * call p spl V 2 := by
  have he : eta ⟨c * l * p.e0, c * p.b0, p.b1, l * p.v0⟩ (l * V) = eta p V := by
    unfold eta
    rw [mul_div_mul_left _ _ hl.ne']
  refine ⟨?_, ?_, ?_⟩
  · simp only [call, vinet, he]
    ring
  · simp only [call, vinet1, he]
    ring
  · simp only [call, vinet2, he]
    field_simp

/-- **C165** (unique parameters). Two parameter sets with positive `b0`, `v0` and `b1 ≠ 1` which give the same curve are equal. -/
theorem C165_unique (q : Params) (spl spl' : Nat → ℝ → ℝ) (hv : 0 < p.v0) (hb0 : 0 < p.b0) (hb : p.b1 ≠ 1)
    (hv' : 0 < q.v0) (hb0' : 0 < q.b0) (hb' : q.b1 ≠ 1) (h : ∀ V, 0 < V → call p spl V 0 = call q spl' V 0) : p = q := by
  have mp := (C69_minimum p spl 1 hv hb)
  have mq := (C69_minimum q spl' 1 hv' hb')
  have e1 : p.v0 = q.v0 := by
    by_contra hne
    have h1 := C165_minimum p spl hv hb0 hb q.v0 hv' (Ne.symm hne)
    have h2 := C165_minimum q spl' hv' hb0' hb' p.v0 hv hne
    rw [h q.v0 hv', mq.2.1] at h1
    rw [← h p.v0 hv, mp.2.1] at h2
    linarith
  have e2 : p.e0 = q.e0 := by rw [← mp.2.1, h p.v0 hv, e1, mq.2.1]
  have d1 : ∀ V, 0 < V → call p spl V 1 = call q spl' V 1 := by
    intro V hV
    have hp := C69_deriv1 p spl hv hb V hV
    have hq := C69_deriv1 q spl' hv' hb' V hV
    refine hp.unique (hq.congr_of_eventuallyEq ?_)
    filter_upwards [lt_mem_nhds hV] with W hW using h W hW
  have d2 : ∀ V, 0 < V → call p spl V 2 = call q spl' V 2 := by
    intro V hV
    have hp := C69_deriv2 p spl hv V hV
    have hq := C69_deriv2 q spl' hv' V hV
    refine hp.unique (hq.congr_of_eventuallyEq ?_)
    filter_upwards [lt_mem_nhds hV] with W hW using d1 W hW
  have e3 : p.b0 = q.b0 := by rw [← mp.2.2.2, ← mq.2.2.2, ← e1, d2 p.v0 hv]
  have e4 : p.b1 = q.b1 := by
    obtain ⟨B, P, hB, hP, hP0, h1⟩ := C165_b1 p spl 1 one_ne_zero hv hb0.ne'
    obtain ⟨B', P', hB', hP', hP0', h1'⟩ := C165_b1 q spl' 1 one_ne_zero hv' hb0'.ne'
    rw [← e1] at hB' hP'
    have hBB : B = B' := by
      refine hB.unique (hB'.congr_of_eventuallyEq ?_)
      filter_upwards [lt_mem_nhds hv] with W hW
      rw [d2 W hW]
    have hPP : P = P' := by
      refine hP.unique (hP'.congr_of_eventuallyEq ?_)
      filter_upwards [lt_mem_nhds hv] with W hW
      simp only [pressure]
      rw [d1 W hW]
    rw [← h1, ← h1', hBB, hPP]
  cases p
  cases q
  simp_all

/-- **C165** (fits in other units). Parameters with the smallest sum of squares for the data are, in other units of energy and volume, those
with the smallest sum of squares for the data in these units. -/
theorem C165_fit_units (spl : Nat → ℝ → ℝ) (volume energy : List ℝ) (c l : ℝ) (hc : c ≠ 0) (hl : 0 < l) :
    BestVinet (fun q V => call q spl V 0) volume energy p ↔
      BestVinet (fun q V => call q spl V 0) (volume.map (l * ·)) (energy.map (c * l * ·)) ⟨c * l * p.e0, c * p.b0, p.b1, l * p.v0⟩ := by
  have hcl : c * l ≠ 0 := mul_ne_zero hc hl.ne'
  have key : ∀ (q : Params) (volume energy : List ℝ),
      sqError (fun V => call ⟨c * l * q.e0, c * q.b0, q.b1, l * q.v0⟩ spl V 0) (volume.map (l * ·)) (energy.map (c * l * ·)) =
      (c * l) ^ 2 * sqError (fun V => call q spl V 0) volume energy := by
    intro q volume
    induction volume with
    | nil => intro energy; simp [sqError]
    | cons v volume ih =>
      intro energy
      cases energy with
      | nil => simp [sqError]
      | cons e energy =>
        have := ih energy
        unfold sqError at this ⊢
        simp only [List.map_cons, List.zipWith_cons_cons, List.sum_cons, this, (C165_units q spl spl v c l hl).1]
        ring
  have hpos : 0 < (c * l) ^ 2 := by positivity
  constructor
  · intro h q
    have hq : q = ⟨c * l * (q.e0 / (c * l)), c * (q.b0 / c), q.b1, l * (q.v0 / l)⟩ := by
      have := hl.ne'
      cases q
      simp only [Params.mk.injEq]
      refine ⟨?_, ?_, trivial, ?_⟩ <;> field_simp
    rw [hq, key p, key ⟨q.e0 / (c * l), q.b0 / c, q.b1, q.v0 / l⟩]
    exact mul_le_mul_of_nonneg_left (h _) hpos.le
  · intro h q
    have := h ⟨c * l * q.e0, c * q.b0, q.b1, l * q.v0⟩
    rw [key p, key q] at this
    exact le_of_mul_le_mul_left this hpos

/-- **C165** (order of the parameters). The parameter list of the optimizer is read in the order in which it was written. -/
theorem C165_order : lst2dct (dct2lst p) = some p ∧ ∀ l q, lst2dct l = some q → l.length = 4 → dct2lst q = l := by
  refine ⟨rfl, fun l q h hl => ?_⟩
  match l, hl with
  | [a, b, c, d], _ =>
    simp only [lst2dct, Option.some.injEq] at h
    rw [← h]
    rfl

/-- The hypotheses are met by typical parameters. -/
example : ∃ p : Params, 0 < p.v0 ∧ 0 < p.b0 ∧ 1 < p.b1 ∧ p.b1 ≠ 1 := ⟨⟨-5, 1, 4, 20⟩, by norm_num, by norm_num, by norm_num, by norm_num⟩

/-- Exact data have a best fit. -/
example (spl : Nat → ℝ → ℝ) (volume : List ℝ) : BestVinet (fun q V => call q spl V 0) volume (volume.map (fun V => call p spl V 0)) p := by
  intro q
  have h0 : ∀ l : List ℝ, sqError (fun V => call p spl V 0) l (l.map (fun V => call p spl V 0)) = 0 := by
    intro l
    induction l with
    | nil => simp [sqError]
    | cons v l ih => unfold sqError at ih ⊢; simpa using ih
  rw [h0]
  unfold sqError
  apply List.sum_nonneg
  intro z hz
  rw [← List.map_uncurry_zip_eq_zipWith] at hz
  obtain ⟨w, -, rfl⟩ := List.mem_map.1 hz
  exact sq_nonneg _

end Pwtools.Eos
