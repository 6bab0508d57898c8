import Verif.Model.ThermoNan
import Verif.Spec.ThermoNan
import Verif.Props.Thermo
/-!
# C125: NaNs, infinities and the temperature zero in `HarmonicThermo`
-/
namespace Pwtools.ThermoNan
open Thermo Spec Fl

variable {fix : Bool} {nf : ℝ} {c : Const} {dos f : List ℝ}

/-! ## The trapezoidal rule -/

theorem trapzF_fin (y x : List ℝ) : trapzF (y.map fin) x = fin (Num.trapz y x) := by
  induction y generalizing x with
  | nil => rfl
  | cons y0 ys ih =>
    cases ys with
    | nil => cases x <;> rfl
    | cons y1 ys =>
      match x with
      | [] => rfl
      | [_] => rfl
      | x0 :: x1 :: xs =>
        have := ih (x1 :: xs)
        simp only [List.map_cons] at this ⊢
        rw [trapzF, this, Num.trapz]
        simp [add, mul, div]

theorem integrate_map {α : Type} (g : α → Fl) (r : α → ℝ) (l : List α) (x : List ℝ)
    (h : ∀ a ∈ l, g a = fin (r a) ∨ (fix = true ∧ g a = nan ∧ r a = nf)) : integrate fix nf (l.map g) x = fin (Num.trapz (l.map r) x) := by
  unfold integrate
  rw [← trapzF_fin]
  congr 1
  cases fix with
  | false =>
    rw [if_neg (by simp), List.map_map]
    refine List.map_congr_left fun a ha => ?_
    rcases h a ha with e | ⟨e, -⟩
    · exact e
    · exact absurd e (by simp)
  | true =>
    rw [if_pos rfl, List.map_map, List.map_map]
    refine List.map_congr_left fun a ha => ?_
    rcases h a ha with e | ⟨-, e, e2⟩
    · simp [e, fill]
    · simp [e, fill, e2]

theorem zip_eq {γ : Type} (g : ℝ → ℝ → γ) (dos f : List ℝ) : List.zipWith g dos f = (dos.zip f).map fun p => g p.1 p.2 := by
  rw [List.zip, List.map_zipWith]

/-- The integral of an integrand which is finite at the points, or NaN and replaced. -/
theorem integrate_zip (g : ℝ → ℝ → Fl) (r : ℝ → ℝ → ℝ) (dos f : List ℝ)
    (h : ∀ d x, (d, x) ∈ dos.zip f → g d x = fin (r d x) ∨ (fix = true ∧ g d x = nan ∧ r d x = nf)) :
    integrate fix nf (List.zipWith g dos f) f = fin (Num.trapz (List.zipWith r dos f) f) := by
  rw [zip_eq, zip_eq]
  exact integrate_map _ _ _ _ fun p hp => h p.1 p.2 hp

theorem good_mem (h : GoodDos dos f) {d x : ℝ} (hm : (d, x) ∈ dos.zip f) : 0 < x ∨ (x = 0 ∧ d = 0) := by
  unfold GoodDos at h
  rw [List.forall₂_iff_zip] at h
  exact h.2 hm

theorem half_pinf : div pinf (fin 2) = pinf := by
  simp only [div]
  rw [if_neg (by norm_num)]

theorem half_ninf : div ninf (fin 2) = ninf := by
  simp only [div]
  rw [if_neg (by norm_num)]

/-! ## Temperatures above zero -/

variable (hh : 0 < c.h) (hk : 0 < c.kb)
include hh hk

theorem arg_fin {T : ℝ} (hT : 0 < T) (x : ℝ) : argF c T x = fin (Thermo.arg c T x) := by
  have : c.kb * T ≠ 0 := (mul_pos hk hT).ne'
  simp [argF, mul, div, this, Thermo.arg]

theorem arg_pos {T x : ℝ} (hT : 0 < T) (hx : 0 < x) : 0 < Thermo.arg c T x := by
  unfold Thermo.arg; positivity

theorem yE_pos {T d x : ℝ} (hT : 0 < T) (hx : x ≠ 0) : yE c T d x = fin (d * x * (1 / 2 + 1 / (Real.exp (Thermo.arg c T x) - 1))) := by
  have ha : Thermo.arg c T x ≠ 0 := by
    unfold Thermo.arg
    exact div_ne_zero (mul_ne_zero hh.ne' hx) (mul_pos hk hT).ne'
  have h1 : Real.exp (Thermo.arg c T x) + -1 ≠ 0 := by
    rw [← sub_eq_add_neg]
    exact sub_ne_zero.2 fun e => ha (Real.exp_eq_one_iff _ |>.1 e)
  unfold yE
  rw [arg_fin hh hk hT]
  simp only [expF, sub, neg, add, div, mul, if_neg h1]
  rw [← sub_eq_add_neg]

theorem yE_zero {T d : ℝ} (hT : 0 < T) : yE c T d 0 = nan := by
  unfold yE
  rw [arg_fin hh hk hT]
  simp [expF, sub, neg, add, div, mul, infMul, Thermo.arg]

theorem yC_pos {T d x : ℝ} (hT : 0 < T) (hx : x ≠ 0) : yC c T d x = fin (d * x ^ 2 / Real.sinh (Thermo.arg c T x / 2) ^ 2) := by
  have ha : Thermo.arg c T x ≠ 0 := by
    unfold Thermo.arg
    exact div_ne_zero (mul_ne_zero hh.ne' hx) (mul_pos hk hT).ne'
  have h1 : Real.sinh (Thermo.arg c T x / 2) ≠ 0 := fun e => ha (by
    have := Real.sinh_eq_zero.1 e
    linarith)
  unfold yC
  rw [arg_fin hh hk hT]
  simp [sinhF, div, mul, h1, pow_two]

theorem yC_zero {T d : ℝ} (hT : 0 < T) : yC c T d 0 = nan := by
  unfold yC
  rw [arg_fin hh hk hT]
  simp [sinhF, div, mul, infMul, Thermo.arg]

theorem yF_pos {T d x : ℝ} (hT : 0 < T) (hx : 0 < x) : yF c T d x = fin (d * Real.log (2 * Real.sinh (Thermo.arg c T x / 2))) := by
  have h1 : 0 < Real.sinh (Thermo.arg c T x / 2) := Real.sinh_pos_iff.2 (by have := arg_pos hh hk hT hx; linarith)
  unfold yF
  rw [arg_fin hh hk hT]
  simp [sinhF, div, mul, logF, h1]

theorem yF_zero {T : ℝ} (hT : 0 < T) : yF c T 0 0 = nan := by
  unfold yF
  rw [arg_fin hh hk hT]
  simp [sinhF, div, mul, infMul, Thermo.arg, logF, neg]

theorem yF_neg {T d x : ℝ} (hT : 0 < T) (hx : x < 0) : yF c T d x = nan := by
  have ha : Thermo.arg c T x < 0 := by
    unfold Thermo.arg
    exact div_neg_of_neg_of_pos (mul_neg_of_pos_of_neg hh hx) (mul_pos hk hT)
  have h1 : Real.sinh (Thermo.arg c T x / 2) < 0 := Real.sinh_neg_iff.2 (by linarith)
  unfold yF
  rw [arg_fin hh hk hT]
  simp [sinhF, div, mul, logF, not_lt.2 h1.le, h1.ne]

theorem yS_pos {T d x : ℝ} (hT : 0 < T) (hx : 0 < x) : yS c T d x =
    fin (d * (1 / 2 / T * (c.h / c.kb) * x * coth (Thermo.arg c T x / 2) - Real.log (2 * Real.sinh (Thermo.arg c T x / 2)))) := by
  have h1 : 0 < Real.sinh (Thermo.arg c T x / 2) := Real.sinh_pos_iff.2 (by have := arg_pos hh hk hT hx; linarith)
  have h2 : Real.tanh (Thermo.arg c T x / 2) ≠ 0 := by
    rw [Real.tanh_eq_sinh_div_cosh]
    exact div_ne_zero h1.ne' (Real.cosh_pos _).ne'
  unfold yS cothF
  rw [arg_fin hh hk hT]
  simp [sinhF, tanhF, div, mul, logF, h1, h2, hT.ne', hk.ne', sub, neg, add, coth, sub_eq_add_neg]

theorem yS_zero {T d : ℝ} (hT : 0 < T) : yS c T d 0 = nan := by
  unfold yS cothF
  rw [arg_fin hh hk hT]
  simp [sinhF, tanhF, div, mul, infMul, Thermo.arg, logF, neg, sub, add, hT.ne', hk.ne']

theorem yS_neg {T d x : ℝ} (hT : 0 < T) (hx : x < 0) : yS c T d x = nan := by
  have ha : Thermo.arg c T x < 0 := by
    unfold Thermo.arg
    exact div_neg_of_neg_of_pos (mul_neg_of_pos_of_neg hh hx) (mul_pos hk hT)
  have h1 : Real.sinh (Thermo.arg c T x / 2) < 0 := Real.sinh_neg_iff.2 (by linarith)
  have h2 : Real.tanh (Thermo.arg c T x / 2) ≠ 0 := by
    rw [Real.tanh_eq_sinh_div_cosh]
    exact div_ne_zero h1.ne (Real.cosh_pos _).ne'
  unfold yS cothF
  rw [arg_fin hh hk hT]
  simp [sinhF, tanhF, div, mul, logF, not_lt.2 h1.le, h1.ne, h2, hT.ne', hk.ne', sub, neg, add]

/-- **C125** Above zero temperature, for positive frequencies no NaN occurs and the results are the harmonic formulas. -/
theorem C125_above_zero {T : ℝ} (hT : 0 < T) (he : c.eV ≠ 0) (hf : ∀ x ∈ f, 0 < x) :
    evibF fix nf c dos f T = fin (evib c Num.trapz f dos T) ∧ cvF fix nf c dos f T = fin (cv c Num.trapz f dos T) ∧
    fvibF fix nf c dos f T = fin (fvib c Num.trapz f dos T) ∧ svibF fix nf c dos f T = fin (svib c Num.trapz f dos T) := by
  have pos : ∀ {d x : ℝ}, (d, x) ∈ dos.zip f → 0 < x := fun hm => hf _ (List.of_mem_zip hm).2
  have hkT : c.kb * 2 * T ≠ 0 := by positivity
  refine ⟨?_, ?_, ?_, ?_⟩
  · unfold evibF evib
    rw [integrate_zip _ _ _ _ fun d x hm => Or.inl (yE_pos hh hk hT (pos hm).ne')]
    simp [mul, div, he]
  · unfold cvF cv
    rw [integrate_zip _ _ _ _ fun d x hm => Or.inl (yC_pos hh hk hT (pos hm).ne')]
    simp only [mul, div, if_neg hkT]
    rw [pow_two]
  · unfold fvibF fvib
    rw [integrate_zip _ _ _ _ fun d x hm => Or.inl (yF_pos hh hk hT (pos hm))]
    simp [mul, div, he]
  · unfold svibF svib
    rw [integrate_zip _ _ _ _ fun d x hm => Or.inl (yS_pos hh hk hT (pos hm))]

/-- **C125** Points with frequency zero and DOS zero give NaNs; with `fixnan` and `nanfill=0` they contribute nothing, as they should (the DOS there
is zero). -/
theorem C125_fixnan {T : ℝ} (hT : 0 < T) (he : c.eV ≠ 0) (hg : GoodDos dos f) :
    evibF true 0 c dos f T = fin (evib c Num.trapz f dos T) ∧ cvF true 0 c dos f T = fin (cv c Num.trapz f dos T) ∧
    fvibF true 0 c dos f T = fin (fvib c Num.trapz f dos T) ∧ svibF true 0 c dos f T = fin (svib c Num.trapz f dos T) := by
  have hkT : c.kb * 2 * T ≠ 0 := by positivity
  refine ⟨?_, ?_, ?_, ?_⟩
  · unfold evibF evib
    rw [integrate_zip _ (fun d f => d * f * (1 / 2 + 1 / (Real.exp (Thermo.arg c T f) - 1))) _ _ fun d x hm => ?_]
    · simp [mul, div, he]
    · rcases good_mem hg hm with hx | ⟨rfl, rfl⟩
      · exact Or.inl (yE_pos hh hk hT hx.ne')
      · exact Or.inr ⟨rfl, yE_zero hh hk hT, by simp⟩
  · unfold cvF cv
    rw [integrate_zip _ (fun d f => d * f ^ 2 / Real.sinh (Thermo.arg c T f / 2) ^ 2) _ _ fun d x hm => ?_]
    · simp only [mul, div, if_neg hkT]
      rw [pow_two]
    · rcases good_mem hg hm with hx | ⟨rfl, rfl⟩
      · exact Or.inl (yC_pos hh hk hT hx.ne')
      · exact Or.inr ⟨rfl, yC_zero hh hk hT, by simp⟩
  · unfold fvibF fvib
    rw [integrate_zip _ (fun d f => d * Real.log (2 * Real.sinh (Thermo.arg c T f / 2))) _ _ fun d x hm => ?_]
    · simp [mul, div, he]
    · rcases good_mem hg hm with hx | ⟨rfl, rfl⟩
      · exact Or.inl (yF_pos hh hk hT hx)
      · exact Or.inr ⟨rfl, yF_zero hh hk hT, by simp⟩
  · unfold svibF svib
    rw [integrate_zip _ (fun d f => d * (1 / 2 / T * (c.h / c.kb) * f * coth (Thermo.arg c T f / 2) -
      Real.log (2 * Real.sinh (Thermo.arg c T f / 2)))) _ _ fun d x hm => ?_]
    rcases good_mem hg hm with hx | ⟨rfl, rfl⟩
    · exact Or.inl (yS_pos hh hk hT hx)
    · exact Or.inr ⟨rfl, yS_zero hh hk hT, by simp⟩

/-! ## Temperature zero -/

theorem arg_zero {x : ℝ} (hx : 0 < x) : argF c 0 x = pinf := by
  have : 0 < c.h * x := mul_pos hh hx
  simp [argF, mul, div, infMul, this]

theorem yE_T0 {d x : ℝ} (hx : 0 < x) : yE c 0 d x = fin (d * x * (1 / 2)) := by
  unfold yE
  rw [arg_zero hh hk hx]
  simp [expF, sub, neg, add, div, mul]

theorem yC_T0 {d x : ℝ} (hx : 0 < x) : yC c 0 d x = fin 0 := by
  unfold yC
  rw [arg_zero hh hk hx, half_pinf]
  simp [sinhF, div, mul]

theorem yF_T0 {d x : ℝ} (hx : 0 < x) : yF c 0 d x = infMul d := by
  unfold yF
  rw [arg_zero hh hk hx, half_pinf]
  simp [sinhF, div, mul, logF, infMul]

theorem yS_T0 {d x : ℝ} (hx : 0 < x) : yS c 0 d x = nan := by
  unfold yS cothF
  rw [arg_zero hh hk hx, half_pinf]
  have h1 : 0 < c.h / c.kb := div_pos hh hk
  simp [sinhF, tanhF, div, mul, logF, infMul, hk.ne', h1, hx, sub, neg, add]

omit hh hk in
theorem trapz_lin (g : ℝ → ℝ → ℝ) (s : ℝ) (dos f : List ℝ) (x : List ℝ) :
    Num.trapz (List.zipWith (fun d t => g d t * s) dos f) x = Num.trapz (List.zipWith g dos f) x * s := by
  rw [zip_eq, zip_eq]
  generalize dos.zip f = l
  induction l generalizing x with
  | nil => simp [Num.trapz]
  | cons a l ih =>
    cases l with
    | nil => cases x <;> simp [Num.trapz]
    | cons b l =>
      match x with
      | [] => simp [Num.trapz]
      | [_] => simp [Num.trapz]
      | x0 :: x1 :: xs =>
        have := ih (x1 :: xs)
        simp only [List.map_cons] at this ⊢
        rw [Num.trapz, this, Num.trapz]
        ring

/-- **C125** (part which holds) At temperature zero the internal energy is the zero point energy, and with `fixnan` the entropy is zero. -/
theorem C125_zero_partial (he : c.eV ≠ 0) (hf : ∀ x ∈ f, 0 < x) :
    evibF fix nf c dos f 0 = fin (zeroPoint c dos f) ∧ svibF true 0 c dos f 0 = fin 0 := by
  have pos : ∀ {d x : ℝ}, (d, x) ∈ dos.zip f → 0 < x := fun hm => hf _ (List.of_mem_zip hm).2
  constructor
  · unfold evibF zeroPoint
    rw [integrate_zip _ _ _ _ fun d x hm => Or.inl (yE_T0 hh hk (pos hm))]
    simp only [mul, div, if_neg he]
    have e : (fun d x : ℝ => d * (c.h * x / 2)) = fun d x => d * x * (1 / 2) * c.h := by funext d x; ring
    rw [e, trapz_lin (fun d x => d * x * (1 / 2)) c.h]
    rw [mul_div_assoc]
  · unfold svibF
    rw [integrate_zip _ (fun _ _ => (0 : ℝ) * 0) _ _ fun d x hm => Or.inr ⟨rfl, yS_T0 hh hk (pos hm), by simp⟩, trapz_lin (fun _ _ => 0) 0]
    simp

omit hh hk in
theorem trapzF_nonfin (y : List Fl) (x : List ℝ) (hl : y.length = x.length) (h2 : 2 ≤ y.length) (hn : ∃ v ∈ y, ∀ r, v ≠ fin r) :
    ∀ r, trapzF y x ≠ fin r := by
  have addl : ∀ u v : Fl, (∀ r, u ≠ fin r) → ∀ r, add u v ≠ fin r := by
    intro u v hu r
    cases u <;> cases v <;> simp [add] at hu ⊢
  have addr : ∀ u v : Fl, (∀ r, v ≠ fin r) → ∀ r, add u v ≠ fin r := by
    intro u v hu r
    cases u <;> cases v <;> simp [add] at hu ⊢
  have inf : ∀ s r, infMul s ≠ fin r := by
    intro s r
    unfold infMul
    split
    · simp
    · split <;> simp
  have muln : ∀ (s : ℝ) (v : Fl), (∀ r, v ≠ fin r) → ∀ r, mul (fin s) v ≠ fin r := by
    intro s v hv r
    cases v with
    | fin x => exact absurd rfl (hv x)
    | pinf => exact inf s r
    | ninf =>
      have := inf s
      simp only [mul]
      cases h : infMul s with
      | fin x => exact absurd h (this x)
      | pinf => simp [neg]
      | ninf => simp [neg]
      | nan => simp [neg]
    | nan => simp [mul]
  have divn : ∀ v : Fl, (∀ r, v ≠ fin r) → ∀ r, div v (fin 2) ≠ fin r := by
    intro v hv r
    cases v with
    | fin x => exact absurd rfl (hv x)
    | pinf => simp [half_pinf]
    | ninf => simp [half_ninf]
    | nan => simp [div]
  induction y generalizing x with
  | nil => simp at h2
  | cons y0 ys ih =>
    match ys, x, hl with
    | y1 :: ys, x0 :: x1 :: xs, hl =>
      obtain ⟨v, hv, hvn⟩ := hn
      intro r
      rw [trapzF]
      rcases List.mem_cons.1 hv with rfl | hv
      · exact addl _ _ (divn _ (muln _ _ (addl _ _ hvn))) r
      · rcases List.mem_cons.1 hv with rfl | hv'
        · exact addl _ _ (divn _ (muln _ _ (addr _ _ hvn))) r
        · refine addr _ _ (ih (x1 :: xs) (by simpa using hl) ?_ ⟨v, hv, hvn⟩) r
          cases ys with
          | nil => simp at hv'
          | cons _ _ => simp

/-- **C125** is false at temperature zero: heat capacity and free energy are NaN, with and without `fixnan` (the NaN comes from the factor outside of
the integral), instead of zero and the zero point energy. Without `fixnan` the entropy is NaN. -/
theorem C125_zero_counterexample (hl : dos.length = f.length) (h2 : 2 ≤ f.length) (hf : ∀ x ∈ f, 0 < x) (hd : ∃ d ∈ dos, d ≠ 0) :
    cvF fix nf c dos f 0 = nan ∧ fvibF fix nf c dos f 0 = nan ∧ (∀ r, svibF false nf c dos f 0 ≠ fin r) := by
  have pos : ∀ {d x : ℝ}, (d, x) ∈ dos.zip f → 0 < x := fun hm => hf _ (List.of_mem_zip hm).2
  have hlen : (dos.zip f).length = f.length := by simp [hl]
  refine ⟨?_, ?_, ?_⟩
  · unfold cvF
    rw [integrate_zip _ (fun _ _ => (0 : ℝ) * 0) _ _ fun d x hm => Or.inl (by rw [yC_T0 hh hk (pos hm), mul_zero]), trapz_lin (fun _ _ => 0) 0]
    simp [mul, div, infMul, hh]
  · obtain ⟨d, hd, hd0⟩ := hd
    obtain ⟨i, hi, rfl⟩ := List.mem_iff_getElem.1 hd
    have hz : (dos.zip f)[i]'(by rw [hlen, ← hl]; exact hi) = (dos[i], f[i]'(hl ▸ hi)) := List.getElem_zip
    have hm : (dos[i], f[i]'(hl ▸ hi)) ∈ dos.zip f := hz ▸ List.getElem_mem _
    have hv : yF c 0 dos[i] (f[i]'(hl ▸ hi)) = pinf ∨ yF c 0 dos[i] (f[i]'(hl ▸ hi)) = ninf := by
      rw [yF_T0 hh hk (pos hm)]
      unfold infMul
      rcases lt_or_gt_of_ne hd0 with h | h
      · right; rw [if_neg (not_lt.2 h.le), if_pos h]
      · left; rw [if_pos h]
    have hn : ∀ r, integrate fix nf (List.zipWith (yF c 0) dos f) f ≠ fin r := by
      unfold integrate
      rw [zip_eq]
      apply trapzF_nonfin
      · split <;> simp [hl]
      · split <;> simp [hl, h2]
      · refine ⟨yF c 0 dos[i] (f[i]'(hl ▸ hi)), ?_, ?_⟩
        · split
          · refine List.mem_map.2 ⟨_, List.mem_map.2 ⟨_, hm, rfl⟩, ?_⟩
            rcases hv with h | h <;> simp [h, fill]
          · exact List.mem_map.2 ⟨_, hm, rfl⟩
        · rcases hv with h | h <;> simp [h]
    unfold fvibF
    cases h : integrate fix nf (List.zipWith (yF c 0) dos f) f with
    | fin r => exact absurd h (hn r)
    | pinf => simp [mul, infMul]
    | ninf => simp [mul, infMul, neg]
    | nan => simp [mul]
  · unfold svibF integrate
    rw [if_neg (by simp), zip_eq]
    apply trapzF_nonfin
    · simp [hl]
    · simp [hl, h2]
    · have h0 : 0 < (dos.zip f).length := by omega
      have hm := List.getElem_mem h0
      exact ⟨nan, List.mem_map.2 ⟨_, hm, yS_T0 hh hk (pos hm)⟩, by simp⟩

/-! ## Negative frequencies -/

omit hh hk in
theorem trapz_pos (y x : List ℝ) (hl : y.length = x.length) (h2 : 2 ≤ x.length) (hy : ∀ v ∈ y, 0 < v) (hs : x.Pairwise (· < ·)) : 0 < Num.trapz y x := by
  rcases x with _ | ⟨x0, _ | ⟨x1, xs⟩⟩
  · simp at h2
  · simp at h2
  rcases y with _ | ⟨y0, _ | ⟨y1, ys⟩⟩
  · simp at hl
  · simp at hl
  rw [Num.trapz]
  have hx : x0 < x1 := (List.pairwise_cons.1 hs).1 x1 (by simp)
  have a0 := hy y0 (by simp)
  have a1 := hy y1 (by simp)
  have h1 := trapz_nonneg (y1 :: ys) (x1 :: xs) (fun v hv => (hy v (by simp only [List.mem_cons] at hv ⊢; tauto)).le)
    ((List.pairwise_cons.1 hs).2.imp le_of_lt)
  have h3 : 0 < (x1 - x0) * (y0 + y1) / 2 := by
    have : 0 < x1 - x0 := by linarith
    positivity
  linarith

/-- **C125** is false for negative frequencies (as long as `skipfreq` does not remove them): with `fixnan` free energy and entropy are zero, because
their NaNs are replaced, but the internal energy is not, so that `E = F + T S` is violated. -/
theorem C125_negative_counterexample {T : ℝ} (hT : 0 < T) (he : 0 < c.eV) (hl : dos.length = f.length) (h2 : 2 ≤ f.length) (hf : ∀ x ∈ f, x < 0)
    (hs : f.Pairwise (· < ·)) (hd : ∀ d ∈ dos, 0 < d) :
    fvibF true 0 c dos f T = fin 0 ∧ svibF true 0 c dos f T = fin 0 ∧ ∃ E, 0 < E ∧ evibF true 0 c dos f T = fin E := by
  have negx : ∀ {d x : ℝ}, (d, x) ∈ dos.zip f → x < 0 := fun hm => hf _ (List.of_mem_zip hm).2
  refine ⟨?_, ?_, ?_⟩
  · unfold fvibF
    rw [integrate_zip _ (fun _ _ => (0 : ℝ) * 0) _ _ fun d x hm => Or.inr ⟨rfl, yF_neg hh hk hT (negx hm), by simp⟩, trapz_lin (fun _ _ => 0) 0]
    simp [mul, div, he.ne']
  · unfold svibF
    rw [integrate_zip _ (fun _ _ => (0 : ℝ) * 0) _ _ fun d x hm => Or.inr ⟨rfl, yS_neg hh hk hT (negx hm), by simp⟩, trapz_lin (fun _ _ => 0) 0]
    simp
  · have e : evibF true 0 c dos f T = fin (Num.trapz (List.zipWith (fun d x => d * x * (1 / 2 + 1 / (Real.exp (Thermo.arg c T x) - 1))) dos f) f * (c.h / c.eV)) := by
      unfold evibF
      rw [integrate_zip _ _ _ _ fun d x hm => Or.inl (yE_pos hh hk hT (negx hm).ne)]
      simp [mul, div, he.ne']
    refine ⟨_, mul_pos ?_ (div_pos hh he), e⟩
    have ypos : ∀ v ∈ List.zipWith (fun d x => d * x * (1 / 2 + 1 / (Real.exp (Thermo.arg c T x) - 1))) dos f, 0 < v := by
      rw [zip_eq]
      intro v hv
      obtain ⟨⟨d, x⟩, hm, rfl⟩ := List.mem_map.1 hv
      have hx := negx hm
      have ha : Thermo.arg c T x < 0 := by
        unfold Thermo.arg
        exact div_neg_of_neg_of_pos (mul_neg_of_pos_of_neg hh hx) (mul_pos hk hT)
      have h1 : Real.exp (Thermo.arg c T x) < 1 := by
        have := Real.exp_lt_exp.2 ha
        rwa [Real.exp_zero] at this
      have h0 : 0 < Real.exp (Thermo.arg c T x) := Real.exp_pos _
      have h3 : 1 / 2 + 1 / (Real.exp (Thermo.arg c T x) - 1) < 0 := by
        have h4 : Real.exp (Thermo.arg c T x) - 1 < 0 := by linarith
        have e2 : 1 / 2 + 1 / (Real.exp (Thermo.arg c T x) - 1) = (Real.exp (Thermo.arg c T x) + 1) / (2 * (Real.exp (Thermo.arg c T x) - 1)) := by
          have h5 := h4.ne
          field_simp
          ring
        rw [e2]
        exact div_neg_of_pos_of_neg (by linarith) (by linarith)
      exact mul_pos_of_neg_of_neg (mul_neg_of_pos_of_neg (hd d (List.of_mem_zip hm).1) hx) h3
    have ylen : (List.zipWith (fun d x => d * x * (1 / 2 + 1 / (Real.exp (Thermo.arg c T x) - 1))) dos f).length = f.length := by simp [hl]
    revert ypos ylen
    generalize List.zipWith (fun d x => d * x * (1 / 2 + 1 / (Real.exp (Thermo.arg c T x) - 1))) dos f = y
    intro ypos ylen
    exact trapz_pos y f ylen h2 ypos hs

omit hh hk in
/-- Non-vacuity: points which meet the hypotheses of the theorems above. -/
example : GoodDos [0, 1, 2] [0, 100, 200] ∧ (∀ x ∈ [(100 : ℝ), 200], 0 < x) ∧ (∃ d ∈ [(1 : ℝ), 0], d ≠ 0) ∧ [(-2 : ℝ), -1].Pairwise (· < ·) ∧
    zeroPoint ⟨2, 1, 1⟩ [1, 1] [1, 3] = 4 := by
  refine ⟨.cons (Or.inr ⟨rfl, rfl⟩) (.cons (Or.inl (by norm_num)) (.cons (Or.inl (by norm_num)) .nil)), by simp, ⟨1, by simp, by simp⟩, by simp, ?_⟩
  norm_num [zeroPoint, Num.trapz]

end Pwtools.ThermoNan
