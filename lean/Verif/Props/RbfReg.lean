import Verif.Props.RbfInv
import Verif.Spec.RbfReg
/-!
# C167: regularisation of radial basis function models
-/
namespace Pwtools.Rbf.Obj
open Spec
variable {M N : Nat} (o : Obj M N)
variable {solve : Matrix (Fin M) (Fin M) ℝ → (Fin M → ℝ) → Option (Fin M → ℝ)}
  {lstsq : Matrix (Fin M) (Fin M) ℝ → (Fin M → ℝ) → Fin M → ℝ}

/-- The weights of the regularised system have the smallest sum of squares plus `r w^T G w`. -/
theorem reg_min (G : Fin M → Fin M → ℝ) (hsym : ∀ i j, G i j = G j i) (hpsd : ∀ v : Fin M → ℝ, 0 ≤ ∑ i, ∑ j, v i * v j * G i j) (r : ℝ)
    (hr : 0 ≤ r) (z w : Fin M → ℝ) (h : ∀ i, ∑ j, G i j * w j = z i - r * w i) (u : Fin M → ℝ) :
    missSq z (fun i => ∑ j, G i j * w j) + r * bending G w ≤ missSq z (fun i => ∑ j, G i j * u j) + r * bending G u := by
  set v : Fin M → ℝ := fun i => u i - w i with hv
  have hu : ∀ i, ∑ j, G i j * u j = ∑ j, G i j * w j + ∑ j, G i j * v j := by
    intro i
    rw [← Finset.sum_add_distrib]
    exact Finset.sum_congr rfl fun j _ => by rw [hv]; ring
  have hform : ∀ a b : Fin M → ℝ, ∑ i, ∑ j, a i * b j * G i j = ∑ i, a i * ∑ j, G i j * b j := by
    intro a b
    refine Finset.sum_congr rfl fun i _ => ?_
    rw [Finset.mul_sum]
    exact Finset.sum_congr rfl fun j _ => by ring
  have hcomm : ∑ i, v i * ∑ j, G i j * w j = ∑ i, w i * ∑ j, G i j * v j := by
    rw [← hform, ← hform, Finset.sum_comm]
    refine Finset.sum_congr rfl fun i _ => Finset.sum_congr rfl fun j _ => ?_
    rw [hsym j i]; ring
  have hb : bending G u = bending G w + 2 * ∑ i, w i * ∑ j, G i j * v j + bending G v := by
    unfold bending
    rw [hform, hform, hform]
    have e : ∑ i, u i * ∑ j, G i j * u j = ∑ i, w i * ∑ j, G i j * w j + ∑ i, w i * ∑ j, G i j * v j + (∑ i, v i * ∑ j, G i j * w j +
        ∑ i, v i * ∑ j, G i j * v j) := by
      rw [← Finset.sum_add_distrib, ← Finset.sum_add_distrib, ← Finset.sum_add_distrib]
      refine Finset.sum_congr rfl fun i _ => ?_
      rw [hu i]
      have : u i = w i + v i := by rw [hv]; ring
      rw [this]; ring
    rw [e, hcomm]; ring
  have hm : missSq z (fun i => ∑ j, G i j * u j) = missSq z (fun i => ∑ j, G i j * w j) - 2 * r * ∑ i, w i * ∑ j, G i j * v j +
      ∑ i, (∑ j, G i j * v j) ^ 2 := by
    unfold missSq
    rw [Finset.mul_sum, ← Finset.sum_sub_distrib, ← Finset.sum_add_distrib]
    refine Finset.sum_congr rfl fun i _ => ?_
    beta_reduce
    rw [hu i, h i]; ring
  have h1 : 0 ≤ bending G v := hpsd v
  have h2 : 0 ≤ ∑ i, (∑ j, G i j * v j) ^ 2 := Finset.sum_nonneg fun i _ => sq_nonneg _
  have h3 := mul_nonneg hr h1
  rw [hm, hb]
  nlinarith

/-- The fit with `r > 0`: its weights, and its values at the training points. -/
theorem reg_fit (hs : IsSolver solve) (hp : o.p ≠ 0) (hk : o.rbf ≠ .multi) (hv : ∃ i, o.values i ≠ 0) {r : ℝ} (hr : 0 < r) :
    ∃ w, ({o with r := some r} : Obj M N).fit solve lstsq = some w ∧ (∀ i, ∑ j, o.gram i j * w j = o.values i - r * w i) ∧
      ∀ i, o.predict w (o.points i) = some (∑ j, o.gram i j * w j) := by
  obtain ⟨w, h1, h2⟩ := C71_regularised ({o with r := some r} : Obj M N) (lstsq := lstsq) hs hp rfl hr hk hv
  have hw : w ≠ 0 := by
    rintro rfl
    obtain ⟨i, -⟩ := hv
    have := h2 i
    unfold predict at this
    rw [dif_pos rfl, if_neg] at this
    · cases this
    · rintro ⟨-, h⟩
      exact h ((maxw_eq_zero _).2 rfl)
  have h3 : ∀ i, o.predict w (o.points i) = some (∑ j, o.gram i j * w j) := fun i => predict_train o hp hw i
  refine ⟨w, h1, fun i => ?_, h3⟩
  have := h2 i
  have e : ({o with r := some r} : Obj M N).predict w (o.points i) = o.predict w (o.points i) := rfl
  rw [e, h3 i] at this
  exact Option.some.inj this

/-- **C167** (what is minimised). The model fitted with `r > 0` minimises the squared deviations plus `r` times its bending, over all weights.
Missing: the multiquadric (`C167_multi_counterexample`). -/
theorem C167_optimal_partial (hs : IsSolver solve) (hp : o.p ≠ 0) (hk : o.rbf ≠ .multi) (hv : ∃ i, o.values i ≠ 0) {r : ℝ} (hr : 0 < r) :
    ∃ w f, ({o with r := some r} : Obj M N).fit solve lstsq = some w ∧ (∀ i, o.predict w (o.points i) = some (f i)) ∧
      ∀ u : Fin M → ℝ, missSq o.values f + r * bending o.gram w ≤ missSq o.values (fun i => ∑ j, o.gram i j * u j) + r * bending o.gram u := by
  obtain ⟨w, h1, h2, h3⟩ := reg_fit o (lstsq := lstsq) hs hp hk hv hr
  exact ⟨w, _, h1, h3, fun u => reg_min o.gram (gram_symm o hp) (gram_psd o hp hk) r hr.le o.values w h2 u⟩

/-- **C167** (stiffness). A larger `r` gives a model with less bending which is not closer to the training data: `fit_error` does not get smaller.
Missing: the multiquadric (`C167_multi_counterexample`). -/
theorem C167_stiffer_partial (hs : IsSolver solve) (hp : o.p ≠ 0) (hk : o.rbf ≠ .multi) (hv : ∃ i, o.values i ≠ 0) {r r' : ℝ} (hr : 0 < r) (hrr : r < r') :
    ∃ w w' e e', ({o with r := some r} : Obj M N).fit solve lstsq = some w ∧ ({o with r := some r'} : Obj M N).fit solve lstsq = some w' ∧
      o.fitError w o.points o.values = some e ∧ o.fitError w' o.points o.values = some e' ∧ e ≤ e' ∧ bending o.gram w' ≤ bending o.gram w := by
  have hr' := hr.trans hrr
  obtain ⟨w, h1, h2, h3⟩ := reg_fit o (lstsq := lstsq) hs hp hk hv hr
  obtain ⟨w', h1', h2', h3'⟩ := reg_fit o (lstsq := lstsq) hs hp hk hv hr'
  have a := reg_min o.gram (gram_symm o hp) (gram_psd o hp hk) r hr.le o.values w h2 w'
  have b := reg_min o.gram (gram_symm o hp) (gram_psd o hp hk) r' hr'.le o.values w' h2' w
  have hS : bending o.gram w' ≤ bending o.gram w := by
    have : (r' - r) * bending o.gram w' ≤ (r' - r) * bending o.gram w := by nlinarith
    exact le_of_mul_le_mul_left this (by linarith)
  have hE : missSq o.values (fun i => ∑ j, o.gram i j * w j) ≤ missSq o.values (fun i => ∑ j, o.gram i j * w' j) := by nlinarith
  have hM : M ≠ 0 := by
    rintro rfl
    obtain ⟨i, -⟩ := hv
    exact i.elim0
  have herr : ∀ w, (∀ i, o.predict w (o.points i) = some (∑ j, o.gram i j * w j)) → o.fitError w o.points o.values =
      some (if o.p < 0 then Real.exp |missSq o.values (fun i => ∑ j, o.gram i j * w j) / M| else missSq o.values (fun i => ∑ j, o.gram i j * w j) / M) := by
    intro w h
    unfold fitError
    rw [if_pos ⟨hM, fun i => by simp only [h]; simp⟩]
    simp only [h, Option.getD_some, missSq, sq]
  refine ⟨w, w', _, _, h1, h1', herr w h3, herr w' h3', ?_, hS⟩
  have h0 : 0 ≤ missSq o.values (fun i => ∑ j, o.gram i j * w j) := Finset.sum_nonneg fun i _ => sq_nonneg _
  have hd : missSq o.values (fun i => ∑ j, o.gram i j * w j) / M ≤ missSq o.values (fun i => ∑ j, o.gram i j * w' j) / M := by gcongr
  split
  · apply Real.exp_le_exp.2
    rw [abs_of_nonneg (by positivity), abs_of_nonneg (div_nonneg (h0.trans hE) (by positivity))]
    exact hd
  · exact hd

/-- **C167** (limits). With `w0` the weights of the interpolation (`r = 0`), the squared deviations of the model with `r > 0` are at most `r`
times the bending of the interpolation, and at most those of the function zero; its bending is at most that of the interpolation and goes to
zero at least as `1/r`.
Missing: the multiquadric (`C167_multi_counterexample`). -/
theorem C167_limits_partial (hs : IsSolver solve) (hp : o.p ≠ 0) (hk : o.rbf ≠ .multi) (hc : Function.Injective o.points) (hv : ∃ i, o.values i ≠ 0)
    {r : ℝ} (hr : 0 < r) :
    ∃ w0 w f, ({o with r := some 0} : Obj M N).fit solve lstsq = some w0 ∧ ({o with r := some r} : Obj M N).fit solve lstsq = some w ∧
      (∀ i, o.predict w (o.points i) = some (f i)) ∧ missSq o.values f ≤ r * bending o.gram w0 ∧ missSq o.values f ≤ missSq o.values 0 ∧
      bending o.gram w ≤ bending o.gram w0 ∧ 0 ≤ bending o.gram w ∧ bending o.gram w ≤ missSq o.values 0 / r := by
  obtain ⟨w0, g1, g2⟩ := C71_interpolation_partial ({o with r := some 0} : Obj M N) (lstsq := lstsq) hs hp rfl hc hv
  obtain ⟨w, h1, h2, h3⟩ := reg_fit o (lstsq := lstsq) hs hp hk hv hr
  have hw0 : w0 ≠ 0 := by
    rintro rfl
    obtain ⟨i, -⟩ := hv
    have := g2 i
    unfold predict at this
    rw [dif_pos rfl, if_neg] at this
    · cases this
    · rintro ⟨-, h⟩
      exact h ((maxw_eq_zero _).2 rfl)
  have e0 : ∀ i, ∑ j, o.gram i j * w0 j = o.values i := by
    intro i
    have a := g2 i
    have e : ({o with r := some 0} : Obj M N).predict w0 (o.points i) = o.predict w0 (o.points i) := rfl
    rw [e, predict_train o hp hw0 i] at a
    exact Option.some.inj a
  have a := reg_min o.gram (gram_symm o hp) (gram_psd o hp hk) r hr.le o.values w h2 w0
  have b := reg_min o.gram (gram_symm o hp) (gram_psd o hp hk) r hr.le o.values w h2 0
  have m0 : missSq o.values (fun i => ∑ j, o.gram i j * w0 j) = 0 := by simp [missSq, e0]
  have z1 : bending o.gram 0 = 0 := by simp [bending]
  have z2 : missSq o.values (fun i => ∑ j, o.gram i j * (0 : Fin M → ℝ) j) = missSq o.values 0 := by simp [missSq]
  have hb : 0 ≤ bending o.gram w := gram_psd o hp hk w
  have hmm : 0 ≤ missSq o.values (fun i => ∑ j, o.gram i j * w j) := Finset.sum_nonneg fun i _ => sq_nonneg _
  rw [m0] at a
  rw [z1, z2] at b
  have hrb := mul_nonneg hr.le hb
  refine ⟨w0, w, _, g1, h1, h3, by linarith, by linarith, ?_, hb, ?_⟩
  · exact le_of_mul_le_mul_left (by linarith : r * bending o.gram w ≤ r * bending o.gram w0) hr
  · rw [le_div_iff₀ hr]; linarith

/-- **C167** fails for the multiquadric: two points, `p = 3`, and `r = 2` give a singular system although `r = 0` does not. -/
theorem C167_multi_counterexample :
    let o : Obj 2 1 := ⟨fun i _ => if i = 0 then 0 else 4, fun _ => 1, .multi, some 2, 3⟩
    ∀ (solve : Matrix (Fin 2) (Fin 2) ℝ → (Fin 2 → ℝ) → Option (Fin 2 → ℝ)) (lstsq), IsSolver solve →
      o.fit solve lstsq = none ∧ ∃ w, ({o with r := some 0} : Obj 2 1).fit solve lstsq = some w := by
  intro o solve lstsq hs
  have hp : o.p ≠ 0 := by show (3 : ℝ) ≠ 0; norm_num
  have hk : o.rbf = .multi := rfl
  have hg : ∀ i j, o.gram i j = if i = j then 3 else 5 := by
    intro i j
    rw [gram_kv o hp]
    have s9 : √(9 : ℝ) = 3 := by rw [show (9 : ℝ) = 3 ^ 2 by norm_num]; exact Real.sqrt_sq (by norm_num)
    have s25 : √(25 : ℝ) = 5 := by rw [show (25 : ℝ) = 5 ^ 2 by norm_num]; exact Real.sqrt_sq (by norm_num)
    fin_cases i <;> fin_cases j <;> simp [kv, sqd, o] <;> norm_num [s9, s25]
  constructor
  · unfold fit
    split
    · show (if (2 : ℝ) = 0 then _ else _) = _
      rw [if_neg (by norm_num)]
      apply (hs _ _).1
      rw [Matrix.det_fin_two]
      simp [hg]
      norm_num
    · rfl
  · have hc : Function.Injective o.points := by
      intro i j h
      have := congrFun h 0
      fin_cases i <;> fin_cases j <;> simp_all [o]
    obtain ⟨w, h, -⟩ := C71_interpolation_partial ({o with r := some 0} : Obj 2 1) (lstsq := lstsq) hs hp rfl hc ⟨0, by simp [o]⟩
    exact ⟨w, h⟩

/-- Non-vacuity: the example of C71 meets all hypotheses. -/
example : exO.p ≠ 0 ∧ exO.rbf ≠ .multi ∧ Function.Injective exO.points ∧ (∃ i, exO.values i ≠ 0) ∧
    ∃ solve, IsSolver (M := 2) solve :=
  ⟨by simp [exO], by simp [exO], exO_inj, ⟨1, by simp [exO]⟩, _, solver_exists 2⟩

end Pwtools.Rbf.Obj
