import Verif.Spec.RbfJax
import Verif.Props.Rbf
import Mathlib.LinearAlgebra.Matrix.NonsingularInverse
/-!
# C179: `Rbf` gives the same models with and without jax
-/
namespace Pwtools.Rbf.Obj
open Pwtools.Spec

variable {M N : Nat} (o : Obj M N)
variable {cho sym : Matrix (Fin M) (Fin M) ℝ → (Fin M → ℝ) → Option (Fin M → ℝ)}
variable {lstsq : Matrix (Fin M) (Fin M) ℝ → (Fin M → ℝ) → Fin M → ℝ}

theorem reg_symm (hp : o.p ≠ 0) (r : ℝ) (i j : Fin M) :
    (o.gram + r • (1 : Matrix (Fin M) (Fin M) ℝ)) i j = (o.gram + r • (1 : Matrix (Fin M) (Fin M) ℝ)) j i := by
  simp only [Matrix.add_apply, Matrix.smul_apply, gram_symm o hp i j, Matrix.one_apply, eq_comm (a := i)]

theorem reg_form (r : ℝ) (v : Fin M → ℝ) :
    ∑ i, ∑ j, v i * v j * (o.gram + r • (1 : Matrix (Fin M) (Fin M) ℝ)) i j = (∑ i, ∑ j, v i * v j * o.gram i j) + r * ∑ i, v i ^ 2 := by
  rw [Finset.mul_sum, ← Finset.sum_add_distrib]
  refine Finset.sum_congr rfl fun i _ => ?_
  simp only [Matrix.add_apply, Matrix.smul_apply, Matrix.one_apply, mul_add, Finset.sum_add_distrib]
  congr 1
  simp
  ring

theorem solvers_agree (hc : IsPosSolver cho) (hs : IsSolver sym) (A : Matrix (Fin M) (Fin M) ℝ) (b : Fin M → ℝ) (hA : ∀ i j, A i j = A j i)
    (hpd : IsPosDef A) : ∃ w, cho A b = some w ∧ sym A b = some w := by
  obtain ⟨x, h1, h2⟩ := (hc A b hA).1 hpd
  have hd : A.det ≠ 0 := det_of_pd A hpd
  obtain ⟨y, h3, h4⟩ := (hs A b).2 hd
  have e : x = y := by
    have hz : A.mulVec (x - y) = 0 := by
      funext i
      simp only [Matrix.mulVec, dotProduct, Pi.sub_apply, mul_sub, Finset.sum_sub_distrib, h2, h4, sub_self, Pi.zero_apply]
    exact sub_eq_zero.1 (Matrix.eq_zero_of_mulVec_eq_zero hd hz)
  exact ⟨x, h1, e ▸ h3⟩

/-- **C179** (fit; the full claim is for all three functions). Gaussians and inverse multiquadrics: with `r=None`, with `r>0`, and with `r=0` and different
points, the weights are the same with and without jax. -/
theorem C179_fit_partial (hc : IsPosSolver cho) (hs : IsSolver sym) (hp : o.p ≠ 0) (hk : o.rbf ≠ .multi)
    (hr : o.r = none ∨ (∃ r, o.r = some r ∧ 0 < r) ∨ (o.r = some 0 ∧ Function.Injective o.points)) :
    ∃ w, o.fitMode true cho sym lstsq = some w ∧ o.fitMode false cho sym lstsq = some w := by
  have ha := rows_some o hp
  unfold fitMode fit modeSolve
  simp only [if_pos ha, if_true, Bool.false_eq_true, if_false]
  rcases hr with hr | ⟨r, hr, h0⟩ | ⟨hr, hi⟩
  · rw [hr]
    exact ⟨_, rfl, rfl⟩
  · rw [hr]
    simp only [h0.ne', if_false]
    refine solvers_agree hc hs _ _ (reg_symm o hp r) fun v hv => ?_
    rw [reg_form]
    have h1 := gram_psd o hp hk v
    have h2 : 0 < ∑ i, v i ^ 2 := by
      obtain ⟨i, hi⟩ := Function.ne_iff.1 hv
      exact Finset.sum_pos' (fun _ _ => sq_nonneg _) ⟨i, Finset.mem_univ _, by have : v i ≠ 0 := hi; positivity⟩
    have := mul_pos h0 h2
    linarith
  · rw [hr]
    simp only [if_true]
    exact solvers_agree hc hs _ _ (gram_symm o hp) fun v hv => gram_pd o hp hk hi v hv

/-- **C179** (values and derivatives). For the same weights, all calls give the same with and without jax; the derivatives by jax are the analytic ones. -/
theorem C179_call {ad : ((Fin N → ℝ) → Option ℝ) → (Fin N → ℝ) → Option (Fin N → ℝ)} (had : IsAutodiff ad) (hp : o.p ≠ 0) {w : Fin M → ℝ}
    (hw : ∃ i, w i ≠ 0) {N' : Nat} (x : Fin N' → ℝ) (der : Option Int) :
    o.callMode true ad w x der = o.callMode false ad w x der ∧ o.callMode false ad w x der = o.call w x der ∧
    o.derivJax true ad w x = o.deriv w x ∧ o.derivJax false ad w x = none := by
  have key : o.derivJax true ad w x = o.deriv w x := by
    by_cases h : N' = N
    · subst h
      obtain ⟨f, h1, h2⟩ := o.C71_gradient hp hw
      obtain ⟨g, h3, h4⟩ := h2 x
      rw [h3]
      unfold derivJax
      rw [if_pos rfl, dif_pos rfl]
      exact had _ f x g h1 h4
    · rw [((o.C71_call w x).1 h).2]
      unfold derivJax
      rw [if_pos rfl, dif_neg h]
  refine ⟨?_, ?_, key, by simp [derivJax]⟩
  · unfold callMode
    cases der with
    | none => rfl
    | some d => simp only [key, if_true, Bool.false_eq_true, if_false]
  · unfold callMode call
    cases der with
    | none => rfl
    | some d => simp

/-- **C179** (multiquadrics). With jax there is no fit with multiquadrics (`rbf='multi'`, the weights are not numbers) as soon as two of the points are not very close
or `r` is not large: in particular for `r=0` and any two different points, and for `r` up to the largest distance minus `|p|`. -/
theorem C179_multi (hc : IsPosSolver cho) (hp : o.p ≠ 0) (hk : o.rbf = .multi) {r : ℝ} (hr : o.r = some r) (a b : Fin M) (hab : a ≠ b)
    (h : r ≤ √(∑ k, (o.points a k - o.points b k) ^ 2 + o.p ^ 2) - |o.p|) : o.fitMode true cho sym lstsq = none := by
  have hg : ∀ i j, o.gram i j = √(sqd (o.points i) (o.points j) + o.p ^ 2) := fun i j => by rw [gram_kv o hp, hk]; rfl
  have hform : ∑ i, ∑ j, (Pi.single a 1 - Pi.single b 1 : Fin M → ℝ) i * (Pi.single a 1 - Pi.single b 1 : Fin M → ℝ) j * o.gram i j =
      2 * (|o.p| - √(sqd (o.points a) (o.points b) + o.p ^ 2)) := by
    have e1 : ∀ G : Fin M → ℝ, ∑ j, (Pi.single a 1 - Pi.single b 1 : Fin M → ℝ) j * G j = G a - G b := by
      intro G
      simp [sub_mul, Finset.sum_sub_distrib, Pi.single_apply]
    have e2 : ∀ i, ∑ j, (Pi.single a 1 - Pi.single b 1 : Fin M → ℝ) i * (Pi.single a 1 - Pi.single b 1 : Fin M → ℝ) j * o.gram i j =
        (Pi.single a 1 - Pi.single b 1 : Fin M → ℝ) i * (o.gram i a - o.gram i b) := by
      intro i
      rw [← e1 (fun j => o.gram i j), Finset.mul_sum]
      exact Finset.sum_congr rfl fun j _ => by ring
    rw [Finset.sum_congr rfl fun i _ => e2 i, e1 (fun i => o.gram i a - o.gram i b)]
    simp only [hg, sqd_self, sqd_comm (o.points b) (o.points a), zero_add, Real.sqrt_sq_eq_abs]
    ring
  have hsq : ∑ i, (Pi.single a 1 - Pi.single b 1 : Fin M → ℝ) i ^ 2 = 2 := by
    have : ∀ i, (Pi.single a 1 - Pi.single b 1 : Fin M → ℝ) i ^ 2 = (if i = a then 1 else 0) + (if i = b then 1 else 0) := by
      intro i
      by_cases h1 : i = a
      · subst h1; simp [hab]
      · by_cases h2 : i = b
        · subst h2; simp [h1]
        · simp [h1, h2]
    rw [Finset.sum_congr rfl fun i _ => this i, Finset.sum_add_distrib]
    simp
    norm_num
  have hne : (Pi.single a 1 - Pi.single b 1 : Fin M → ℝ) ≠ 0 := by
    intro h0
    have := congrFun h0 a
    simp [hab] at this
  have h' : r ≤ √(sqd (o.points a) (o.points b) + o.p ^ 2) - |o.p| := h
  unfold fitMode fit modeSolve
  simp only [if_pos (rows_some o hp), if_true, hr]
  split
  · rename_i hr0
    refine (hc _ _ (gram_symm o hp)).2 fun hpd => ?_
    have := hpd _ hne
    rw [hform] at this
    linarith
  · refine (hc _ _ (reg_symm o hp r)).2 fun hpd => ?_
    have := hpd _ hne
    rw [reg_form, hform, hsq] at this
    linarith

/-- **C179** (counterexample to the full claim). Interpolation with multiquadrics of any different points (two or more): scipy gives the weights, jax none. -/
theorem C179_multi_counterexample (hc : IsPosSolver cho) (hs : IsSolver sym) (hp : o.p ≠ 0) (hk : o.rbf = .multi) (hr : o.r = some 0)
    (hi : Function.Injective o.points) (hM : 2 ≤ M) (hv : ∃ i, o.values i ≠ 0) :
    o.fitMode true cho sym lstsq = none ∧
    ∃ w, o.fitMode false cho sym lstsq = some w ∧ ∀ i, o.predict w (o.points i) = some (o.values i) := by
  constructor
  · refine o.C179_multi hc hp hk hr ⟨0, by omega⟩ ⟨1, by omega⟩ (by simp [Fin.ext_iff]) ?_
    have : |o.p| ≤ √(∑ k, (o.points ⟨0, by omega⟩ k - o.points ⟨1, by omega⟩ k) ^ 2 + o.p ^ 2) := by
      rw [← Real.sqrt_sq_eq_abs]
      exact Real.sqrt_le_sqrt (by have := sqd_nonneg (o.points ⟨0, by omega⟩) (o.points ⟨1, by omega⟩); unfold sqd at this; linarith)
    linarith
  · exact o.C71_interpolation_partial hs hp hr hi hv

/-! ## Cases -/

open Classical in
/-- Non-vacuity: solvers of both kinds and a differentiator exist. -/
example : (∃ cho : Matrix (Fin M) (Fin M) ℝ → (Fin M → ℝ) → Option (Fin M → ℝ), IsPosSolver cho) ∧
    (∃ ad : ((Fin N → ℝ) → Option ℝ) → (Fin N → ℝ) → Option (Fin N → ℝ), IsAutodiff ad) := by
  constructor
  · refine ⟨fun A b => if IsPosDef A then some (A⁻¹.mulVec b) else none, fun A b _ => ⟨fun h => ⟨_, if_pos h, fun i => ?_⟩, fun h => if_neg h⟩⟩
    have hd : IsUnit A.det := isUnit_iff_ne_zero.2 (det_of_pd A h)
    have : A.mulVec (A⁻¹.mulVec b) = b := by rw [Matrix.mulVec_mulVec, Matrix.mul_nonsing_inv A hd, Matrix.one_mulVec]
    exact congrFun this i
  · refine ⟨fun f x => if h : ∃ g, ∃ F : (Fin N → ℝ) → ℝ, (∀ y, f y = some (F y)) ∧ IsGradient F x g then some h.choose else none, fun f F x g hf hg => ?_⟩
    have h : ∃ g, ∃ F : (Fin N → ℝ) → ℝ, (∀ y, f y = some (F y)) ∧ IsGradient F x g := ⟨g, F, hf, hg⟩
    simp only [dif_pos h]
    congr 1
    obtain ⟨F', hF', hg'⟩ := h.choose_spec
    have : F' = F := by funext y; have := hF' y; rw [hf y] at this; exact (Option.some.inj this).symm
    subst this
    funext k
    exact (hg' k).unique (hg k)

/-- Non-vacuity: two points on a line. -/
example : let o : Obj 2 1 := ⟨fun i _ => (i : ℕ), fun i => 1 + (i : ℕ), .multi, some 0, 1⟩
    o.p ≠ 0 ∧ Function.Injective o.points ∧ ∃ i, o.values i ≠ 0 := by
  refine ⟨one_ne_zero, fun i j h => ?_, 0, by simp⟩
  have h1 : ((i : ℕ) : ℝ) = ((j : ℕ) : ℝ) := congrFun h 0
  exact Fin.ext (by exact_mod_cast h1)

end Pwtools.Rbf.Obj
