import Verif.Props.RbfPD
import Verif.Spec.Rbf
import Mathlib.Analysis.SpecialFunctions.ExpDeriv
import Mathlib.LinearAlgebra.Matrix.NonsingularInverse
import Mathlib.Tactic.FinCases
/-!
# C71: radial basis functions
-/
namespace Pwtools.Rbf
variable {M N : Nat}

theorem quad_eq (A : Matrix (Fin M) (Fin M) ℝ) (w : Fin M → ℝ) (h : A.mulVec w = 0) (u : Fin M → ℝ) :
    ∑ i, ∑ j, u i * w j * A i j = 0 := by
  have : ∀ i, ∑ j, u i * w j * A i j = u i * (A.mulVec w) i := by
    intro i
    simp only [Matrix.mulVec, dotProduct, Finset.mul_sum]
    exact Finset.sum_congr rfl fun j _ => by ring
  simp_rw [this, h]; simp

theorem det_of_pd (A : Matrix (Fin M) (Fin M) ℝ) (h : ∀ w : Fin M → ℝ, w ≠ 0 → 0 < ∑ i, ∑ j, w i * w j * A i j) : A.det ≠ 0 := by
  intro hd
  obtain ⟨w, hw, hz⟩ := Matrix.exists_mulVec_eq_zero_iff.2 hd
  have := h w hw
  rw [quad_eq A w hz w] at this
  exact lt_irrefl _ this

theorem ev_ne {k : Kind} {p : ℝ} (hp : p ≠ 0) (s : ℝ) (hs : 0 ≤ s) : ∃ v, k.ev s p = some v ∧ v =
    (match k with | .gauss => Real.exp (-(1 / (2 * p ^ 2)) * s) | .multi => √(s + p ^ 2) | .invMulti => 1 / √(s + p ^ 2)) := by
  have hpos : 0 < √(s + p ^ 2) := Real.sqrt_pos.2 (by positivity)
  cases k
  · refine ⟨_, by simp only [Kind.ev, hp, if_false]; rfl, ?_⟩
    simp only
    congr 1
    field_simp
  · exact ⟨_, rfl, rfl⟩
  · exact ⟨1 / √(s + p ^ 2), by simp only [Kind.ev, hpos.ne', if_false], rfl⟩

/-- The kernel as a total function. -/
noncomputable def kv (k : Kind) (p s : ℝ) : ℝ :=
  match k with | .gauss => Real.exp (-(1 / (2 * p ^ 2)) * s) | .multi => √(s + p ^ 2) | .invMulti => 1 / √(s + p ^ 2)

theorem ev_kv {k : Kind} {p : ℝ} (hp : p ≠ 0) (s : ℝ) (hs : 0 ≤ s) : k.ev s p = some (kv k p s) := by
  obtain ⟨v, h, rfl⟩ := ev_ne (k := k) hp s hs
  rw [h]; rfl

namespace Obj
variable (o : Obj M N)

theorem row_kv (hp : o.p ≠ 0) (x : Fin N → ℝ) (j : Fin M) : o.row x j = some (kv o.rbf o.p (sqd x (o.points j))) :=
  ev_kv hp _ (sqd_nonneg _ _)

theorem gram_kv (hp : o.p ≠ 0) (i j : Fin M) : o.gram i j = kv o.rbf o.p (sqd (o.points i) (o.points j)) := by
  simp [gram, row_kv o hp]

theorem gram_pd (hp : o.p ≠ 0) (hk : o.rbf ≠ .multi) (hc : Function.Injective o.points) (w : Fin M → ℝ) (hw : w ≠ 0) :
    0 < ∑ i, ∑ j, w i * w j * o.gram i j := by
  simp_rw [gram_kv o hp]
  have h2 : 0 < o.p ^ 2 := by positivity
  cases hr : o.rbf
  · exact gauss_pd w o.points (t := 1 / (2 * o.p ^ 2)) (by positivity) hc hw
  · exact absurd hr hk
  · exact invmulti_pd w o.points h2 hc hw

theorem gram_psd (hp : o.p ≠ 0) (hk : o.rbf ≠ .multi) (w : Fin M → ℝ) : 0 ≤ ∑ i, ∑ j, w i * w j * o.gram i j := by
  simp_rw [gram_kv o hp]
  have h2 : 0 < o.p ^ 2 := by positivity
  cases hr : o.rbf
  · exact gauss_psd w o.points (t := 1 / (2 * o.p ^ 2)) (by positivity)
  · exact absurd hr hk
  · exact invmulti_psd w o.points h2

theorem sqd_comm (a b : Fin N → ℝ) : sqd a b = sqd b a := Finset.sum_congr rfl fun k _ => by ring

theorem gram_symm (hp : o.p ≠ 0) (i j : Fin M) : o.gram i j = o.gram j i := by
  rw [gram_kv o hp, gram_kv o hp, sqd_comm]

theorem sqd_self (a : Fin N → ℝ) : sqd a a = 0 := by simp [sqd]

theorem gram_det_multi (hp : o.p ≠ 0) (hk : o.rbf = .multi) (hc : Function.Injective o.points) : o.gram.det ≠ 0 := by
  intro hd
  obtain ⟨w, hw, hz⟩ := Matrix.exists_mulVec_eq_zero_iff.2 hd
  have h2 : 0 < o.p ^ 2 := by positivity
  have hg : ∀ i j, o.gram i j = √(sqd (o.points i) (o.points j) + o.p ^ 2) := fun i j => by
    rw [gram_kv o hp, hk]; rfl
  have hcnd : ∀ u : Fin M → ℝ, u ≠ 0 → ∑ i, u i = 0 → ∑ i, ∑ j, u i * u j * o.gram i j < 0 := by
    intro u hu h0
    simp_rw [hg]
    exact multi_cnd u o.points h2 hc hu h0
  have hs : ∑ i, w i ≠ 0 := by
    intro h0
    have := hcnd w hw h0
    rw [quad_eq _ w hz w] at this
    exact lt_irrefl _ this
  -- every vector is `u + c w` with `u` of sum zero
  have hq : ∀ v : Fin M → ℝ, ∑ i, ∑ j, v i * v j * o.gram i j ≤ 0 := by
    intro v
    set c := (∑ i, v i) / ∑ i, w i with hcdef
    set u : Fin M → ℝ := fun i => v i - c * w i with hu
    have hu0 : ∑ i, u i = 0 := by
      simp only [hu, Finset.sum_sub_distrib, ← Finset.mul_sum, hcdef]
      field_simp; ring
    have e : ∑ i, ∑ j, v i * v j * o.gram i j = ∑ i, ∑ j, u i * u j * o.gram i j := by
      have a := quad_eq _ w hz u
      have b := quad_eq _ w hz v
      have b' : ∑ i, ∑ j, w i * u j * o.gram i j = 0 := by
        rw [Finset.sum_comm, ← a]
        refine Finset.sum_congr rfl fun i _ => Finset.sum_congr rfl fun j _ => ?_
        rw [gram_symm o hp]; ring
      have split : ∀ i j, v i * v j * o.gram i j = u i * u j * o.gram i j + c * (w i * u j * o.gram i j) +
          c * (v i * w j * o.gram i j) := by
        intro i j
        simp only [hu]; ring
      simp_rw [split, Finset.sum_add_distrib, ← Finset.mul_sum]
      rw [b, b']; ring
    rw [e]
    by_cases hne : u = 0
    · rw [hne]; simp
    · exact (hcnd u hne hu0).le
  obtain ⟨i, -⟩ : ∃ i, w i ≠ 0 := Function.ne_iff.1 hw
  have h1 := hq (Pi.single i 1)
  have h3 : ∑ a, ∑ b, (Pi.single i 1 : Fin M → ℝ) a * (Pi.single i 1 : Fin M → ℝ) b * o.gram a b = o.gram i i := by
    rw [Finset.sum_eq_single i, Finset.sum_eq_single i]
    · simp
    · intro b _ hb; simp [Pi.single_eq_of_ne hb]
    · simp
    · intro a _ ha; simp [Pi.single_eq_of_ne ha]
    · simp
  rw [h3, hg, sqd_self, zero_add] at h1
  exact absurd h1 (not_le.2 (Real.sqrt_pos.2 h2))

theorem gram_det (hp : o.p ≠ 0) (hc : Function.Injective o.points) : o.gram.det ≠ 0 := by
  by_cases hk : o.rbf = .multi
  · exact gram_det_multi o hp hk hc
  · exact det_of_pd _ fun w hw => gram_pd o hp hk hc w hw

theorem rows_some (hp : o.p ≠ 0) : ∀ i, allSome (o.row (o.points i)) := fun i j => by
  rw [row_kv o hp]; simp

theorem maxw_eq_zero (w : Fin M → ℝ) : maxw w = 0 ↔ w = 0 := by
  unfold maxw
  rw [NNReal.coe_eq_zero, ← bot_eq_zero, Finset.sup_eq_bot_iff]
  constructor
  · intro h
    funext i
    have := h i (Finset.mem_univ i)
    rw [bot_eq_zero] at this
    simpa using this
  · rintro rfl i _
    simp

theorem predict_kv (hp : o.p ≠ 0) {w : Fin M → ℝ} (hw : w ≠ 0) (x : Fin N → ℝ) :
    o.predict w x = some (∑ j, kv o.rbf o.p (sqd x (o.points j)) * w j) := by
  have hm : maxw w ≠ 0 := fun h => hw ((maxw_eq_zero w).1 h)
  unfold predict
  rw [dif_pos rfl]
  simp only [Fin.cast_eq_self]
  rw [if_pos ⟨fun j => by rw [row_kv o hp]; simp, hm⟩]
  simp only [row_kv o hp, Option.getD_some]
  rw [Finset.sum_mul]
  congr 1
  refine Finset.sum_congr rfl fun j _ => ?_
  field_simp

theorem sum_ne_zero_of {A : Matrix (Fin M) (Fin M) ℝ} {w b : Fin M → ℝ} (h : ∀ i, ∑ j, A i j * w j = b i) (hb : b ≠ 0) :
    w ≠ 0 := by
  rintro rfl
  apply hb
  funext i
  rw [← h i]; simp

theorem predict_train (hp : o.p ≠ 0) {w : Fin M → ℝ} (hw : w ≠ 0) (i : Fin M) :
    o.predict w (o.points i) = some (∑ j, o.gram i j * w j) := by
  rw [predict_kv o hp hw]
  simp_rw [gram_kv o hp]

variable {solve : Matrix (Fin M) (Fin M) ℝ → (Fin M → ℝ) → Option (Fin M → ℝ)}
  {lstsq : Matrix (Fin M) (Fin M) ℝ → (Fin M → ℝ) → Fin M → ℝ}

/-- **C71** (interpolation): for all three kernels, any shape parameter `p ≠ 0` and any pairwise different training
points the fit with `r=0` succeeds (the linear system is never singular) and the model reproduces all training
values.
Missing: training values that are all zero, where the code gives `nan` (`C71_zero_counterexample`). -/
theorem C71_interpolation_partial (hs : Spec.IsSolver solve) (hp : o.p ≠ 0) (hr : o.r = some 0)
    (hc : Function.Injective o.points) (hv : ∃ i, o.values i ≠ 0) :
    ∃ w, o.fit solve lstsq = some w ∧ ∀ i, o.predict w (o.points i) = some (o.values i) := by
  obtain ⟨w, h1, h2⟩ := (hs o.gram o.values).2 (gram_det o hp hc)
  have hw : w ≠ 0 := sum_ne_zero_of h2 (Function.ne_iff.2 hv)
  refine ⟨w, ?_, fun i => ?_⟩
  · unfold fit
    rw [if_pos (rows_some o hp), hr]
    simpa using h1
  · rw [predict_train o hp hw, h2 i]

/-- **C71**, counterexample: training data that are all zero (any points, kernel, `p`). The fit succeeds, the
model is `nan` everywhere, also at the training points. -/
theorem C71_zero_counterexample (hs : Spec.IsSolver solve) (hp : o.p ≠ 0) (hr : o.r = some 0)
    (hc : Function.Injective o.points) (hv : ∀ i, o.values i = 0) :
    ∃ w, o.fit solve lstsq = some w ∧ ∀ x : Fin N → ℝ, o.predict w x = none := by
  obtain ⟨w, h1, h2⟩ := (hs o.gram o.values).2 (gram_det o hp hc)
  have hw : w = 0 := Matrix.eq_zero_of_mulVec_eq_zero (gram_det o hp hc) (by
    funext i
    simp only [Matrix.mulVec, dotProduct]
    rw [h2 i, hv i]; rfl)
  refine ⟨w, ?_, fun x => ?_⟩
  · unfold fit
    rw [if_pos (rows_some o hp), hr]
    simpa using h1
  · unfold predict
    rw [dif_pos rfl]
    rw [if_neg]
    rintro ⟨-, h⟩
    exact h ((maxw_eq_zero w).2 hw)

/-- **C71** (least squares, `r=None`): also reproduces the training values. -/
theorem C71_lstsq (hs : Spec.IsLstsq lstsq) (hp : o.p ≠ 0) (hr : o.r = none)
    (hc : Function.Injective o.points) (hv : ∃ i, o.values i ≠ 0) :
    ∃ w, o.fit solve lstsq = some w ∧ ∀ i, o.predict w (o.points i) = some (o.values i) := by
  have hd := gram_det o hp hc
  have hu : IsUnit o.gram.det := isUnit_iff_ne_zero.2 hd
  have h2 : ∀ i, ∑ j, o.gram i j * lstsq o.gram o.values j = o.values i := by
    have h := hs o.gram o.values (o.gram⁻¹.mulVec o.values)
    have e : ∀ i, ∑ j, o.gram i j * (o.gram⁻¹.mulVec o.values) j = o.values i := by
      intro i
      have : o.gram.mulVec (o.gram⁻¹.mulVec o.values) = o.values := by
        rw [Matrix.mulVec_mulVec, Matrix.mul_nonsing_inv _ hu, Matrix.one_mulVec]
      exact congrFun this i
    simp_rw [e] at h
    have h0 : ∑ i, (∑ j, o.gram i j * lstsq o.gram o.values j - o.values i) ^ 2 = 0 :=
      le_antisymm (by simpa using h) (Finset.sum_nonneg fun _ _ => sq_nonneg _)
    intro i
    have := (Finset.sum_eq_zero_iff_of_nonneg (fun _ _ => sq_nonneg _)).1 h0 i (Finset.mem_univ _)
    have := pow_eq_zero_iff two_ne_zero |>.1 this
    linarith
  refine ⟨lstsq o.gram o.values, ?_, fun i => ?_⟩
  · unfold fit
    rw [if_pos (rows_some o hp), hr]
  · rw [predict_train o hp (sum_ne_zero_of h2 (Function.ne_iff.2 hv)), h2 i]

/-- **C71** (regularisation): Gaussian and inverse multiquadric with `r > 0` can be fitted to any training points,
also equal ones; at the training points the model misses the values by `r` times the weights. -/
theorem C71_regularised (hs : Spec.IsSolver solve) (hp : o.p ≠ 0) {r : ℝ} (hr : o.r = some r) (hr0 : 0 < r)
    (hk : o.rbf ≠ .multi) (hv : ∃ i, o.values i ≠ 0) :
    ∃ w, o.fit solve lstsq = some w ∧ ∀ i, o.predict w (o.points i) = some (o.values i - r * w i) := by
  have form : ∀ (w : Fin M → ℝ) i, ∑ j, (o.gram + r • (1 : Matrix (Fin M) (Fin M) ℝ)) i j * w j =
      ∑ j, o.gram i j * w j + r * w i := by
    intro w i
    simp [Matrix.one_apply, add_mul, Finset.sum_add_distrib]
  have hd : (o.gram + r • (1 : Matrix (Fin M) (Fin M) ℝ)).det ≠ 0 := by
    intro hd
    obtain ⟨w, hw, hz⟩ := Matrix.exists_mulVec_eq_zero_iff.2 hd
    have h1 := quad_eq _ w hz w
    have h2 := gram_psd o hp hk w
    have h3 : ∑ i, ∑ j, w i * w j * (o.gram + r • (1 : Matrix (Fin M) (Fin M) ℝ)) i j =
        ∑ i, ∑ j, w i * w j * o.gram i j + r * ∑ i, w i ^ 2 := by
      rw [Finset.mul_sum, ← Finset.sum_add_distrib]
      refine Finset.sum_congr rfl fun i _ => ?_
      have := form w i
      have e : ∀ B : Matrix (Fin M) (Fin M) ℝ, ∑ j, w i * w j * B i j = w i * ∑ j, B i j * w j := fun B => by
        rw [Finset.mul_sum]; exact Finset.sum_congr rfl fun j _ => by ring
      rw [e, e, this]; ring
    rw [h3] at h1
    obtain ⟨i, hi⟩ := Function.ne_iff.1 hw
    have h4 : 0 < ∑ i, w i ^ 2 := Finset.sum_pos' (fun _ _ => sq_nonneg _) ⟨i, Finset.mem_univ _, by
      have : w i ≠ 0 := hi
      positivity⟩
    have := mul_pos hr0 h4
    linarith
  obtain ⟨w, h1, h2⟩ := (hs _ o.values).2 hd
  refine ⟨w, ?_, fun i => ?_⟩
  · unfold fit
    rw [if_pos (rows_some o hp), hr]
    simpa [hr0.ne'] using h1
  · rw [predict_train o hp (sum_ne_zero_of h2 (Function.ne_iff.2 hv))]
    have := h2 i
    rw [form] at this
    congr 1; linarith

/-- **C71** (double points): two equal training points and `r=0` are refused, for any kernel and any `p`. -/
theorem C71_double_points (hs : Spec.IsSolver solve) (hr : o.r = some 0) {a b : Fin M} (hab : a ≠ b)
    (he : o.points a = o.points b) : o.fit solve lstsq = none := by
  unfold fit
  split
  · rw [hr]
    simp only [if_true]
    exact (hs _ _).1 (Matrix.det_zero_of_row_eq hab (by funext j; simp [gram, he]))
  · rfl

theorem sqd_update (x c : Fin N → ℝ) (k : Fin N) (t : ℝ) :
    sqd (Function.update x k t) c = sqd x c + ((t - c k) ^ 2 - (x k - c k) ^ 2) := by
  unfold sqd
  rw [← Finset.add_sum_erase _ _ (Finset.mem_univ k), ← Finset.add_sum_erase (a := k) (f := fun k => (x k - c k) ^ 2) _ (Finset.mem_univ k)]
  rw [Function.update_self]
  have : ∑ i ∈ Finset.univ.erase k, (Function.update x k t i - c i) ^ 2 = ∑ i ∈ Finset.univ.erase k, (x i - c i) ^ 2 :=
    Finset.sum_congr rfl fun i hi => by rw [Function.update_of_ne (Finset.ne_of_mem_erase hi)]
  rw [this]; ring

theorem sqd_deriv (x c : Fin N → ℝ) (k : Fin N) :
    HasDerivAt (fun t => sqd (Function.update x k t) c) (2 * (x k - c k)) (x k) := by
  simp_rw [sqd_update]
  have h := ((((hasDerivAt_id (x k)).sub_const (c k)).pow 2).sub_const ((x k - c k) ^ 2)).const_add (sqd x c)
  refine h.congr_deriv ?_
  simp

/-- Derivative of the kernel with respect to the squared distance. -/
noncomputable def kd (k : Kind) (p s : ℝ) : ℝ :=
  match k with
  | .gauss => -(1 / (2 * p ^ 2)) * Real.exp (-(1 / (2 * p ^ 2)) * s)
  | .multi => 1 / (2 * √(s + p ^ 2))
  | .invMulti => -(1 / 2) * (1 / √(s + p ^ 2)) ^ 3

theorem kv_deriv (k : Kind) {p s : ℝ} (hp : p ≠ 0) (hs : 0 ≤ s) : HasDerivAt (kv k p) (kd k p s) s := by
  have hpos : 0 < s + p ^ 2 := by positivity
  have hsq : 0 < √(s + p ^ 2) := Real.sqrt_pos.2 hpos
  cases k
  · have := ((hasDerivAt_id s).const_mul (-(1 / (2 * p ^ 2)))).exp
    refine this.congr_deriv ?_
    simp [kd]; ring
  · exact ((hasDerivAt_id s).add_const (p ^ 2)).sqrt hpos.ne'
  · have := (((hasDerivAt_id s).add_const (p ^ 2)).sqrt hpos.ne').inv hsq.ne'
    have e : kv .invMulti p = (fun y => √(id y + p ^ 2))⁻¹ := by
      funext y; simp [kv]
    rw [e]
    refine this.congr_deriv ?_
    simp only [kd, id]
    field_simp

/-- **C71** (gradient): for all three kernels, any `p ≠ 0` and any weights that are not all zero, `predict` is
defined at every point and `deriv` returns its gradient, at the training points too. -/
theorem C71_gradient (hp : o.p ≠ 0) {w : Fin M → ℝ} (hw : ∃ i, w i ≠ 0) :
    ∃ f : (Fin N → ℝ) → ℝ, (∀ x : Fin N → ℝ, o.predict w x = some (f x)) ∧
      ∀ x : Fin N → ℝ, ∃ g, o.deriv w x = some g ∧ Spec.IsGradient f x g := by
  have hw' : w ≠ 0 := Function.ne_iff.2 hw
  have hm : maxw w ≠ 0 := fun h => hw' ((maxw_eq_zero w).1 h)
  refine ⟨fun x => ∑ j, kv o.rbf o.p (sqd x (o.points j)) * w j, fun x => predict_kv o hp hw' x, fun x => ?_⟩
  have hD : ∀ k, HasDerivAt (fun t => ∑ j, kv o.rbf o.p (sqd (Function.update x k t) (o.points j)) * w j)
      (∑ j, kd o.rbf o.p (sqd x (o.points j)) * (2 * (x k - o.points j k)) * w j) (x k) := by
    intro k
    refine HasDerivAt.fun_sum fun j _ => ?_
    have h1 : HasDerivAt (kv o.rbf o.p) (kd o.rbf o.p (sqd x (o.points j)))
        (sqd (Function.update x k (x k)) (o.points j)) := by
      rw [Function.update_eq_self]
      exact kv_deriv _ hp (sqd_nonneg _ _)
    exact (h1.comp (x k) (sqd_deriv x (o.points j) k)).mul_const (w j)
  suffices h : o.deriv w x = some fun k => ∑ j, kd o.rbf o.p (sqd x (o.points j)) * (2 * (x k - o.points j k)) * w j from
    ⟨_, h, fun k => hD k⟩
  unfold deriv
  rw [dif_pos rfl]
  simp only [Fin.cast_eq_self]
  rw [if_pos ⟨fun j => by rw [row_kv o hp]; simp, hm⟩]
  simp only [row_kv o hp, Option.getD_some]
  have hpos : ∀ j, 0 < √(sqd x (o.points j) + o.p ^ 2) := fun j => Real.sqrt_pos.2 (by
    have := sqd_nonneg x (o.points j)
    positivity)
  cases hk : o.rbf
  · simp only [if_neg hp]
    congr 1
    funext k
    rw [Finset.mul_sum, Finset.sum_mul]
    refine Finset.sum_congr rfl fun j _ => ?_
    simp only [kv, kd]
    field_simp; ring
  · simp only
    rw [if_pos (show ∀ j, kv .multi o.p (sqd (fun k => x k) (o.points j)) ≠ 0 from fun j => (hpos j).ne')]
    congr 1
    funext k
    rw [neg_mul, Finset.sum_mul, ← Finset.sum_neg_distrib]
    refine Finset.sum_congr rfl fun j _ => ?_
    have := (hpos j).ne'
    simp only [kv, kd]
    field_simp; ring
  · simp only
    congr 1
    funext k
    rw [Finset.sum_mul]
    refine Finset.sum_congr rfl fun j _ => ?_
    have := (hpos j).ne'
    simp only [kv, kd]
    field_simp; ring

/-- **C71** (shapes, keyword `der`): a point with another number of coordinates than the training points is refused by
`predict` and `deriv`; without `der` the model value is returned, with `der=1` the gradient, any other value of `der`
(also 0) is refused. -/
theorem C71_call (w : Fin M → ℝ) {N' : Nat} (x : Fin N' → ℝ) :
    (N' ≠ N → o.predict w x = none ∧ o.deriv w x = none) ∧
    (∀ v, o.call w x none = some (.inl v) ↔ o.predict w x = some v) ∧
    (∀ g, o.call w x (some 1) = some (.inr g) ↔ o.deriv w x = some g) ∧
    (∀ d : Int, d ≠ 1 → o.call w x (some d) = none) := by
  refine ⟨fun h => ⟨by simp [predict, h], by simp [deriv, h]⟩, fun v => ?_, fun g => ?_, fun d hd => by simp [call, hd]⟩
  · simp [call]
  · simp [call]

/-- **C71** (fit error): at the training data the interpolating model has error 0 for `p > 0` and error 1 for `p < 0`
(the penalty). -/
theorem C71_fit_error_train (hs : Spec.IsSolver solve) (hp : o.p ≠ 0) (hr : o.r = some 0)
    (hc : Function.Injective o.points) (hv : ∃ i, o.values i ≠ 0) :
    ∃ w, o.fit solve lstsq = some w ∧ o.fitError w o.points o.values = some (if o.p < 0 then 1 else 0) := by
  obtain ⟨w, h1, h2⟩ := o.C71_interpolation_partial (lstsq := lstsq) hs hp hr hc hv
  refine ⟨w, h1, ?_⟩
  unfold fitError
  rw [if_pos ⟨fun h => by obtain ⟨i, -⟩ := hv; exact (h ▸ i).elim0, fun i => by simp only [h2]; simp⟩]
  simp [h2]

/-- **C71** (fit error): the error is never negative; for `p ≥ 0` it is zero exactly when the model hits all data; for
`p < 0` it is at least 1. -/
theorem C71_fit_error (w : Fin M → ℝ) {L : Nat} (points : Fin L → Fin N → ℝ) (values : Fin L → ℝ) {e : ℝ}
    (h : o.fitError w points values = some e) :
    0 ≤ e ∧ (0 ≤ o.p → (e = 0 ↔ ∀ l, o.predict w (points l) = some (values l))) ∧ (o.p < 0 → 1 ≤ e) := by
  unfold fitError at h
  split at h
  case isFalse => cases h
  rename_i hL
  obtain ⟨hL, hall⟩ := hL
  have hL' : (0 : ℝ) < L := by exact_mod_cast Nat.pos_of_ne_zero hL
  simp only [Option.some.injEq] at h
  set res := fun l => values l - (o.predict w (points l)).getD 0 with hres
  have hn : 0 ≤ ∑ l, res l * res l := Finset.sum_nonneg fun _ _ => mul_self_nonneg _
  have hn2 : 0 ≤ (∑ l, res l * res l) / (L : ℝ) := by positivity
  refine ⟨?_, fun hp => ?_, fun hp => ?_⟩
  · rw [← h]; split
    · exact (Real.exp_pos _).le
    · exact hn2
  · rw [if_neg (not_lt.2 hp)] at h
    rw [← h, div_eq_zero_iff, or_iff_left hL'.ne', Finset.sum_eq_zero_iff_of_nonneg (fun _ _ => mul_self_nonneg _)]
    refine forall_congr' fun l => ?_
    rcases hq : o.predict w (points l) with _ | v
    · exact absurd hq (hall l)
    · simp [hres, hq, sub_eq_zero, eq_comm]
  · rw [if_pos hp] at h
    rw [← h]
    exact Real.one_le_exp (abs_nonneg _)

end Obj

/-- **C71** (default of `p`): the mean distance of the training points; it is zero exactly when all points are
the same. -/
theorem C71_mean (points : Fin M → Fin N → ℝ) (values : Fin M → ℝ) (k : Kind) (r : Option ℝ) (q : ℝ) :
    ∃ o, init points values k r .mean q = some o ∧ o.points = points ∧ o.values = values ∧ o.rbf = k ∧ o.r = r ∧
      o.p = (∑ i, ∑ j, √(∑ d, (points i d - points j d) ^ 2)) / (M ^ 2 : ℝ) ∧ 0 ≤ o.p ∧
      (o.p = 0 ↔ ∀ i j, points i = points j) := by
  refine ⟨_, rfl, rfl, rfl, rfl, rfl, ?_, ?_, ?_⟩
  · simp only [meanDist, sqd, sq]
  · simp only [meanDist]
    exact div_nonneg (Finset.sum_nonneg fun _ _ => Finset.sum_nonneg fun _ _ => Real.sqrt_nonneg _) (by positivity)
  · simp only [meanDist]
    rcases Nat.eq_zero_or_pos M with rfl | hM
    · simp
    · have : ((M : ℝ) * M) ≠ 0 := by positivity
      rw [div_eq_zero_iff, or_iff_left this, Finset.sum_eq_zero_iff_of_nonneg (fun _ _ => Finset.sum_nonneg fun _ _ => Real.sqrt_nonneg _)]
      refine forall_congr' fun i => ?_
      rw [Finset.sum_eq_zero_iff_of_nonneg (fun _ _ => Real.sqrt_nonneg _)]
      simp only [Finset.mem_univ, forall_true_left]
      refine forall_congr' fun j => ?_
      rw [Real.sqrt_eq_zero (sqd_nonneg _ _), sqd, Finset.sum_eq_zero_iff_of_nonneg (fun _ _ => sq_nonneg _), funext_iff]
      simp [sub_eq_zero]

/-- **C71** (argument `p`): a given number is used as it is, `'scipy'` uses that estimate, any other string is refused; the
data are kept. -/
theorem C71_init (points : Fin M → Fin N → ℝ) (values : Fin M → ℝ) (k : Kind) (r : Option ℝ) (p q : ℝ) :
    init points values k r (.num p) q = some ⟨points, values, k, r, p⟩ ∧
    init points values k r .scipy q = some ⟨points, values, k, r, q⟩ ∧
    init points values k r .otherStr q = none := ⟨rfl, rfl, rfl⟩

/-- **C71** (default of `p`): with the defaults a single training point cannot be fitted (`p` is 0). -/
theorem C71_single_point (points : Fin 1 → Fin N → ℝ) (values : Fin 1 → ℝ) (k : Kind) (hk : k ≠ .multi) (r : Option ℝ) (q : ℝ)
    (solve : Matrix (Fin 1) (Fin 1) ℝ → (Fin 1 → ℝ) → Option (Fin 1 → ℝ))
    (lstsq : Matrix (Fin 1) (Fin 1) ℝ → (Fin 1 → ℝ) → Fin 1 → ℝ) :
    ∃ o, init points values k r .mean q = some o ∧ o.fit solve lstsq = none := by
  refine ⟨_, rfl, ?_⟩
  unfold Obj.fit
  rw [if_neg]
  intro h
  apply h 0 0
  cases k
  · simp [Obj.row, Kind.ev, meanDist, Obj.sqd_self]
  · exact absurd rfl hk
  · simp [Obj.row, Kind.ev, meanDist, Obj.sqd_self]

/-! ### Examples -/

open Classical in
/-- An exact solver exists. -/
theorem solver_exists (M : Nat) : Spec.IsSolver (M := M) (fun A b => if A.det = 0 then none else some (A⁻¹.mulVec b)) := by
  intro A b
  refine ⟨fun h => by simp [h], fun h => ⟨A⁻¹.mulVec b, by simp [h], fun i => ?_⟩⟩
  have : A.mulVec (A⁻¹.mulVec b) = b := by
    rw [Matrix.mulVec_mulVec, Matrix.mul_nonsing_inv _ (isUnit_iff_ne_zero.2 h), Matrix.one_mulVec]
  exact congrFun this i

/-- Two points on a line, Gaussian. -/
def exO : Obj 2 1 := ⟨fun i _ => i.val, fun i => i.val, .gauss, some 0, 1⟩

theorem exO_inj : Function.Injective exO.points := by
  intro i j h
  have := congrFun h 0
  simp only [exO, Nat.cast_inj] at this
  exact Fin.ext this

example : ∃ solve w, exO.fit solve (fun _ b => b) = some w ∧ ∀ i, exO.predict w (exO.points i) = some (i.val : ℝ) := by
  obtain ⟨w, h⟩ := exO.C71_interpolation_partial (lstsq := fun _ b => b) (solver_exists 2) (by simp [exO]) rfl exO_inj
    ⟨1, by simp [exO]⟩
  exact ⟨_, w, h⟩

example : ∃ w : Fin 2 → ℝ, ∃ i, w i ≠ 0 := ⟨fun _ => 1, 0, one_ne_zero⟩

end Pwtools.Rbf
