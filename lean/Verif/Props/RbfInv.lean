import Verif.Props.Rbf
/-!
# C159: an RBF model does not depend on origin, axes, order and units of the data, and is linear in the values
-/
namespace Pwtools.Rbf
variable {M N : Nat}

namespace Obj
variable (o : Obj M N)
  (solve : Matrix (Fin M) (Fin M) ℝ → (Fin M → ℝ) → Option (Fin M → ℝ))
  (lstsq : Matrix (Fin M) (Fin M) ℝ → (Fin M → ℝ) → Fin M → ℝ)

/-- `Rbf(...)(x)`: fit, then `predict`. -/
noncomputable def value (x : Fin N → ℝ) : Option ℝ := (o.fit solve lstsq).bind (fun w => o.predict w x)

/-- `Rbf(...)(x, der=1)`: fit, then `deriv`. -/
noncomputable def slope (x : Fin N → ℝ) : Option (Fin N → ℝ) := (o.fit solve lstsq).bind (fun w => o.deriv w x)

/-- The cases in which the linear system is never singular: different points without regularisation, or a positive
regularisation of a positive kernel. -/
def WellPosed : Prop :=
  o.p ≠ 0 ∧ (((o.r = none ∨ o.r = some 0) ∧ Function.Injective o.points) ∨ (∃ r, 0 < r ∧ o.r = some r ∧ o.rbf ≠ .multi))

/-- The matrix of the linear system. -/
noncomputable def sys : Matrix (Fin M) (Fin M) ℝ := o.gram + (o.r.getD 0) • (1 : Matrix (Fin M) (Fin M) ℝ)

theorem sys_det (h : o.WellPosed) : o.sys.det ≠ 0 := by
  obtain ⟨hp, ⟨hr, hc⟩ | ⟨r, hr0, hr, hk⟩⟩ := h
  · have : o.sys = o.gram := by
      unfold sys; rcases hr with hr | hr <;> simp [hr]
    rw [this]; exact gram_det o hp hc
  · refine det_of_pd _ fun w hw => ?_
    have h2 := gram_psd o hp hk w
    have e : ∑ i, ∑ j, w i * w j * o.sys i j = ∑ i, ∑ j, w i * w j * o.gram i j + r * ∑ i, w i ^ 2 := by
      rw [Finset.mul_sum, ← Finset.sum_add_distrib]
      refine Finset.sum_congr rfl fun i _ => ?_
      simp only [sys, hr, Option.getD_some, Matrix.add_apply, Matrix.smul_apply, Matrix.one_apply, smul_eq_mul, mul_add,
        Finset.sum_add_distrib, mul_ite, mul_one, mul_zero, Finset.sum_ite_eq, Finset.mem_univ, if_true]
      ring
    rw [e]
    obtain ⟨i, hi⟩ := Function.ne_iff.1 hw
    have : 0 < ∑ i, w i ^ 2 := Finset.sum_pos' (fun _ _ => sq_nonneg _) ⟨i, Finset.mem_univ i, by
      have : w i ≠ 0 := hi
      positivity⟩
    positivity

variable {solve lstsq}

theorem fit_sol (hs : Spec.IsSolver solve) (hl : Spec.IsLstsq lstsq) (h : o.WellPosed) :
    ∃ w, o.fit solve lstsq = some w ∧ o.sys.mulVec w = o.values := by
  have hd := o.sys_det h
  have key : ∀ r, o.r = some r → ∃ w, o.fit solve lstsq = some w ∧ o.sys.mulVec w = o.values := by
    intro r hr
    obtain ⟨w, h1, h2⟩ := (hs o.sys o.values).2 hd
    refine ⟨w, ?_, funext h2⟩
    have e : o.sys = o.gram + r • (1 : Matrix (Fin M) (Fin M) ℝ) := by unfold sys; rw [hr]; rfl
    unfold fit
    rw [if_pos (rows_some o h.1), hr]
    by_cases h0 : r = 0
    · simp only [h0, if_true]
      rw [e, h0, zero_smul, add_zero] at h1
      exact h1
    · simp only [h0, if_false]
      rw [← e]; exact h1
  rcases h.2 with ⟨hr | hr, hc⟩ | ⟨r, -, hr, -⟩
  · have e : o.sys = o.gram := by unfold sys; rw [hr]; simp
    rw [e] at hd ⊢
    have hu : IsUnit o.gram.det := isUnit_iff_ne_zero.2 hd
    refine ⟨lstsq o.gram o.values, ?_, ?_⟩
    · unfold fit
      rw [if_pos (rows_some o h.1), hr]
    · have h1 := hl o.gram o.values (o.gram⁻¹.mulVec o.values)
      have e : ∀ i, ∑ j, o.gram i j * (o.gram⁻¹.mulVec o.values) j = o.values i := by
        intro i
        have : o.gram.mulVec (o.gram⁻¹.mulVec o.values) = o.values := by
          rw [Matrix.mulVec_mulVec, Matrix.mul_nonsing_inv _ hu, Matrix.one_mulVec]
        exact congrFun this i
      simp_rw [e] at h1
      simp only [sub_self, ne_eq, OfNat.ofNat_ne_zero, not_false_eq_true, zero_pow, Finset.sum_const_zero] at h1
      have h2 := (Finset.sum_eq_zero_iff_of_nonneg (fun i _ => sq_nonneg _)).1 (le_antisymm h1 (Finset.sum_nonneg fun i _ => sq_nonneg _))
      funext i
      have := pow_eq_zero_iff (two_ne_zero) |>.1 (h2 i (Finset.mem_univ i))
      exact sub_eq_zero.1 this
  · exact key 0 hr
  · exact key r hr

theorem sys_inj (h : o.WellPosed) {w w' : Fin M → ℝ} (e : o.sys.mulVec w = o.sys.mulVec w') : w = w' := by
  have : o.sys.mulVec (w - w') = 0 := by rw [Matrix.mulVec_sub, e, sub_self]
  exact sub_eq_zero.1 (Matrix.eq_zero_of_mulVec_eq_zero (o.sys_det h) this)

theorem predict_ite (hp : o.p ≠ 0) (w : Fin M → ℝ) (x : Fin N → ℝ) :
    o.predict w x = if w = 0 then none else some (∑ j, kv o.rbf o.p (sqd x (o.points j)) * w j) := by
  split
  · rename_i h
    unfold predict
    rw [dif_pos rfl, if_neg]
    rintro ⟨-, h'⟩
    exact h' ((maxw_eq_zero w).2 h)
  · rename_i h
    exact predict_kv o hp h x

/-- The factor of `points_j - x` in the gradient. -/
noncomputable def kc (k : Kind) (p s : ℝ) : ℝ :=
  match k with | .gauss => 1 / p ^ 2 * kv .gauss p s | .multi => -(1 / kv .multi p s) | .invMulti => kv .invMulti p s ^ 3

theorem kv_pos (k : Kind) {p : ℝ} (hp : p ≠ 0) {s : ℝ} (hs : 0 ≤ s) : 0 < kv k p s := by
  have hpos : 0 < √(s + p ^ 2) := Real.sqrt_pos.2 (by positivity)
  cases k
  · exact Real.exp_pos _
  · exact hpos
  · exact one_div_pos.2 hpos

theorem deriv_ite (hp : o.p ≠ 0) (w : Fin M → ℝ) (x : Fin N → ℝ) :
    o.deriv w x = if w = 0 then none else
      some (fun k => ∑ j, kc o.rbf o.p (sqd x (o.points j)) * (o.points j k - x k) * w j) := by
  split
  · rename_i h
    unfold deriv
    rw [dif_pos rfl, if_neg]
    rintro ⟨-, h'⟩
    exact h' ((maxw_eq_zero w).2 h)
  · rename_i h
    have hm : maxw w ≠ 0 := fun h' => h ((maxw_eq_zero w).1 h')
    have hall : allSome (o.row x) := fun j => by rw [row_kv o hp]; simp
    have hg : ∀ j, (o.row x j).getD 0 = kv o.rbf o.p (sqd x (o.points j)) := fun j => by rw [row_kv o hp]; rfl
    have hgp : ∀ j, kv o.rbf o.p (sqd x (o.points j)) ≠ 0 := fun j => (kv_pos _ hp (sqd_nonneg _ _)).ne'
    unfold deriv
    rw [dif_pos rfl]
    simp only [Fin.cast_eq_self]
    rw [if_pos ⟨hall, hm⟩]
    simp only [hg]
    cases hk : o.rbf
    · simp only [hp, if_false, Option.some.injEq]
      funext k
      rw [Finset.mul_sum, Finset.sum_mul]
      refine Finset.sum_congr rfl fun j _ => ?_
      simp only [kc]
      field_simp
    · rw [hk] at hgp
      simp only [if_pos hgp, Option.some.injEq]
      funext k
      rw [← Finset.sum_neg_distrib, Finset.sum_mul]
      refine Finset.sum_congr rfl fun j _ => ?_
      simp only [kc]
      have := hgp j
      field_simp
    · simp only [Option.some.injEq]
      funext k
      rw [Finset.sum_mul]
      refine Finset.sum_congr rfl fun j _ => ?_
      simp only [kc]
      field_simp

/-! ### Origin and axes -/

theorem predict_pos {w : Fin M → ℝ} {x : Fin N → ℝ} (hc : allSome (o.row x) ∧ maxw w ≠ 0) :
    o.predict w x = some ((∑ j, (o.row x j).getD 0 * (w j / maxw w)) * maxw w) := by
  unfold predict
  rw [dif_pos rfl]
  exact if_pos hc

theorem predict_neg {w : Fin M → ℝ} {x : Fin N → ℝ} (hc : ¬(allSome (o.row x) ∧ maxw w ≠ 0)) : o.predict w x = none := by
  unfold predict
  rw [dif_pos rfl]
  exact if_neg hc

open Classical in
theorem deriv_pos {w : Fin M → ℝ} {x : Fin N → ℝ} (hc : allSome (o.row x) ∧ maxw w ≠ 0) :
    o.deriv w x = match o.rbf with
      | .multi =>
        if ∀ j, (o.row x j).getD 0 ≠ 0 then
          some fun k => -(∑ j, (o.points j k - x k) / (o.row x j).getD 0 * (w j / maxw w)) * maxw w
        else none
      | .invMulti => some fun k => (∑ j, (o.points j k - x k) * (o.row x j).getD 0 ^ 3 * (w j / maxw w)) * maxw w
      | .gauss =>
        if o.p = 0 then none
        else some fun k => 1 / o.p ^ 2 * (∑ j, (o.points j k - x k) * (o.row x j).getD 0 * (w j / maxw w)) * maxw w := by
  unfold deriv
  rw [dif_pos rfl]
  exact if_pos hc

theorem deriv_neg {w : Fin M → ℝ} {x : Fin N → ℝ} (hc : ¬(allSome (o.row x) ∧ maxw w ≠ 0)) : o.deriv w x = none := by
  unfold deriv
  rw [dif_pos rfl]
  exact if_neg hc

theorem sqd_isometry (Q : Matrix (Fin N) (Fin N) ℝ) (hQ : Q.transpose * Q = 1) (t a b : Fin N → ℝ) :
    sqd (Q.mulVec a + t) (Q.mulVec b + t) = sqd a b := by
  have h : ∀ u v : Fin N → ℝ, sqd u v = (u - v) ⬝ᵥ (u - v) := fun u v =>
    Finset.sum_congr rfl fun k _ => by simp only [Pi.sub_apply]; ring
  rw [h, h, add_sub_add_right_eq_sub, ← Matrix.mulVec_sub, Matrix.dotProduct_mulVec, ← Matrix.mulVec_transpose,
    Matrix.mulVec_mulVec, hQ, Matrix.one_mulVec]

/-- **C159** (origin and axes). Shift, rotation or reflection of training points and of the point of evaluation: the
same value, and the gradient is rotated along. For every kernel, `r`, number `p` and every solver, singular or not;
with `p='mean'` too. -/
theorem C159_isometry (points : Fin M → Fin N → ℝ) (values : Fin M → ℝ) (k : Kind) (r : Option ℝ) (q : ℝ) (p : PArg)
    (Q : Matrix (Fin N) (Fin N) ℝ) (hQ : Q.transpose * Q = 1) (t : Fin N → ℝ) (o : Obj M N)
    (ho : init points values k r p q = some o) :
    ∃ o', init (fun i => Q.mulVec (points i) + t) values k r p q = some o' ∧ ∀ x,
      o'.value solve lstsq (Q.mulVec x + t) = o.value solve lstsq x ∧
      o'.slope solve lstsq (Q.mulVec x + t) = (o.slope solve lstsq x).map Q.mulVec := by
  have hmean : meanDist (fun i => Q.mulVec (points i) + t) = meanDist points := by
    unfold meanDist; simp only [sqd_isometry Q hQ t]
  have main : ∀ p : ℝ, ∀ x, (⟨fun i => Q.mulVec (points i) + t, values, k, r, p⟩ : Obj M N).value solve lstsq (Q.mulVec x + t) =
      (⟨points, values, k, r, p⟩ : Obj M N).value solve lstsq x ∧
      (⟨fun i => Q.mulVec (points i) + t, values, k, r, p⟩ : Obj M N).slope solve lstsq (Q.mulVec x + t) =
      ((⟨points, values, k, r, p⟩ : Obj M N).slope solve lstsq x).map Q.mulVec := by
    intro p x
    set o1 : Obj M N := ⟨points, values, k, r, p⟩ with ho1
    set o2 : Obj M N := ⟨fun i => Q.mulVec (points i) + t, values, k, r, p⟩ with ho2
    have hrow : ∀ y, o2.row (Q.mulVec y + t) = o1.row y := by
      intro y; funext j; simp only [row, ho1, ho2, sqd_isometry Q hQ t]
    have hgram : o2.gram = o1.gram := by
      funext i j
      unfold gram
      exact congrArg (fun z => (z j).getD 0) (hrow (points i))
    have hfit : o2.fit solve lstsq = o1.fit solve lstsq := by
      have hr : ∀ i, o2.row (o2.points i) = o1.row (o1.points i) := fun i => hrow (points i)
      unfold fit
      rw [hgram]
      by_cases hc : ∀ i, allSome (o1.row (o1.points i))
      · rw [if_pos hc, if_pos (fun i => by rw [hr]; exact hc i)]
      · rw [if_neg hc, if_neg (fun h => hc (fun i => by rw [← hr]; exact h i))]
    unfold value slope
    rw [hfit]
    constructor
    · congr 1
      funext w
      by_cases hc : allSome (o1.row x) ∧ maxw w ≠ 0
      · rw [predict_pos o1 hc, predict_pos o2 (by rw [hrow]; exact hc), hrow]
      · rw [predict_neg o1 hc, predict_neg o2 (by rw [hrow]; exact hc)]
    · cases o1.fit solve lstsq with
      | none => rfl
      | some w =>
        simp only [Option.bind_some]
        have lin : ∀ (c : Fin M → ℝ) (l : Fin N), ∑ j, (o2.points j l - (Q.mulVec x + t) l) * c j =
            Q.mulVec (fun k => ∑ j, (o1.points j k - x k) * c j) l := by
          intro c l
          simp only [ho1, ho2, Matrix.mulVec, dotProduct, Pi.add_apply, add_sub_add_right_eq_sub, Finset.mul_sum]
          rw [Finset.sum_comm]
          refine Finset.sum_congr rfl fun j _ => ?_
          rw [← Finset.sum_sub_distrib, Finset.sum_mul]
          exact Finset.sum_congr rfl fun m _ => by ring
        have hk2 : o2.rbf = o1.rbf := rfl
        have hp2 : o2.p = o1.p := rfl
        by_cases hc : allSome (o1.row x) ∧ maxw w ≠ 0
        · rw [deriv_pos o1 hc, deriv_pos o2 (by rw [hrow]; exact hc), hrow, hk2, hp2]
          cases o1.rbf
          · simp only
            split
            · rfl
            · simp only [Option.map_some, Option.some.injEq]
              funext l
              have := lin (fun j => (o1.row x j).getD 0 * (w j / maxw w)) l
              simp only [← mul_assoc] at this ⊢
              rw [this]
              simp only [Matrix.mulVec, dotProduct, Finset.mul_sum, Finset.sum_mul]
              exact Finset.sum_congr rfl fun m _ => Finset.sum_congr rfl fun j _ => by ring
          · simp only
            split
            · simp only [Option.map_some, Option.some.injEq]
              funext l
              have := lin (fun j => ((o1.row x j).getD 0)⁻¹ * (w j / maxw w)) l
              simp only [← mul_assoc] at this
              simp only [div_eq_mul_inv] at this ⊢
              simp only [← mul_assoc] at this ⊢
              rw [this]
              simp only [Matrix.mulVec, dotProduct, Finset.mul_sum, Finset.sum_mul, ← Finset.sum_neg_distrib]
              exact Finset.sum_congr rfl fun m _ => Finset.sum_congr rfl fun j _ => by ring
            · rfl
          · simp only [Option.map_some, Option.some.injEq]
            funext l
            have := lin (fun j => (o1.row x j).getD 0 ^ 3 * (w j / maxw w)) l
            simp only [← mul_assoc] at this ⊢
            rw [this]
            simp only [Matrix.mulVec, dotProduct, Finset.mul_sum, Finset.sum_mul]
            exact Finset.sum_congr rfl fun m _ => Finset.sum_congr rfl fun j _ => by ring
        · rw [deriv_neg o1 hc, deriv_neg o2 (by rw [hrow]; exact hc)]
          rfl
  cases p with
  | mean =>
    simp only [init, Option.some.injEq] at ho ⊢
    subst ho
    exact ⟨_, rfl, by rw [hmean]; exact main _⟩
  | scipy =>
    simp only [init, Option.some.injEq] at ho ⊢
    subst ho
    exact ⟨_, rfl, main _⟩
  | otherStr => simp [init] at ho
  | num p =>
    simp only [init, Option.some.injEq] at ho ⊢
    subst ho
    exact ⟨_, rfl, main _⟩

/-! ### Order -/

/-- **C159** (order). The order of the training data does not matter, also for the default `p`. -/
theorem C159_order (hs : Spec.IsSolver solve) (hl : Spec.IsLstsq lstsq) (h : o.WellPosed) (σ : Equiv.Perm (Fin M)) :
    let o' : Obj M N := ⟨fun i => o.points (σ i), fun i => o.values (σ i), o.rbf, o.r, o.p⟩
    meanDist o'.points = meanDist o.points ∧
    ∀ x, o'.value solve lstsq x = o.value solve lstsq x ∧ o'.slope solve lstsq x = o.slope solve lstsq x := by
  intro o'
  refine ⟨?_, ?_⟩
  · unfold meanDist
    congr 1
    rw [← Equiv.sum_comp σ (fun i => ∑ j, √(sqd (o.points i) (o.points j)))]
    refine Finset.sum_congr rfl fun i _ => ?_
    exact Equiv.sum_comp σ (fun j => √(sqd (o.points (σ i)) (o.points j)))
  have h' : o'.WellPosed := ⟨h.1, h.2.imp (fun a => ⟨a.1, fun i j e => σ.injective (a.2 e)⟩) id⟩
  obtain ⟨w, hw, e⟩ := o.fit_sol hs hl h
  obtain ⟨w', hw', e'⟩ := o'.fit_sol hs hl h'
  have hww : w' = fun i => w (σ i) := by
    apply o'.sys_inj h'
    rw [e']
    funext i
    have hsys : ∀ i j, o'.sys i j = o.sys (σ i) (σ j) := by
      intro i j
      simp only [sys, Matrix.add_apply, Matrix.smul_apply, Matrix.one_apply, σ.injective.eq_iff]
      rfl
    simp only [Matrix.mulVec, dotProduct, hsys]
    rw [Equiv.sum_comp σ (fun j => o.sys (σ i) j * w j)]
    exact (congrFun e (σ i)).symm
  have h0 : w' = 0 ↔ w = 0 := by
    rw [hww]
    constructor
    · intro h; funext i; have := congrFun h (σ.symm i); simpa using this
    · rintro rfl; rfl
  intro x
  unfold value slope
  rw [hw, hw']
  simp only [Option.bind_some]
  rw [o.predict_ite h.1, o'.predict_ite h'.1, o.deriv_ite h.1, o'.deriv_ite h'.1]
  simp only [h0]
  constructor
  · split
    · rfl
    · rw [hww]
      congr 1
      exact Equiv.sum_comp σ (fun j => kv o.rbf o.p (sqd x (o.points j)) * w j)
  · split
    · rfl
    · rw [hww]
      congr 1
      funext k
      exact Equiv.sum_comp σ (fun j => kc o.rbf o.p (sqd x (o.points j)) * (o.points j k - x k) * w j)

/-! ### Units -/

theorem sqd_smul (a : ℝ) (x y : Fin N → ℝ) : sqd (fun k => a * x k) (fun k => a * y k) = a ^ 2 * sqd x y := by
  unfold sqd
  rw [Finset.mul_sum]
  exact Finset.sum_congr rfl fun k _ => by ring

/-- The factor of the kernel when lengths are scaled. -/
noncomputable def kfac (k : Kind) (a : ℝ) : ℝ := match k with | .gauss => 1 | .multi => a | .invMulti => 1 / a

theorem kv_scale (k : Kind) {a p s : ℝ} (ha : 0 < a) (hp : p ≠ 0) : kv k (a * p) (a ^ 2 * s) = kfac k a * kv k p s := by
  have e : √(a ^ 2 * s + (a * p) ^ 2) = a * √(s + p ^ 2) := by
    rw [show a ^ 2 * s + (a * p) ^ 2 = a ^ 2 * (s + p ^ 2) by ring, Real.sqrt_mul (by positivity), Real.sqrt_sq ha.le]
  cases k
  · simp only [kv, kfac, one_mul]
    congr 1
    field_simp
  · simp only [kv, kfac, e]
  · simp only [kv, kfac, e]
    rw [one_div_mul_one_div]

theorem kc_scale (k : Kind) {a p s : ℝ} (ha : 0 < a) (hp : p ≠ 0) :
    kc k (a * p) (a ^ 2 * s) = kfac k a / a ^ 2 * kc k p s := by
  cases k
  · simp only [kc, kv_scale .gauss ha hp, kfac]
    field_simp
  · simp only [kc, kv_scale .multi ha hp, kfac]
    field_simp
  · simp only [kc, kv_scale .invMulti ha hp, kfac]
    field_simp

/-- **C159** (units). Points and `p` in another unit of length: the same values, and gradients in the inverse unit; the
default `p='mean'` is scaled along. With a regularisation `r > 0` this holds for the Gaussian (the other kernels have
the unit of a length, or its inverse, and `r` should be scaled too). -/
theorem C159_units (hs : Spec.IsSolver solve) (hl : Spec.IsLstsq lstsq) (h : o.WellPosed) (a : ℝ) (ha : 0 < a)
    (hr : o.rbf = .gauss ∨ o.r = none ∨ o.r = some 0) :
    let o' : Obj M N := ⟨fun i k => a * o.points i k, o.values, o.rbf, o.r, a * o.p⟩
    meanDist o'.points = a * meanDist o.points ∧
    ∀ x, o'.value solve lstsq (fun k => a * x k) = o.value solve lstsq x ∧
      o'.slope solve lstsq (fun k => a * x k) = (o.slope solve lstsq x).map (fun g k => g k / a) := by
  intro o'
  refine ⟨?_, ?_⟩
  · unfold meanDist
    have : ∀ i j, √(sqd (o'.points i) (o'.points j)) = a * √(sqd (o.points i) (o.points j)) := by
      intro i j
      rw [show sqd (o'.points i) (o'.points j) = a ^ 2 * sqd (o.points i) (o.points j) from sqd_smul a _ _,
        Real.sqrt_mul (by positivity), Real.sqrt_sq ha.le]
    simp only [this, ← Finset.mul_sum]
    rw [mul_div_assoc]
  have hp' : o'.p ≠ 0 := mul_ne_zero ha.ne' h.1
  have h' : o'.WellPosed := ⟨hp', h.2.imp (fun b => ⟨b.1, fun i j e => b.2 (by
    funext k
    have : a * o.points i k = a * o.points j k := congrFun e k
    exact mul_left_cancel₀ ha.ne' this)⟩) id⟩
  obtain ⟨w, hw, e⟩ := o.fit_sol hs hl h
  obtain ⟨w', hw', e'⟩ := o'.fit_sol hs hl h'
  set f := kfac o.rbf a with hf
  have hf0 : f ≠ 0 := by rw [hf]; cases o.rbf <;> simp [kfac, ha.ne']
  have hsys : ∀ i j, o'.sys i j = f * o.sys i j := by
    intro i j
    have hg : o'.gram i j = f * o.gram i j := by
      rw [gram_kv o' hp', gram_kv o h.1]
      rw [show sqd (o'.points i) (o'.points j) = a ^ 2 * sqd (o.points i) (o.points j) from sqd_smul a _ _]
      exact kv_scale _ ha h.1
    simp only [sys, Matrix.add_apply, Matrix.smul_apply, hg, smul_eq_mul, mul_add]
    congr 1
    rcases hr with hr | hr | hr
    · have : f = 1 := by rw [hf, hr]; rfl
      rw [this, one_mul]
    · have : o'.r = none := hr
      rw [this]; simp
    · have : o'.r = some 0 := hr
      rw [this]; simp
  have hww : w' = fun i => w i / f := by
    apply o'.sys_inj h'
    rw [e']
    funext i
    simp only [Matrix.mulVec, dotProduct, hsys]
    have := (congrFun e i).symm
    simp only [Matrix.mulVec, dotProduct] at this
    rw [show o'.values i = o.values i from rfl, this]
    exact Finset.sum_congr rfl fun j _ => by field_simp
  have h0 : w' = 0 ↔ w = 0 := by
    rw [hww]
    constructor
    · intro h; funext i; have := congrFun h i; simpa [hf0] using this
    · rintro rfl; funext i; simp
  intro x
  have hx : ∀ j, sqd (fun k => a * x k) (o'.points j) = a ^ 2 * sqd x (o.points j) := fun j => sqd_smul a _ _
  unfold value slope
  rw [hw, hw']
  simp only [Option.bind_some]
  rw [o.predict_ite h.1, o'.predict_ite hp', o.deriv_ite h.1, o'.deriv_ite hp']
  simp only [h0, hx]
  constructor
  · split
    · rfl
    · rw [hww]
      congr 1
      refine Finset.sum_congr rfl fun j _ => ?_
      rw [show kv o'.rbf o'.p (a ^ 2 * sqd x (o.points j)) = f * kv o.rbf o.p (sqd x (o.points j)) from kv_scale _ ha h.1]
      field_simp
  · split
    · rfl
    · rw [hww]
      simp only [Option.map_some, Option.some.injEq]
      funext k
      rw [Finset.sum_div]
      refine Finset.sum_congr rfl fun j _ => ?_
      rw [show kc o'.rbf o'.p (a ^ 2 * sqd x (o.points j)) = f / a ^ 2 * kc o.rbf o.p (sqd x (o.points j)) from kc_scale _ ha h.1,
        show o'.points j k = a * o.points j k from rfl]
      field_simp

/-! ### Linearity -/

/-- **C159** (linear). The model is linear in the values: the model of `α u + β v` is `α` times the model of `u` plus `β`
times the model of `v`, and so is its gradient, unless all values are zero (then the code gives `nan`, see C71). -/
theorem C159_linear (hs : Spec.IsSolver solve) (hl : Spec.IsLstsq lstsq) (h : o.WellPosed) (u v : Fin M → ℝ) (α β : ℝ)
    (hu : u ≠ 0) (hv : v ≠ 0) (huv : (fun i => α * u i + β * v i) ≠ 0) (x : Fin N → ℝ) :
    ∃ fu fv gu gv,
      ({o with values := u} : Obj M N).value solve lstsq x = some fu ∧
      ({o with values := v} : Obj M N).value solve lstsq x = some fv ∧
      ({o with values := fun i => α * u i + β * v i} : Obj M N).value solve lstsq x = some (α * fu + β * fv) ∧
      ({o with values := u} : Obj M N).slope solve lstsq x = some gu ∧
      ({o with values := v} : Obj M N).slope solve lstsq x = some gv ∧
      ({o with values := fun i => α * u i + β * v i} : Obj M N).slope solve lstsq x = some (fun k => α * gu k + β * gv k) := by
  have hW : ∀ y, ({o with values := y} : Obj M N).WellPosed := fun y => h
  have hsys : ∀ y, ({o with values := y} : Obj M N).sys = o.sys := fun y => rfl
  obtain ⟨wu, fu, eu⟩ := ({o with values := u} : Obj M N).fit_sol hs hl (hW _)
  obtain ⟨wv, fv, ev⟩ := ({o with values := v} : Obj M N).fit_sol hs hl (hW _)
  obtain ⟨w, f, e⟩ := ({o with values := fun i => α * u i + β * v i} : Obj M N).fit_sol hs hl (hW _)
  rw [hsys] at eu ev e
  have hne : ∀ {w b : Fin M → ℝ}, o.sys.mulVec w = b → b ≠ 0 → w ≠ 0 := by
    rintro w b e hb rfl
    exact hb (by rw [← e, Matrix.mulVec_zero])
  have hw : w = fun i => α * wu i + β * wv i := by
    apply o.sys_inj h
    have : (fun i => α * wu i + β * wv i) = α • wu + β • wv := rfl
    rw [this, Matrix.mulVec_add, Matrix.mulVec_smul, Matrix.mulVec_smul, eu, ev, e]
    rfl
  have hval : ∀ y w, ({o with values := y} : Obj M N).fit solve lstsq = some w → w ≠ 0 →
      ({o with values := y} : Obj M N).value solve lstsq x = some (∑ j, kv o.rbf o.p (sqd x (o.points j)) * w j) ∧
      ({o with values := y} : Obj M N).slope solve lstsq x =
        some (fun k => ∑ j, kc o.rbf o.p (sqd x (o.points j)) * (o.points j k - x k) * w j) := by
    intro y w hf h0
    unfold value slope
    rw [hf]
    simp only [Option.bind_some]
    rw [predict_ite ({o with values := y} : Obj M N) h.1, deriv_ite ({o with values := y} : Obj M N) h.1]
    simp [h0]
  obtain ⟨a1, b1⟩ := hval u wu fu (hne eu hu)
  obtain ⟨a2, b2⟩ := hval v wv fv (hne ev hv)
  obtain ⟨a3, b3⟩ := hval _ w f (hne e huv)
  refine ⟨_, _, _, _, a1, a2, ?_, b1, b2, ?_⟩
  · rw [a3, hw]
    congr 1
    rw [Finset.mul_sum, Finset.mul_sum, ← Finset.sum_add_distrib]
    exact Finset.sum_congr rfl fun j _ => by ring
  · rw [b3, hw]
    congr 1
    funext k
    rw [Finset.mul_sum, Finset.mul_sum, ← Finset.sum_add_distrib]
    exact Finset.sum_congr rfl fun j _ => by ring

end Obj

/-- Non-vacuity: two different points on the line, Gaussian, `r=0`. -/
example : (⟨![![0], ![1]], ![1, 2], .gauss, some 0, 1⟩ : Obj 2 1).WellPosed := by
  refine ⟨one_ne_zero, Or.inl ⟨Or.inr rfl, ?_⟩⟩
  intro i j e
  have := congrFun e 0
  fin_cases i <;> fin_cases j <;> simp_all

/-- Non-vacuity: three points, two of them equal, inverse multiquadric with `r=1/10`. -/
example : (⟨![![0, 1], ![1, 0], ![1, 0]], ![1, 2, 3], .invMulti, some (1 / 10), 2⟩ : Obj 3 2).WellPosed :=
  ⟨two_ne_zero, Or.inr ⟨1 / 10, by norm_num, rfl, by simp⟩⟩

end Pwtools.Rbf
