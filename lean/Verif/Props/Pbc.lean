import Verif.Model.Pbc
import Verif.Props.Cell2
import Verif.Props.NdArray
import Verif.Props.Num2
import Mathlib.Algebra.Order.Floor.Ring
import Mathlib.Tactic.Module
/-!
# C34–C37, C46, C55: supercells, periodic boundary conditions
-/
namespace Pwtools.Cry
open Real Spec

/-! ### C36 -/

theorem While.det {σ : Type} {cond : σ → Prop} {body : σ → σ} {s t u : σ}
    (h1 : While cond body s t) (h2 : While cond body s u) : t = u := by
  induction h1 with
  | stop hn =>
    cases h2 with
    | stop _ => rfl
    | step hc _ => exact absurd hc hn
  | step hc _ ih =>
    cases h2 with
    | stop hn => exact absurd hc hn
    | step _ h => exact ih h

theorem While.not_cond {σ : Type} {cond : σ → Prop} {body : σ → σ} {s t : σ} (h : While cond body s t) : ¬ cond t := by
  induction h with
  | stop hn => exact hn
  | step _ _ ih => exact ih

/-- A `while` loop keeps an invariant. -/
theorem While.inv {σ : Type} {cond : σ → Prop} {body : σ → σ} (I : σ → Prop) (hI : ∀ s, cond s → I s → I (body s))
    {s t : σ} (h : While cond body s t) (hs : I s) : I t := by
  induction h with
  | stop _ => exact hs
  | step hc _ ih => exact ih (hI _ hc hs)

/-- A `while` loop with a decreasing measure ends. -/
theorem While.total {σ : Type} {cond : σ → Prop} {body : σ → σ} (I : Nat → σ → Prop)
    (h0 : ∀ s, I 0 s → ¬ cond s) (hI : ∀ n s, cond s → I (n + 1) s → I n (body s)) (n : Nat) (s : σ) (hs : I n s) :
    ∃ t, While cond body s t := by
  induction n generalizing s with
  | zero => exact ⟨s, .stop (h0 s hs)⟩
  | succ n ih =>
    by_cases hc : cond s
    · obtain ⟨t, ht⟩ := ih (body s) (hI n s hc hs)
      exact ⟨t, .step hc ht⟩
    · exact ⟨s, .stop hc⟩

/-- The representative of `x` modulo 1 in `[-1/2, 1/2)`. -/
theorem rep_unique (x y : ℝ) (hx : -(1 / 2) ≤ x ∧ x < 1 / 2) (hy : -(1 / 2) ≤ y ∧ y < 1 / 2) (n : Int) (h : x - y = n) :
    x = y := by
  have h1 : (-1 : ℝ) < n := by linarith [hx.1, hy.2]
  have h2 : (n : ℝ) < 1 := by linarith [hx.2, hy.1]
  have h3 : -1 < n := by exact_mod_cast h1
  have h4 : n < 1 := by exact_mod_cast h2
  have : n = 0 := by omega
  rw [this, Int.cast_zero] at h
  linarith

/-- **C36** (numpy version). For every finite array the two loops end, with exactly one result; every
entry of the result lies in `[-1/2, 1/2)` and differs from the old one by an integer. -/
theorem C36_min_image {ι : Type} [Finite ι] (s : ι → ℝ) :
    ∃ u, MinImage s u ∧ (∀ u', MinImage s u' → u' = u) ∧
      ∀ i, (-(1 / 2) ≤ u i ∧ u i < 1 / 2) ∧ ∃ n : Int, u i = s i + n := by
  classical
  obtain ⟨_⟩ := nonempty_fintype ι
  -- an upper bound for the entries
  have hb : ∃ N : Nat, ∀ i, s i < 1 / 2 + N := by
    obtain ⟨N, hN⟩ := exists_nat_gt (∑ i, |s i|)
    refine ⟨N, fun i => ?_⟩
    have h1 : |s i| ≤ ∑ i, |s i| := Finset.single_le_sum (fun j _ => abs_nonneg (s j)) (Finset.mem_univ i)
    have := le_abs_self (s i)
    linarith
  obtain ⟨N, hN⟩ := hb
  obtain ⟨t, ht⟩ := While.total (cond := fun s : ι → ℝ => ∃ i, s i ≥ 1 / 2)
    (body := fun s i => if s i ≥ 1 / 2 then s i - 1 else s i) (fun n s => ∀ i, s i < 1 / 2 + n)
    (by rintro s h ⟨i, hi⟩; have := h i; simp at this; linarith)
    (by
      intro n s _ h i
      have := h i
      push_cast at this
      have hn : (0:ℝ) ≤ n := Nat.cast_nonneg n
      simp only
      split <;> linarith) N s hN
  have ht1 := While.not_cond ht
  have ht2 : ∀ i, (∃ n : Int, t i = s i + n) := While.inv (fun t : ι → ℝ => ∀ i, ∃ n : Int, t i = s i + n)
    (by
      intro t _ h i
      obtain ⟨n, hn⟩ := h i
      split
      · exact ⟨n - 1, by push_cast; linarith⟩
      · exact ⟨n, hn⟩) ht (fun i => ⟨0, by simp⟩)
  have hb2 : ∃ N : Nat, ∀ i, -(1 / 2) - (N : ℝ) ≤ t i := by
    obtain ⟨N, hN⟩ := exists_nat_gt (∑ i, |t i|)
    refine ⟨N, fun i => ?_⟩
    have h1 : |t i| ≤ ∑ i, |t i| := Finset.single_le_sum (fun j _ => abs_nonneg (t j)) (Finset.mem_univ i)
    have := neg_abs_le (t i)
    linarith
  obtain ⟨M, hM⟩ := hb2
  obtain ⟨u, hu⟩ := While.total (cond := fun s : ι → ℝ => ∃ i, s i < -(1 / 2))
    (body := fun s i => if s i < -(1 / 2) then s i + 1 else s i) (fun n s => ∀ i, -(1 / 2) - (n : ℝ) ≤ s i)
    (by rintro s h ⟨i, hi⟩; have := h i; simp at this; linarith)
    (by
      intro n s _ h i
      have := h i
      push_cast at this
      have hn : (0:ℝ) ≤ n := Nat.cast_nonneg n
      simp only
      split <;> linarith) M t hM
  have hu1 := While.not_cond hu
  have hu2 : ∀ i, u i < 1 / 2 := While.inv (fun t : ι → ℝ => ∀ i, t i < 1 / 2)
    (by
      intro t _ h i
      have := h i
      split <;> linarith) hu (fun i => by
        by_contra hc; exact ht1 ⟨i, not_lt.1 hc⟩)
  have hu3 : ∀ i, (∃ n : Int, u i = s i + n) := While.inv (fun t : ι → ℝ => ∀ i, ∃ n : Int, t i = s i + n)
    (by
      intro t _ h i
      obtain ⟨n, hn⟩ := h i
      split
      · exact ⟨n + 1, by push_cast; linarith⟩
      · exact ⟨n, hn⟩) hu ht2
  refine ⟨u, ⟨t, ht, hu⟩, ?_, ?_⟩
  · rintro u' ⟨t', ht', hu'⟩
    rw [While.det ht' ht] at hu'
    exact While.det hu' hu
  · intro i
    refine ⟨⟨?_, hu2 i⟩, hu3 i⟩
    by_contra hc
    exact hu1 ⟨i, not_le.1 hc⟩

theorem minImageF_iff (s u : ℝ) : MinImageF s u ↔ MinImage (fun _ : Unit => s) (fun _ => u) := by
  have lift : ∀ (c : ℝ → Prop) [DecidablePred c] (f : ℝ → ℝ) (a b : ℝ),
      While c f a b ↔ While (fun s : Unit → ℝ => ∃ i, c (s i)) (fun s i => if c (s i) then f (s i) else s i)
        (fun _ => a) (fun _ => b) := by
    intro c _ f a b
    constructor
    · intro h
      induction h with
      | stop hn => exact .stop (by rintro ⟨_, h⟩; exact hn h)
      | step hc _ ih =>
        refine .step ⟨(), hc⟩ ?_
        simp only [hc, if_true]
        exact ih
    · intro h
      generalize hx : (fun _ : Unit => a) = x at h
      generalize hy : (fun _ : Unit => b) = y at h
      induction h generalizing a b with
      | stop hn =>
        have : a = b := by have := congrFun (hx.trans hy.symm) (); exact this
        subst this
        exact .stop (fun hc => hn (by subst hx; exact ⟨(), hc⟩))
      | step hc _ ih =>
        subst hx
        obtain ⟨_, hc⟩ := hc
        refine .step hc (ih (f a) b ?_ hy)
        funext i; simp [hc]
  classical
  constructor
  · rintro ⟨t, h1, h2⟩
    refine ⟨fun _ => t, ?_, ?_⟩
    · have := (lift (fun x => x ≥ 1 / 2) (fun x => x - 1) s t).1 h1
      convert this
    · have := (lift (fun x => x < -(1 / 2)) (fun x => x + 1) t u).1 h2
      convert this
  · rintro ⟨t, h1, h2⟩
    have et : t = fun _ => t () := by funext i; rfl
    rw [et] at h1 h2
    refine ⟨t (), ?_, ?_⟩
    · refine (lift (fun x => x ≥ 1 / 2) (fun x => x - 1) s (t ())).2 ?_
      convert h1
    · refine (lift (fun x => x < -(1 / 2)) (fun x => x + 1) (t ()) u).2 ?_
      convert h2

/-- **C36** (Fortran version). The loops in `distsq_frac` end with the same value. -/
theorem C36_fortran (s : ℝ) :
    ∃ u, MinImageF s u ∧ (∀ u', MinImageF s u' → u' = u) ∧ (-(1 / 2) ≤ u ∧ u < 1 / 2) ∧ ∃ n : Int, u = s + n := by
  obtain ⟨u, h1, h2, h3⟩ := C36_min_image (fun _ : Unit => s)
  refine ⟨u (), ?_, ?_, (h3 ()).1, (h3 ()).2⟩
  · rw [minImageF_iff]; exact h1
  · intro u' hu'
    rw [minImageF_iff] at hu'
    exact congrFun (h2 _ hu') ()

/-- Full characterisation: the result is the only number in `[-1/2,1/2)` that differs by an integer. -/
theorem minImageF_char (s u : ℝ) : MinImageF s u ↔ (-(1 / 2) ≤ u ∧ u < 1 / 2) ∧ ∃ n : Int, u = s + n := by
  obtain ⟨v, h1, h2, h3, n, h4⟩ := C36_fortran s
  constructor
  · intro h; rw [h2 u h]; exact ⟨h3, n, h4⟩
  · rintro ⟨hu, m, hm⟩
    have : u = v := rep_unique u v hu h3 (m - n) (by push_cast; linarith)
    rw [this]; exact h1

/-- **C36** (numpy and Fortran agree). -/
theorem C36_agree {ι : Type} [Finite ι] (s u : ι → ℝ) : MinImage s u ↔ ∀ i, MinImageF (s i) (u i) := by
  obtain ⟨v, h1, h2, h3⟩ := C36_min_image s
  constructor
  · intro h i
    rw [minImageF_char, h2 u h]
    exact h3 i
  · intro h
    have : u = v := by
      funext i
      obtain ⟨hu, m, hm⟩ := (minImageF_char _ _).1 (h i)
      obtain ⟨hv, n, hn⟩ := h3 i
      exact rep_unique _ _ hu hv (m - n) (by push_cast; linarith)
    rw [this]; exact h1

/-- **C36** (idempotent). -/
theorem C36_idempotent {ι : Type} [Finite ι] (s u : ι → ℝ) (h : MinImage s u) : MinImage u u := by
  rw [C36_agree] at h ⊢
  intro i
  rw [minImageF_char]
  exact ⟨((minImageF_char _ _).1 (h i)).1, 0, by simp⟩

/-- Non-vacuity: 3.7 ↦ -0.3, and 0.5 ↦ -0.5. -/
example : MinImageF 3.7 (-0.3) ∧ MinImageF 0.5 (-0.5) := by
  constructor <;> rw [minImageF_char]
  · exact ⟨by norm_num, -4, by norm_num⟩
  · exact ⟨by norm_num, -1, by norm_num⟩

/-! ### C37 -/

/-- Width of the cell bounds the fractional coordinates. -/
theorem width_bound (cell : Cell) (t : V3) :
    |t 0| * |dot (cell 0) (cross (cell 1) (cell 2))| ≤ norm (frac2cart cell t) * norm (cross (cell 1) (cell 2)) ∧
    |t 1| * |dot (cell 1) (cross (cell 2) (cell 0))| ≤ norm (frac2cart cell t) * norm (cross (cell 2) (cell 0)) ∧
    |t 2| * |dot (cell 2) (cross (cell 0) (cell 1))| ≤ norm (frac2cart cell t) * norm (cross (cell 0) (cell 1)) := by
  have e : ∀ k, frac2cart cell t k = t 0 * cell 0 k + t 1 * cell 1 k + t 2 * cell 2 k := by
    intro k; simp [frac2cart, Matrix.vecMul, dotProduct, Fin.sum_univ_three]
  refine ⟨?_, ?_, ?_⟩
  · rw [← abs_mul]
    have : t 0 * dot (cell 0) (cross (cell 1) (cell 2)) = dot (frac2cart cell t) (cross (cell 1) (cell 2)) := by
      simp only [dot3, e, cross, Matrix.cons_val_zero, Matrix.cons_val_one, Matrix.cons_val]; ring
    rw [this]; exact abs_dot_le _ _
  · rw [← abs_mul]
    have : t 1 * dot (cell 1) (cross (cell 2) (cell 0)) = dot (frac2cart cell t) (cross (cell 2) (cell 0)) := by
      simp only [dot3, e, cross, Matrix.cons_val_zero, Matrix.cons_val_one, Matrix.cons_val]; ring
    rw [this]; exact abs_dot_le _ _
  · rw [← abs_mul]
    have : t 2 * dot (cell 2) (cross (cell 0) (cell 1)) = dot (frac2cart cell t) (cross (cell 0) (cell 1)) := by
      simp only [dot3, e, cross, Matrix.cons_val_zero, Matrix.cons_val_one, Matrix.cons_val]; ring
    rw [this]; exact abs_dot_le _ _

theorem norm_pos_of {x : V3} (h : dot x x ≠ 0) : 0 < norm x := by
  unfold norm; exact Real.sqrt_pos.2 (lt_of_le_of_ne (dot_self_nonneg x) (Ne.symm h))

/-- Below `rmax_smith` all fractional components are smaller than one half. -/
theorem small_frac (cell : Cell) (h : cell.det ≠ 0) (t : V3) (ht : norm (frac2cart cell t) < rmaxSmith cell) :
    ∀ k, |t k| < 1 / 2 := by
  obtain ⟨w0, w1, w2⟩ := width_bound cell t
  obtain ⟨c12, c02, c01⟩ := cross_ne cell h
  have c20 : dot (cross (cell 2) (cell 0)) (cross (cell 2) (cell 0)) ≠ 0 := by
    have : dot (cross (cell 2) (cell 0)) (cross (cell 2) (cell 0)) = dot (cross (cell 0) (cell 2)) (cross (cell 0) (cell 2)) := by
      simp only [dot3, cross, Matrix.cons_val_zero, Matrix.cons_val_one, Matrix.cons_val]; ring
    rw [this]; exact c02
  have n0 := norm_pos_of c12
  have n1 := norm_pos_of c20
  have n2 := norm_pos_of c01
  have hd : 0 < |cell.det| := abs_pos.2 h
  rw [← det3] at w0
  rw [← det3'] at w1
  rw [← det3''] at w2
  unfold rmaxSmith at ht
  simp only [← det3, ← det3', ← det3''] at ht
  have gen : ∀ (x nn V d : ℝ), 0 < nn → 0 < d → x * d ≤ V * nn → V < 1 / 2 * (d / nn) → x < 1 / 2 := by
    intro x nn V d hn hd h1 h2
    have h3 : V * nn < 1 / 2 * d := by
      have := mul_lt_mul_of_pos_right h2 hn
      have e : 1 / 2 * (d / nn) * nn = 1 / 2 * d := by field_simp
      rwa [e] at this
    by_contra hc
    have : 1 / 2 * d ≤ x * d := mul_le_mul_of_nonneg_right (not_lt.1 hc) hd.le
    linarith
  have m0 : min (min (|cell.det| / norm (cross (cell 1) (cell 2))) (|cell.det| / norm (cross (cell 2) (cell 0))))
      (|cell.det| / norm (cross (cell 0) (cell 1))) ≤ |cell.det| / norm (cross (cell 1) (cell 2)) :=
    le_trans (min_le_left _ _) (min_le_left _ _)
  have m1 : min (min (|cell.det| / norm (cross (cell 1) (cell 2))) (|cell.det| / norm (cross (cell 2) (cell 0))))
      (|cell.det| / norm (cross (cell 0) (cell 1))) ≤ |cell.det| / norm (cross (cell 2) (cell 0)) :=
    le_trans (min_le_left _ _) (min_le_right _ _)
  have m2 : min (min (|cell.det| / norm (cross (cell 1) (cell 2))) (|cell.det| / norm (cross (cell 2) (cell 0))))
      (|cell.det| / norm (cross (cell 0) (cell 1))) ≤ |cell.det| / norm (cross (cell 0) (cell 1)) := min_le_right _ _
  have k0 := gen _ _ _ _ n0 hd w0 (by linarith)
  have k1 := gen _ _ _ _ n1 hd w1 (by linarith)
  have k2 := gen _ _ _ _ n2 hd w2 (by linarith)
  intro k
  fin_cases k
  · exact k0
  · exact k1
  · exact k2

/-- Difference of two atoms, second atom moved by the lattice vector `n`. -/
noncomputable def image (x y : V3) (n : Fin 3 → Int) : V3 := fun k => x k - y k + (n k : ℝ)

/-- **C37**. If some periodic image of the pair has a distance below `rmax_smith(cell)`, then the
distance computed with the minimum image convention is the distance of that image, and every other
image has a distance of at least `rmax_smith(cell)`. -/
theorem C37_exact (cell : Cell) (h : cell.det ≠ 0) (x y : V3) (n : Fin 3 → Int)
    (hn : norm (frac2cart cell (image x y n)) < rmaxSmith cell) :
    (∀ r, IsDist cell true x y r → r = norm (frac2cart cell (image x y n))) ∧
    ∀ m, m ≠ n → rmaxSmith cell ≤ norm (frac2cart cell (image x y m)) := by
  have hs := small_frac cell h _ hn
  constructor
  · rintro r ⟨d, hd, rfl⟩
    simp only [DistVecFrac, if_true] at hd
    have : d = image x y n := by
      funext k
      obtain ⟨h1, m, h2⟩ := (minImageF_char _ _).1 (hd k)
      have h3 := abs_lt.1 (hs k)
      have e : d k - image x y n k = ((m - n k : Int) : ℝ) := by
        rw [h2]; simp only [image]; push_cast; ring
      exact rep_unique _ _ h1 ⟨h3.1.le, h3.2⟩ _ e
    rw [this]
    unfold distOf norm dot
    congr 1
    apply Finset.sum_congr rfl
    intro k _; ring
  · intro m hm
    by_contra hc
    have hs2 := small_frac cell h _ (not_le.1 hc)
    apply hm
    funext k
    have h1 := abs_lt.1 (hs k)
    have h2 := abs_lt.1 (hs2 k)
    have e : image x y m k - image x y n k = ((m k - n k : Int) : ℝ) := by simp only [image]; push_cast; ring
    have := rep_unique _ _ ⟨h2.1.le, h2.2⟩ ⟨h1.1.le, h1.2⟩ _ e
    rw [this, sub_self] at e
    have e2 : (m k - n k : Int) = 0 := by exact_mod_cast e.symm
    omega

/-- **C37** (a distance is always computed). -/
theorem C37_dist_exists (cell : Cell) (pbc : Bool) (x y : V3) : ∃! r, IsDist cell pbc x y r := by
  cases pbc
  · refine ⟨_, ⟨_, rfl, rfl⟩, ?_⟩
    rintro r ⟨d, hd, rfl⟩
    simp only [DistVecFrac, Bool.false_eq_true, if_false] at hd
    rw [hd]
  · have : ∀ k, ∃ u, MinImageF (x k - y k) u ∧ ∀ u', MinImageF (x k - y k) u' → u' = u := by
      intro k
      obtain ⟨u, h1, h2, _⟩ := C36_fortran (x k - y k)
      exact ⟨u, h1, h2⟩
    choose u h1 h2 using this
    refine ⟨distOf cell u, ⟨u, by simpa [DistVecFrac] using h1, rfl⟩, ?_⟩
    rintro r ⟨d, hd, rfl⟩
    simp only [DistVecFrac, if_true] at hd
    have : d = u := by funext k; exact h2 k _ (hd k)
    rw [this]

/-- Non-vacuity: two atoms at the opposite ends of a unit cube, closest image at distance 0.2. -/
example : norm (frac2cart (1 : Cell) (image ![0.9, 0, 0] ![0.1, 0, 0] ![-1, 0, 0])) < rmaxSmith (1 : Cell) := by
  have e1 : norm (frac2cart (1 : Cell) (image ![0.9, 0, 0] ![0.1, 0, 0] ![-1, 0, 0])) = 0.2 := by
    unfold norm
    rw [show dot (frac2cart (1 : Cell) (image ![0.9, 0, 0] ![0.1, 0, 0] ![-1, 0, 0]))
      (frac2cart (1 : Cell) (image ![0.9, 0, 0] ![0.1, 0, 0] ![-1, 0, 0])) = 0.2 ^ 2 by
        simp [dot3, frac2cart, image, Matrix.vecMul_one]; norm_num]
    exact Real.sqrt_sq (by norm_num)
  have e2 : rmaxSmith (1 : Cell) = 1 / 2 := by
    simp [rmaxSmith, norm, dot3, cross, Matrix.one_apply]
  rw [e1, e2]; norm_num

/-! ### C82: the distance matrix -/

theorem dist_neg (cell : Cell) (d : V3) : distOf cell (fun k => - d k) = distOf cell d := by
  unfold distOf
  congr 1
  apply Finset.sum_congr rfl
  intro k _
  have : frac2cart cell (fun k => - d k) k = - frac2cart cell d k := by
    simp only [frac2cart, Matrix.vecMul, dotProduct, Fin.sum_univ_three]; ring
  rw [this]; ring

/-- **C82** (where it holds). Distances are symmetric without periodic boundary conditions, and with
them if no fractional difference is half a cell vector (modulo the lattice). -/
theorem C82_symmetric_partial (cell : Cell) (pbc : Bool) (x y : V3) (r : ℝ)
    (h : pbc = true → ∀ k, ∀ n : Int, x k - y k ≠ 1 / 2 + n) (hr : IsDist cell pbc x y r) : IsDist cell pbc y x r := by
  obtain ⟨d, hd, rfl⟩ := hr
  refine ⟨fun k => - d k, ?_, (dist_neg cell d).symm⟩
  cases pbc
  · simp only [DistVecFrac, Bool.false_eq_true, if_false] at hd ⊢
    rw [hd]; funext k; ring
  · simp only [DistVecFrac, if_true] at hd ⊢
    intro k
    obtain ⟨h1, n, h2⟩ := (minImageF_char _ _).1 (hd k)
    rw [minImageF_char]
    refine ⟨⟨by linarith [h1.2], ?_⟩, -n, by push_cast; linarith⟩
    rcases h1.1.lt_or_eq with h3 | h3
    · linarith
    · exfalso
      apply h rfl k (-n - 1)
      push_cast
      linarith

/-- **C82** is false in general: with minimum images, `dists[i,j] ≠ dists[j,i]` for this skew cell and
two atoms half a cell vector apart (√(1/8) against √(5/8)). -/
theorem C82_not_symmetric :
    IsDist (!![1, 0, 0; 1, 1, 0; 0, 0, 1] : Cell) true ![1 / 2, 1 / 4, 0] ![0, 0, 0] (Real.sqrt (1 / 8)) ∧
    IsDist (!![1, 0, 0; 1, 1, 0; 0, 0, 1] : Cell) true ![0, 0, 0] ![1 / 2, 1 / 4, 0] (Real.sqrt (5 / 8)) := by
  constructor
  · refine ⟨![-(1 / 2), 1 / 4, 0], ?_, ?_⟩
    · simp only [DistVecFrac, if_true]
      intro k
      rw [minImageF_char]
      fin_cases k
      · exact ⟨by norm_num, -1, by norm_num⟩
      · exact ⟨by norm_num, 0, by norm_num⟩
      · exact ⟨by norm_num, 0, by norm_num⟩
    · unfold distOf
      congr 1
      simp [frac2cart, Fin.sum_univ_three, Matrix.vecMul, dotProduct]
      norm_num
  · refine ⟨![-(1 / 2), -(1 / 4), 0], ?_, ?_⟩
    · simp only [DistVecFrac, if_true]
      intro k
      rw [minImageF_char]
      fin_cases k
      · exact ⟨by norm_num, 0, by norm_num⟩
      · exact ⟨by norm_num, 0, by norm_num⟩
      · exact ⟨by norm_num, 0, by norm_num⟩
    · unfold distOf
      congr 1
      simp [frac2cart, Fin.sum_univ_three, Matrix.vecMul, dotProduct]
      norm_num

/-- **C82** (diagonal, sign). Distances are not negative, and the distance of an atom to itself is 0. -/
theorem C82_diagonal (cell : Cell) (pbc : Bool) (x y : V3) (r : ℝ) (hr : IsDist cell pbc x y r) :
    0 ≤ r ∧ IsDist cell pbc x x 0 := by
  obtain ⟨d, _, rfl⟩ := hr
  refine ⟨Real.sqrt_nonneg _, fun _ => 0, ?_, ?_⟩
  · cases pbc
    · simp [DistVecFrac]
    · simp only [DistVecFrac, if_true, sub_self]
      intro k
      rw [minImageF_char]
      exact ⟨by norm_num, 0, by norm_num⟩
  · unfold distOf
    have : (0:ℝ) = Real.sqrt 0 := by simp
    rw [this]
    congr 1
    simp [frac2cart, Matrix.vecMul, dotProduct]

end Pwtools.Cry
