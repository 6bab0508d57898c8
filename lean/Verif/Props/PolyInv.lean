import Verif.Props.Poly
import Verif.Spec.PolyInv
import Mathlib.Combinatorics.Nullstellensatz
import Mathlib.Tactic.LinearCombination
import Mathlib.Analysis.InnerProductSpace.Projection.Minimal
import Mathlib.Analysis.InnerProductSpace.PiL2
/-!
# C160: the fitted polynomial does not depend on scaling, order and units, and is linear in the values
-/
namespace Pwtools.Poly
open Spec
variable {d : Nat}

/-- `polyfit` returns `fit` and no internal scale is zero (otherwise the program divides by zero). -/
def FitReturns (points : List (Fin d → ℝ)) (values : List ℝ) (deg : Nat) (scale scaleVand : Bool) (fit : Fit d) : Prop :=
  PolyfitReturns points values deg scale scaleVand fit ∧ (∀ j, fit.pscale j ≠ 0) ∧ fit.vscale ≠ 0 ∧
  (scaleVand = true → ∀ s ∈ colNorms (polyPowers d deg).length
    (points.map (fun x => vanderRow (fun j => (x j - fit.pmin j) / fit.pscale j) deg)), s ≠ 0)

/-- Scalar product of the residuals of `f` and the values of `q`. -/
noncomputable def resid (f q : (Fin d → ℝ) → ℝ) (D : List ((Fin d → ℝ) × ℝ)) : ℝ :=
  (D.map (fun p => (f p.1 - p.2) * q p.1)).sum

theorem sumSq_zip (g : (Fin d → ℝ) → ℝ) (points : List (Fin d → ℝ)) (values : List ℝ) :
    sumSq g points values = ((points.zip values).map (fun p => (g p.1 - p.2) ^ 2)).sum := by
  unfold sumSq
  rw [← List.map_uncurry_zip_eq_zipWith]
  rfl

theorem sq_expand (f q : (Fin d → ℝ) → ℝ) (t : ℝ) (D : List ((Fin d → ℝ) × ℝ)) :
    (D.map (fun p => (f p.1 + q p.1 * t - p.2) ^ 2)).sum =
      (D.map (fun p => (f p.1 - p.2) ^ 2)).sum + 2 * t * resid f q D + t ^ 2 * (D.map (fun p => q p.1 ^ 2)).sum := by
  unfold resid
  induction D with
  | nil => simp
  | cons p D ih => simp only [List.map_cons, List.sum_cons, ih]; ring

/-- The residuals of a best polynomial are orthogonal to all polynomials. -/
theorem orth (points : List (Fin d → ℝ)) (values : List ℝ) (deg : Nat) (scale scaleVand : Bool) (fit : Fit d)
    (h : FitReturns points values deg scale scaleVand fit) :
    IsPoly deg (polyval fit) ∧ ∀ q, IsPoly deg q → resid (polyval fit) q (points.zip values) = 0 := by
  obtain ⟨h1, h2⟩ := C28_fit_optimal points values deg scale scaleVand fit h.1 h.2.1 h.2.2.1 h.2.2.2
  refine ⟨h1, fun q hq => ?_⟩
  have key : ∀ t : ℝ, 0 ≤ 2 * t * resid (polyval fit) q (points.zip values) +
      t ^ 2 * ((points.zip values).map (fun p => q p.1 ^ 2)).sum := by
    intro t
    have := h2 (fun x => polyval fit x + q x * t) (isPoly_add deg _ _ h1 (isPoly_mul deg q hq t))
    rw [sumSq_zip, sumSq_zip, sq_expand] at this
    linarith
  set A := resid (polyval fit) q (points.zip values)
  set B := ((points.zip values).map (fun p => q p.1 ^ 2)).sum
  have hB : 0 ≤ B := List.sum_nonneg (by simp only [List.mem_map]; rintro _ ⟨p, -, rfl⟩; positivity)
  have hk := key (-A / (B + 1))
  have : 2 * (-A / (B + 1)) * A + (-A / (B + 1)) ^ 2 * B = -(A ^ 2 * (B + 2)) / (B + 1) ^ 2 := by
    field_simp; ring
  rw [this, div_nonneg_iff] at hk
  rcases hk with ⟨hk, -⟩ | ⟨-, hk⟩
  · have h3 : 0 ≤ A ^ 2 := sq_nonneg A
    have : A ^ 2 = 0 := by nlinarith
    exact pow_eq_zero_iff (two_ne_zero) |>.1 this
  · exact absurd hk (not_le.2 (by positivity))

/-- Orthogonality determines the polynomial. -/
theorem orth_unique (deg : Nat) (points : List (Fin d → ℝ)) (values : List ℝ) (hl : points.length = values.length)
    (hd : Determines deg points) (f g : (Fin d → ℝ) → ℝ) (hf : IsPoly deg f) (hg : IsPoly deg g)
    (of : ∀ q, IsPoly deg q → resid f q (points.zip values) = 0) (og : ∀ q, IsPoly deg q → resid g q (points.zip values) = 0) :
    f = g := by
  have hq : IsPoly deg (fun x => f x + g x * (-1)) := isPoly_add deg _ _ hf (isPoly_mul deg _ hg _)
  have h1 := of _ hq
  have h2 := og _ hq
  have hs : ∀ D : List ((Fin d → ℝ) × ℝ), (D.map (fun p => (f p.1 - g p.1) ^ 2)).sum =
      resid f (fun x => f x + g x * (-1)) D - resid g (fun x => f x + g x * (-1)) D := by
    intro D
    unfold resid
    induction D with
    | nil => simp
    | cons p D ih => simp only [List.map_cons, List.sum_cons, ih]; ring
  have h3 := hs (points.zip values)
  rw [h1, h2, sub_zero] at h3
  have h4 : ∀ p ∈ points.zip values, (f p.1 - g p.1) ^ 2 = 0 := by
    intro p hp
    exact List.all_zero_of_le_zero_le_of_sum_eq_zero (by simp only [List.mem_map]; rintro _ ⟨p, -, rfl⟩; positivity) h3
      (List.mem_map.2 ⟨p, hp, rfl⟩)
  have h5 := hd _ hq (fun x hx => by
    obtain ⟨i, hi, rfl⟩ := List.getElem_of_mem hx
    have hm : (points[i], values[i]'(by omega)) ∈ points.zip values := by
      rw [List.mem_iff_getElem]
      exact ⟨i, by simp; omega, by simp⟩
    have := pow_eq_zero_iff (two_ne_zero) |>.1 (h4 _ hm)
    simp only at this
    linarith)
  funext x
  have := h5 x
  linarith

/-- **C160** (scaling and order). Two fits to the same data, in any order and with any internal scaling, give the same
function, if the points determine a polynomial. -/
theorem C160_unique (points points' : List (Fin d → ℝ)) (values values' : List ℝ) (deg : Nat) (s sv s' sv' : Bool) (fit fit' : Fit d)
    (h : FitReturns points values deg s sv fit) (h' : FitReturns points' values' deg s' sv' fit')
    (hp : (points'.zip values').Perm (points.zip values)) (hd : Determines deg points) :
    polyval fit' = polyval fit := by
  obtain ⟨a, b⟩ := orth _ _ _ _ _ _ h
  obtain ⟨a', b'⟩ := orth _ _ _ _ _ _ h'
  refine orth_unique deg points values h.1.1 hd _ _ a' a (fun q hq => ?_) b
  rw [← b' q hq]
  exact (hp.symm.map _).sum_eq

/-- **C160** (exact data). Values of a polynomial give back this polynomial, everywhere. -/
theorem C160_exact (points : List (Fin d → ℝ)) (deg : Nat) (s sv : Bool) (fit : Fit d) (g : (Fin d → ℝ) → ℝ)
    (h : FitReturns points (points.map g) deg s sv fit) (hg : IsPoly deg g) (hd : Determines deg points) :
    polyval fit = g := by
  obtain ⟨a, b⟩ := orth _ _ _ _ _ _ h
  refine orth_unique deg points _ h.1.1 hd _ _ a hg b (fun q _ => ?_)
  unfold resid
  have : ∀ l : List (Fin d → ℝ), ((l.zip (l.map g)).map (fun p => (g p.1 - p.2) * q p.1)).sum = 0 := by
    intro l
    induction l with
    | nil => simp
    | cons x l ih => simp [ih]
  exact this points

/-- **C160** (linear). The fit is linear in the values. -/
theorem C160_linear (points : List (Fin d → ℝ)) (u v : List ℝ) (deg : Nat) (α β : ℝ) (s sv s1 sv1 s2 sv2 : Bool) (fit fu fv : Fit d)
    (hu : FitReturns points u deg s1 sv1 fu) (hv : FitReturns points v deg s2 sv2 fv)
    (h : FitReturns points (List.zipWith (fun a b => α * a + β * b) u v) deg s sv fit) (hd : Determines deg points) (x : Fin d → ℝ) :
    polyval fit x = α * polyval fu x + β * polyval fv x := by
  obtain ⟨a, b⟩ := orth _ _ _ _ _ _ h
  obtain ⟨a1, b1⟩ := orth _ _ _ _ _ _ hu
  obtain ⟨a2, b2⟩ := orth _ _ _ _ _ _ hv
  have hp : IsPoly deg (fun x => polyval fu x * α + polyval fv x * β) :=
    isPoly_add deg _ _ (isPoly_mul deg _ a1 α) (isPoly_mul deg _ a2 β)
  have key : ∀ (q : (Fin d → ℝ) → ℝ) (l : List (Fin d → ℝ)) (u v : List ℝ), l.length = u.length → l.length = v.length →
      resid (fun x => polyval fu x * α + polyval fv x * β) q (l.zip (List.zipWith (fun a b => α * a + β * b) u v)) =
        α * resid (polyval fu) q (l.zip u) + β * resid (polyval fv) q (l.zip v) := by
    intro q l
    unfold resid
    induction l with
    | nil => simp
    | cons x l ih =>
      intro u v e1 e2
      cases u with
      | nil => simp at e1
      | cons a u =>
        cases v with
        | nil => simp at e2
        | cons b v =>
          simp only [List.zipWith_cons_cons, List.zip_cons_cons, List.map_cons, List.sum_cons]
          rw [ih u v (by simpa using e1) (by simpa using e2)]
          ring
  have := orth_unique deg points _ h.1.1 hd _ _ a hp b (fun q hq => by
    rw [key q points u v hu.1.1 hv.1.1, b1 q hq, b2 q hq]; ring)
  rw [this]
  ring

/-- **C160** (units). Other units and origins of the coordinates and of the values: the same function in these units. -/
theorem C160_units (points : List (Fin d → ℝ)) (values : List ℝ) (deg : Nat) (s sv s' sv' : Bool) (fit fit' : Fit d)
    (a b : Fin d → ℝ) (ha : ∀ j, a j ≠ 0) (c e : ℝ)
    (h : FitReturns points values deg s sv fit)
    (h' : FitReturns (points.map (fun x j => a j * x j + b j)) (values.map (fun v => c * v + e)) deg s' sv' fit')
    (hd : Determines deg points) (x : Fin d → ℝ) :
    polyval fit' (fun j => a j * x j + b j) = c * polyval fit x + e := by
  obtain ⟨p1, o1⟩ := orth _ _ _ _ _ _ h
  obtain ⟨p2, o2⟩ := orth _ _ _ _ _ _ h'
  have e1 : (fun x : Fin d → ℝ => polyval fit' (fun j => a j * x j + b j)) = fun x => polyval fit x * c + e := by
    refine orth_unique deg points (values.map (fun v => c * v + e)) (by simpa using h.1.1) hd _ _
      (isPoly_affine deg _ p2 a b) (isPoly_add deg _ _ (isPoly_mul deg _ p1 c) (isPoly_const deg e)) (fun q hq => ?_) (fun q hq => ?_)
    · have hq' := isPoly_affine deg q hq (fun j => 1 / a j) (fun j => -b j / a j)
      have := o2 _ hq'
      rw [List.zip_map_left] at this
      unfold resid at this ⊢
      rw [List.map_map] at this
      rw [← this]
      congr 1
      apply List.map_congr_left
      intro p _
      simp only [Function.comp, Prod.map]
      congr 2
      funext j
      have := ha j
      field_simp
      ring
    · have := o1 q hq
      rw [List.zip_map_right]
      unfold resid at this ⊢
      rw [List.map_map]
      have e2 : ((fun p : (Fin d → ℝ) × ℝ => (polyval fit p.1 * c + e - p.2) * q p.1) ∘ Prod.map id (fun v => c * v + e)) =
          fun p => (polyval fit p.1 - p.2) * q p.1 * c := by
        funext p
        simp only [Function.comp, Prod.map, id]
        ring
      rw [e2, List.sum_map_mul_right, this, zero_mul]
  rw [show polyval fit' (fun j => a j * x j + b j) = polyval fit x * c + e from congrFun e1 x]
  ring

/-- **C160** (grids). Points which contain a grid with more than `deg` values on each axis determine a polynomial. In one
dimension: `deg + 1` different points. -/
theorem C160_grid (deg : Nat) (points : List (Fin d → ℝ)) (S : Fin d → Finset ℝ) (hS : ∀ j, deg < (S j).card)
    (hg : ∀ x : Fin d → ℝ, (∀ j, x j ∈ S j) → x ∈ points) : Determines deg points := by
  rintro g ⟨c, hc⟩ h0 x
  set P : MvPolynomial (Fin d) ℝ := ∑ p, MvPolynomial.monomial (Finsupp.equivFunOnFinite.symm (fun j => (p j : Nat))) (c p) with hP
  have hev : ∀ y, MvPolynomial.eval y P = g y := by
    intro y
    rw [hP, map_sum, hc]
    refine Finset.sum_congr rfl fun p _ => ?_
    rw [MvPolynomial.eval_monomial, Finsupp.prod_fintype _ _ (fun i => pow_zero _)]
    rfl
  have hdeg : ∀ j, P.degreeOf j < (S j).card := by
    intro j
    refine lt_of_le_of_lt ?_ (hS j)
    rw [hP]
    refine (MvPolynomial.degreeOf_sum_le j _ _).trans (Finset.sup_le fun p _ => ?_)
    refine (MvPolynomial.degreeOf_le_iff).2 ?_
    intro m hm
    have := MvPolynomial.support_monomial_subset hm
    rw [Finset.mem_singleton] at this
    subst this
    have := (p j).isLt
    simp only [Finsupp.coe_equivFunOnFinite_symm]
    omega
  have := MvPolynomial.eq_zero_of_eval_zero_at_prod_finset P S hdeg (fun y hy => by rw [hev]; exact h0 y (hg y hy))
  rw [← hev x, this, map_zero]

/-- Non-vacuity: three points on a line determine a parabola. -/
example : Determines 2 [![(0 : ℝ)], ![1], ![2]] := by
  refine C160_grid 2 _ (fun _ => {0, 1, 2}) (fun _ => ?_) (fun x hx => ?_)
  · rw [Finset.card_eq_three.2 ⟨0, 1, 2, by norm_num, by norm_num, by norm_num, rfl⟩]; norm_num
  · have h := hx 0
    have e : x = ![x 0] := by funext j; fin_cases j; rfl
    rw [e]
    simp only [Finset.mem_insert, Finset.mem_singleton] at h
    rcases h with h | h | h <;> rw [h] <;> simp

/-- Non-vacuity: the four corners of a square determine a polynomial of degree one in each variable. -/
example : Determines 1 [![(0 : ℝ), 0], ![0, 1], ![1, 0], ![1, 1]] := by
  refine C160_grid 1 _ (fun _ => {0, 1}) (fun _ => ?_) (fun x hx => ?_)
  · rw [Finset.card_pair (by norm_num)]; norm_num
  · have h0 := hx 0
    have h1 := hx 1
    have e : x = ![x 0, x 1] := by funext j; fin_cases j <;> rfl
    rw [e]
    simp only [Finset.mem_insert, Finset.mem_singleton] at h0 h1
    rcases h0 with h | h <;> rcases h1 with h' | h' <;> rw [h, h'] <;> simp

theorem dot_linear (row : List ℝ) (n : Nat) : ∃ L : (Fin n → ℝ) →ₗ[ℝ] ℝ, ∀ w, L w = dot row (List.ofFn w) := by
  induction row generalizing n with
  | nil => exact ⟨0, fun w => by simp [dot]⟩
  | cons a row ih =>
    cases n with
    | zero => exact ⟨0, fun w => by simp [dot]⟩
    | succ n =>
      obtain ⟨L, hL⟩ := ih n
      refine ⟨a • LinearMap.proj 0 + L ∘ₗ LinearMap.funLeft ℝ ℝ Fin.succ, fun w => ?_⟩
      have := hL (fun i => w i.succ)
      unfold dot at this ⊢
      rw [List.ofFn_succ, List.zipWith_cons_cons, List.sum_cons, ← this]
      rfl

/-- A least squares solution always exists. -/
theorem lstsq_exists (ncol : Nat) (A : List (List ℝ)) (b : List ℝ) : ∃ c, IsLstsq ncol A b c := by
  have hz : ∀ c : List ℝ, (List.zipWith (fun row v => (dot row c - v) ^ 2) A b).sum =
      ∑ i : Fin (A.zip b).length, (dot (A.zip b)[i].1 c - (A.zip b)[i].2) ^ 2 := by
    intro c
    rw [← List.map_uncurry_zip_eq_zipWith, ← List.sum_ofFn]
    congr 1
    apply List.ext_getElem
    · simp
    · intro i h1 h2
      simp
  choose L hL using fun i : Fin (A.zip b).length => dot_linear (A.zip b)[i].1 ncol
  let T : (Fin ncol → ℝ) →ₗ[ℝ] EuclideanSpace ℝ (Fin (A.zip b).length) :=
    (WithLp.linearEquiv 2 ℝ (Fin (A.zip b).length → ℝ)).symm.toLinearMap ∘ₗ LinearMap.pi L
  let u : EuclideanSpace ℝ (Fin (A.zip b).length) := WithLp.toLp 2 (fun i => (A.zip b)[i].2)
  have hn : ∀ w, ‖u - T w‖ ^ 2 = (List.zipWith (fun row v => (dot row (List.ofFn w) - v) ^ 2) A b).sum := by
    intro w
    rw [hz, EuclideanSpace.norm_sq_eq]
    refine Finset.sum_congr rfl fun i _ => ?_
    have : (u - T w) i = (A.zip b)[i].2 - dot (A.zip b)[i].1 (List.ofFn w) := by
      rw [← hL]
      rfl
    rw [this, Real.norm_eq_abs, sq_abs]
    ring
  obtain ⟨v, ⟨w, rfl⟩, hv⟩ := (LinearMap.range T).exists_norm_eq_iInf_of_complete_subspace
    (Submodule.complete_of_finiteDimensional _) u
  refine ⟨List.ofFn w, by simp, fun c' hc' => ?_⟩
  have e : c' = List.ofFn (fun i : Fin ncol => c'[i]'(by rw [hc']; exact i.2)) := by
    apply List.ext_getElem
    · simp [hc']
    · intro i h1 h2; simp
  rw [e, ← hn, ← hn]
  have : ‖u - T w‖ ≤ ‖u - T (fun i : Fin ncol => c'[i]'(by rw [hc']; exact i.2))‖ := by
    rw [hv]
    exact ciInf_le ⟨0, by rintro _ ⟨z, rfl⟩; exact norm_nonneg _⟩ (⟨_, LinearMap.mem_range_self T _⟩ : LinearMap.range T)
  gcongr

/-- **C160** (existence). For any data with as many values as points there is a fit: `polyfit` returns for all degrees and scalings. -/
theorem C160_exists (points : List (Fin d → ℝ)) (values : List ℝ) (deg : Nat) (s sv : Bool) (hl : points.length = values.length) :
    ∃ fit, PolyfitReturns points values deg s sv fit := by
  let vand := points.map (fun x => vanderRow (fun j => (x j - (pointScale points s).1 j) / (pointScale points s).2 j) deg)
  let b := values.map (fun v => (v - (valueScale values s).1) / (valueScale values s).2)
  cases sv with
  | false =>
    obtain ⟨c, hc⟩ := lstsq_exists (polyPowers d deg).length vand b
    exact ⟨⟨c, deg, (pointScale points s).2, (valueScale values s).2, (pointScale points s).1, (valueScale values s).1⟩,
      hl, rfl, rfl, rfl, rfl, rfl, hc⟩
  | true =>
    obtain ⟨c, hc⟩ := lstsq_exists (polyPowers d deg).length
      (vand.map (fun row => List.zipWith (· / ·) row (colNorms (polyPowers d deg).length vand))) b
    exact ⟨⟨List.zipWith (· / ·) c (colNorms (polyPowers d deg).length vand), deg, (pointScale points s).2, (valueScale values s).2,
      (pointScale points s).1, (valueScale values s).1⟩, hl, rfl, rfl, rfl, rfl, rfl, c, hc, rfl⟩

end Pwtools.Poly
