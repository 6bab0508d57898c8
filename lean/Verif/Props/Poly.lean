import Verif.Model.Poly
import Verif.Spec.Poly
import Verif.Props.Num2
import Mathlib.Algebra.Polynomial.Eval.Degree
import Mathlib.Algebra.Polynomial.Degree.Lemmas
import Mathlib.Analysis.Calculus.Deriv.Mul
import Mathlib.Analysis.Calculus.Deriv.Add
import Mathlib.Analysis.Calculus.Deriv.Pow
import Mathlib.Analysis.Calculus.Deriv.Comp
import Mathlib.Tactic.Ring
import Mathlib.Tactic.FieldSimp
import Mathlib.Tactic.Linarith
/-!
# C28: polynomial fits
-/
namespace Pwtools.Poly
open Spec Num

/-! ### Exponents -/

theorem picks_replicate {α : Type} (n : Nat) (l : List α) (tup : List α) :
    (∃ idxs, Picks (List.replicate n l) idxs tup) ↔ tup.length = n ∧ ∀ a ∈ tup, a ∈ l := by
  induction n generalizing tup with
  | zero =>
    constructor
    · rintro ⟨idxs, h⟩; cases h; simp
    · rintro ⟨h, _⟩
      have : tup = [] := List.eq_nil_of_length_eq_zero h
      subst this; exact ⟨[], .nil⟩
  | succ n ih =>
    rw [List.replicate_succ]
    constructor
    · rintro ⟨idxs, h⟩
      cases h with
      | cons ha hr =>
        obtain ⟨h1, h2⟩ := (ih _).1 ⟨_, hr⟩
        refine ⟨by simp [h1], ?_⟩
        intro a hm
        rcases List.mem_cons.1 hm with rfl | hm
        · exact List.mem_of_getElem? ha
        · exact h2 a hm
    · rintro ⟨h1, h2⟩
      rcases tup with _ | ⟨a, tup⟩
      · simp at h1
      obtain ⟨idxs, h⟩ := (ih tup).2 ⟨by simpa using h1, fun b hb => h2 b (List.mem_cons_of_mem _ hb)⟩
      obtain ⟨i, hi, e⟩ := List.getElem_of_mem (h2 a (by simp))
      exact ⟨i :: idxs, .cons (by rw [List.getElem?_eq_getElem hi, e]) h⟩

/-- **C28** (exponents). `poly_powers(ndim, deg)` lists every vector of `ndim` exponents between 0 and
`deg`, each exactly once, `(deg+1)^ndim` in number. -/
theorem C28_poly_powers (ndim deg : Nat) :
    (∀ p, p ∈ polyPowers ndim deg ↔ p.length = ndim ∧ ∀ e ∈ p, e ≤ deg) ∧
    (polyPowers ndim deg).Nodup ∧ (polyPowers ndim deg).length = (deg + 1) ^ ndim := by
  refine ⟨?_, ?_, ?_⟩
  · intro p
    have h := picks_replicate ndim (List.range (deg + 1)) p
    simp only [List.mem_range, Nat.lt_succ_iff] at h
    rw [← h]
    constructor
    · exact fun hp => itProduct_mem hp
    · rintro ⟨idxs, hp⟩
      exact List.mem_of_getElem? (itProduct_get hp)
  · apply itProduct_nodup
    intro l hl
    rw [List.eq_of_mem_replicate hl]
    exact List.nodup_range
  · unfold polyPowers
    rw [itProduct_length, List.map_replicate, List.prod_replicate]
    simp

/-- Non-vacuity. -/
example : polyPowers 2 1 = [[0, 0], [0, 1], [1, 0], [1, 1]] := by decide

variable {d : Nat}

/-- **C28** (Vandermonde matrix). Column `k` is the monomial of the `k`-th exponent vector. -/
theorem C28_vander (x : Fin d → ℝ) (deg k : Nat) (p : List Nat) (h : (polyPowers d deg)[k]? = some p) :
    (vanderRow x deg)[k]? = some (∏ j : Fin d, x j ^ (p.getD j 0)) := by
  unfold vanderRow
  rw [List.getElem?_map, h]; rfl

/-! ### Coefficient lists and coefficient functions -/

/-- The exponent vector as a list. -/
def toList (deg : Nat) (p : Fin d → Fin (deg + 1)) : List Nat := List.ofFn (fun j => (p j : Nat))

theorem toList_getD (deg : Nat) (p : Fin d → Fin (deg + 1)) (j : Fin d) : (toList deg p).getD j 0 = p j := by
  unfold toList
  rw [List.getD_eq_getElem?_getD, List.getElem?_ofFn]
  simp

theorem toList_inj (deg : Nat) : Function.Injective (toList (d := d) deg) := by
  intro p q h
  funext j
  have := toList_getD deg p j
  rw [h, toList_getD] at this
  exact (Fin.ext this).symm

theorem powers_toFinset (deg : Nat) :
    (polyPowers d deg).toFinset = Finset.univ.image (toList (d := d) deg) := by
  ext p
  simp only [List.mem_toFinset, Finset.mem_image, Finset.mem_univ, true_and, (C28_poly_powers d deg).1]
  constructor
  · rintro ⟨h1, h2⟩
    refine ⟨fun j => ⟨p.getD j 0, ?_⟩, ?_⟩
    · have hj : (j : Nat) < p.length := by rw [h1]; exact j.2
      rw [List.getD_eq_getElem?_getD, List.getElem?_eq_getElem hj]
      have := h2 p[j] (List.getElem_mem hj)
      simp only [Option.getD_some]
      exact Nat.lt_succ_of_le this
    · unfold toList
      apply List.ext_getElem?
      intro i
      by_cases hi : i < d
      · rw [List.getElem?_ofFn, dif_pos hi, List.getElem?_eq_getElem (by omega)]
        simp [List.getD_eq_getElem?_getD, h1, hi]
      · rw [List.getElem?_eq_none (by simpa using hi), List.getElem?_eq_none (by omega)]
  · rintro ⟨q, rfl⟩
    refine ⟨by simp [toList], ?_⟩
    intro e he
    simp only [toList, List.mem_ofFn] at he
    obtain ⟨j, rfl⟩ := he
    have := (q j).2
    omega

theorem sum_powers (deg : Nat) (f : List Nat → ℝ) :
    ((polyPowers d deg).map f).sum = ∑ p : Fin d → Fin (deg + 1), f (toList deg p) := by
  rw [← List.sum_toFinset f (C28_poly_powers d deg).2.1, powers_toFinset, Finset.sum_image (fun a _ b _ h => toList_inj deg h)]

theorem dot_map (l : List (List Nat)) (f g : List Nat → ℝ) : dot (l.map f) (l.map g) = (l.map (fun p => f p * g p)).sum := by
  unfold dot
  rw [List.zipWith_map]
  congr 1
  induction l with
  | nil => rfl
  | cons a l ih => simp [ih]

theorem coeffs_fn (deg : Nat) (cs : List ℝ) (h : cs.length = (polyPowers d deg).length) :
    ∃ f : List Nat → ℝ, cs = (polyPowers d deg).map f := by
  refine ⟨fun p => cs.getD ((polyPowers d deg).idxOf p) 0, ?_⟩
  apply List.ext_getElem (by simp [h])
  intro i h1 h2
  simp only [List.getElem_map]
  rw [(C28_poly_powers d deg).2.1.idxOf_getElem, List.getD_eq_getElem?_getD, List.getElem?_eq_getElem h1]
  rfl

/-- Evaluation with a coefficient list is evaluation of the polynomial. -/
theorem dot_vander (deg : Nat) (f : List Nat → ℝ) (y : Fin d → ℝ) :
    dot (vanderRow y deg) ((polyPowers d deg).map f) =
      ∑ p : Fin d → Fin (deg + 1), f (toList deg p) * ∏ j, y j ^ (p j : Nat) := by
  unfold vanderRow
  rw [dot_map, sum_powers]
  apply Finset.sum_congr rfl
  intro p _
  simp only [toList_getD]
  ring

theorem isPoly_dot (deg : Nat) (cs : List ℝ) (h : cs.length = (polyPowers d deg).length) :
    IsPoly deg (fun y : Fin d → ℝ => dot (vanderRow y deg) cs) := by
  obtain ⟨f, rfl⟩ := coeffs_fn deg cs h
  exact ⟨fun p => f (toList deg p), fun x => dot_vander deg f x⟩

theorem isPoly_coeffs (deg : Nat) (g : (Fin d → ℝ) → ℝ) (h : IsPoly deg g) :
    ∃ cs : List ℝ, cs.length = (polyPowers d deg).length ∧ ∀ y, g y = dot (vanderRow y deg) cs := by
  obtain ⟨c, hc⟩ := h
  refine ⟨(polyPowers d deg).map (fun l => c (fun j => ⟨min (l.getD j 0) deg, by omega⟩)), by simp, ?_⟩
  intro y
  rw [hc, dot_vander]
  apply Finset.sum_congr rfl
  intro p _
  congr 2
  funext j
  apply Fin.ext
  simp only [toList_getD]
  have := (p j).2
  omega

/-! ### Closure properties -/

theorem isPoly_const (deg : Nat) (a : ℝ) : IsPoly deg (fun _ : Fin d → ℝ => a) := by
  refine ⟨fun p => if p = 0 then a else 0, fun x => ?_⟩
  rw [Finset.sum_eq_single 0]
  · simp
  · intro p _ hp; simp [hp]
  · simp

theorem isPoly_add (deg : Nat) (f g : (Fin d → ℝ) → ℝ) (hf : IsPoly deg f) (hg : IsPoly deg g) :
    IsPoly deg (fun x => f x + g x) := by
  obtain ⟨a, ha⟩ := hf
  obtain ⟨b, hb⟩ := hg
  refine ⟨fun p => a p + b p, fun x => ?_⟩
  show f x + g x = _
  rw [ha, hb, ← Finset.sum_add_distrib]
  apply Finset.sum_congr rfl
  intro p _; ring

theorem isPoly_mul (deg : Nat) (f : (Fin d → ℝ) → ℝ) (hf : IsPoly deg f) (c : ℝ) :
    IsPoly deg (fun x => f x * c) := by
  obtain ⟨a, ha⟩ := hf
  refine ⟨fun p => a p * c, fun x => ?_⟩
  show f x * c = _
  rw [ha, Finset.sum_mul]
  apply Finset.sum_congr rfl
  intro p _; ring

theorem isPoly_sum {β : Type} [Fintype β] (deg : Nat) (f : β → (Fin d → ℝ) → ℝ) (hf : ∀ b, IsPoly deg (f b)) :
    IsPoly deg (fun x => ∑ b, f b x) := by
  choose a ha using hf
  refine ⟨fun p => ∑ b, a b p, fun x => ?_⟩
  simp only [ha]
  rw [Finset.sum_comm]
  apply Finset.sum_congr rfl
  intro p _
  rw [Finset.sum_mul]

theorem affine_pow (deg k : Nat) (hk : k ≤ deg) (α β : ℝ) :
    ∃ a : Fin (deg + 1) → ℝ, ∀ t : ℝ, (α * t + β) ^ k = ∑ i, a i * t ^ (i : Nat) := by
  let P : Polynomial ℝ := (Polynomial.C α * Polynomial.X + Polynomial.C β) ^ k
  refine ⟨fun i => P.coeff i, fun t => ?_⟩
  have hdeg : P.natDegree < deg + 1 := by
    have h1 : P.natDegree ≤ k * 1 := by
      refine le_trans Polynomial.natDegree_pow_le ?_
      exact Nat.mul_le_mul_left _ (Polynomial.natDegree_linear_le)
    omega
  have := Polynomial.eval_eq_sum_range' hdeg t
  rw [Finset.sum_range] at this
  rw [← this]
  simp [P]

/-- Affine substitution in every variable keeps the degree. -/
theorem isPoly_affine (deg : Nat) (g : (Fin d → ℝ) → ℝ) (hg : IsPoly deg g) (α β : Fin d → ℝ) :
    IsPoly deg (fun x => g (fun j => α j * x j + β j)) := by
  obtain ⟨c, hc⟩ := hg
  simp only [hc]
  apply isPoly_sum
  intro p
  have h : IsPoly deg (fun x : Fin d → ℝ => ∏ j, (α j * x j + β j) ^ (p j : Nat)) := by
    have := fun j => affine_pow deg (p j) (by have := (p j).2; omega) (α j) (β j)
    choose a ha using this
    refine ⟨fun q => ∏ j, a j (q j), fun x => ?_⟩
    simp only [ha]
    rw [Finset.prod_univ_sum]
    simp only [Fintype.piFinset_univ]
    apply Finset.sum_congr rfl
    intro q _
    rw [Finset.prod_mul_distrib]
  have := isPoly_mul deg _ h (c p)
  simpa [mul_comm] using this

/-! ### Fits -/

theorem zipWith_sum_congr {β γ : Type} (f g : β → γ → ℝ) (l : List β) (m : List γ) (h : ∀ b c, f b c = g b c) :
    (List.zipWith f l m).sum = (List.zipWith g l m).sum := by
  congr 1
  have : f = g := by funext b c; exact h b c
  rw [this]

theorem zipWith_sum_mul {β γ : Type} (f : β → γ → ℝ) (k : ℝ) (l : List β) (m : List γ) :
    (List.zipWith (fun b c => f b c * k) l m).sum = (List.zipWith f l m).sum * k := by
  induction l generalizing m with
  | nil => simp
  | cons b l ih =>
    cases m with
    | nil => simp
    | cons c m => simp only [List.zipWith_cons_cons, List.sum_cons, ih]; ring

theorem dot_div (row c sv : List ℝ) (hl : sv.length = row.length) (h : ∀ s ∈ sv, s ≠ 0) :
    dot (List.zipWith (· / ·) row sv) c = dot row (List.zipWith (· / ·) c sv) := by
  unfold dot
  induction row generalizing c sv with
  | nil => simp
  | cons r row ih =>
    rcases sv with _ | ⟨s, sv⟩
    · simp at hl
    rcases c with _ | ⟨c0, c⟩
    · simp
    simp only [List.zipWith_cons_cons, List.sum_cons]
    rw [ih c sv (by simpa using hl) (fun s hs => h s (List.mem_cons_of_mem _ hs))]
    have := h s (by simp)
    field_simp

theorem vanderRow_length (x : Fin d → ℝ) (deg : Nat) : (vanderRow x deg).length = (polyPowers d deg).length := by
  simp [vanderRow]

/-- The fit minimises over coefficient lists, with and without `scale_vand`. -/
theorem fit_min (points : List (Fin d → ℝ)) (values : List ℝ) (deg : Nat) (scale scaleVand : Bool) (fit : Fit d)
    (h : PolyfitReturns points values deg scale scaleVand fit)
    (hsv : scaleVand = true → ∀ s ∈ colNorms (polyPowers d deg).length
      (points.map (fun x => vanderRow (fun j => (x j - fit.pmin j) / fit.pscale j) deg)), s ≠ 0) :
    fit.coeffs.length = (polyPowers d deg).length ∧
    ∀ c' : List ℝ, c'.length = (polyPowers d deg).length →
      (List.zipWith (fun x v => (dot (vanderRow (fun j => (x j - fit.pmin j) / fit.pscale j) deg) fit.coeffs
          - (v - fit.vmin) / fit.vscale) ^ 2) points values).sum ≤
      (List.zipWith (fun x v => (dot (vanderRow (fun j => (x j - fit.pmin j) / fit.pscale j) deg) c'
          - (v - fit.vmin) / fit.vscale) ^ 2) points values).sum := by
  obtain ⟨_, _, _, _, _, _, h⟩ := h
  cases scaleVand
  · simp only [Bool.false_eq_true, if_false] at h
    obtain ⟨h1, h2⟩ := h
    refine ⟨h1, fun c' hc' => ?_⟩
    have := h2 c' hc'
    simpa [List.zipWith_map] using this
  · simp only [if_true] at h
    obtain ⟨c, ⟨h1, h2⟩, h3⟩ := h
    have hsv := hsv rfl
    set sv := colNorms (polyPowers d deg).length
      (points.map (fun x => vanderRow (fun j => (x j - fit.pmin j) / fit.pscale j) deg)) with hsvdef
    have hsl : sv.length = (polyPowers d deg).length := by simp [hsvdef, colNorms]
    refine ⟨by rw [h3]; simp [h1, hsl], fun c' hc' => ?_⟩
    have h4 := h2 (List.zipWith (· * ·) c' sv) (by simp [hc', hsl])
    simp only [List.map_map, List.zipWith_map, Function.comp_def] at h4
    have e1 : ∀ x : Fin d → ℝ, dot (List.zipWith (· / ·) (vanderRow (fun j => (x j - fit.pmin j) / fit.pscale j) deg) sv) c =
        dot (vanderRow (fun j => (x j - fit.pmin j) / fit.pscale j) deg) fit.coeffs := by
      intro x
      rw [dot_div _ _ _ (by rw [hsl, vanderRow_length]) hsv, h3]
    have e0 : List.zipWith (· / ·) (List.zipWith (· * ·) c' sv) sv = c' := by
      apply List.ext_getElem (by simp [hc', hsl])
      intro i i1 i2
      simp only [List.getElem_zipWith]
      have := hsv (sv[i]'(by rw [hsl, ← hc']; exact i2)) (List.getElem_mem _)
      field_simp
    have e2 : ∀ x : Fin d → ℝ, dot (List.zipWith (· / ·) (vanderRow (fun j => (x j - fit.pmin j) / fit.pscale j) deg) sv)
        (List.zipWith (· * ·) c' sv) =
        dot (vanderRow (fun j => (x j - fit.pmin j) / fit.pscale j) deg) c' := by
      intro x
      rw [dot_div _ _ _ (by rw [hsl, vanderRow_length]) hsv, e0]
    simp only [e1, e2] at h4
    exact h4

/-- **C28** (fits). Whatever the internal scaling (`scale`, `scale_vand`; scales not zero), the
function evaluated by `polyval` is a polynomial of the requested degree, and no polynomial of that
degree has a smaller sum of squared residuals on the original data. In particular the sum of squares
does not depend on the scaling. -/
theorem C28_fit_optimal (points : List (Fin d → ℝ)) (values : List ℝ) (deg : Nat) (scale scaleVand : Bool) (fit : Fit d)
    (h : PolyfitReturns points values deg scale scaleVand fit)
    (hp : ∀ j, fit.pscale j ≠ 0) (hv : fit.vscale ≠ 0)
    (hsv : scaleVand = true → ∀ s ∈ colNorms (polyPowers d deg).length
      (points.map (fun x => vanderRow (fun j => (x j - fit.pmin j) / fit.pscale j) deg)), s ≠ 0) :
    IsPoly deg (polyval fit) ∧
    ∀ g, IsPoly deg g → sumSq (polyval fit) points values ≤ sumSq g points values := by
  obtain ⟨hlen, hmin⟩ := fit_min points values deg scale scaleVand fit h hsv
  have hdeg : fit.deg = deg := h.2.1
  constructor
  · unfold polyval
    rw [hdeg]
    apply isPoly_add _ _ _ _ (isPoly_const deg _)
    apply isPoly_mul
    have h1 := isPoly_affine deg _ (isPoly_dot deg fit.coeffs hlen) (fun j => 1 / fit.pscale j) (fun j => - fit.pmin j / fit.pscale j)
    have e : (fun x : Fin d → ℝ => dot (vanderRow (fun j => (x j - fit.pmin j) / fit.pscale j) deg) fit.coeffs) =
        (fun x => dot (vanderRow (fun j => 1 / fit.pscale j * x j + - fit.pmin j / fit.pscale j) deg) fit.coeffs) := by
      funext x
      congr 2
      funext j
      ring
    rw [e]; exact h1
  · intro g hg
    -- the scaled polynomial
    have h1 := isPoly_affine deg g hg fit.pscale fit.pmin
    have h2 := isPoly_mul deg _ (isPoly_add deg _ _ h1 (isPoly_const deg (- fit.vmin))) (1 / fit.vscale)
    obtain ⟨cs, hcs, hev⟩ := isPoly_coeffs deg _ h2
    have h3 := hmin cs hcs
    have e1 : sumSq (polyval fit) points values =
        (List.zipWith (fun x v => (dot (vanderRow (fun j => (x j - fit.pmin j) / fit.pscale j) deg) fit.coeffs
          - (v - fit.vmin) / fit.vscale) ^ 2) points values).sum * fit.vscale ^ 2 := by
      unfold sumSq
      rw [← zipWith_sum_mul]
      apply zipWith_sum_congr
      intro x v
      unfold polyval
      rw [hdeg]
      field_simp
      ring
    have e2 : sumSq g points values =
        (List.zipWith (fun x v => (dot (vanderRow (fun j => (x j - fit.pmin j) / fit.pscale j) deg) cs
          - (v - fit.vmin) / fit.vscale) ^ 2) points values).sum * fit.vscale ^ 2 := by
      unfold sumSq
      rw [← zipWith_sum_mul]
      apply zipWith_sum_congr
      intro x v
      rw [← hev]
      have : (fun j => fit.pscale j * ((x j - fit.pmin j) / fit.pscale j) + fit.pmin j) = x := by
        funext j
        have := hp j
        field_simp
        ring
      simp only [this]
      field_simp
      ring
    rw [e1, e2]
    exact mul_le_mul_of_nonneg_right h3 (sq_nonneg _)

theorem sumSq_nonneg (g : (Fin d → ℝ) → ℝ) (points : List (Fin d → ℝ)) (values : List ℝ) :
    0 ≤ sumSq g points values ∧
    (sumSq g points values = 0 → ∀ (i : Nat) x v, points[i]? = some x → values[i]? = some v → g x = v) := by
  unfold sumSq
  induction points generalizing values with
  | nil => simp
  | cons x points ih =>
    cases values with
    | nil => simp
    | cons v values =>
      obtain ⟨h1, h2⟩ := ih values
      simp only [List.zipWith_cons_cons, List.sum_cons]
      have h3 := sq_nonneg (g x - v)
      refine ⟨by linarith, ?_⟩
      intro h i y w hy hw
      cases i with
      | zero =>
        simp only [List.getElem?_cons_zero, Option.some.injEq] at hy hw
        subst hy; subst hw
        have : (g x - v) ^ 2 = 0 := by linarith
        exact sub_eq_zero.1 (by simpa using this)
      | succ i => exact h2 (by linarith) i y w (by simpa using hy) (by simpa using hw)

/-- **C28** (exact data). If the values come from a polynomial of the requested degree, the fit
returns them at the data points, for all scalings. -/
theorem C28_fit_exact (points : List (Fin d → ℝ)) (values : List ℝ) (deg : Nat) (scale scaleVand : Bool) (fit : Fit d)
    (h : PolyfitReturns points values deg scale scaleVand fit)
    (hp : ∀ j, fit.pscale j ≠ 0) (hv : fit.vscale ≠ 0)
    (hsv : scaleVand = true → ∀ s ∈ colNorms (polyPowers d deg).length
      (points.map (fun x => vanderRow (fun j => (x j - fit.pmin j) / fit.pscale j) deg)), s ≠ 0)
    (g : (Fin d → ℝ) → ℝ) (hg : IsPoly deg g) (hval : values = points.map g) :
    ∀ (i : Nat) x v, points[i]? = some x → values[i]? = some v → polyval fit x = v := by
  have h1 := (C28_fit_optimal points values deg scale scaleVand fit h hp hv hsv).2 g hg
  have h2 : sumSq g points values = 0 := by
    unfold sumSq
    rw [hval, List.zipWith_map_right]
    have : ∀ l : List (Fin d → ℝ), (List.zipWith (fun a b => (g a - g b) ^ 2) l l).sum = 0 := by
      intro l
      induction l with
      | nil => simp
      | cons a l ih => simp [ih]
    exact this points
  obtain ⟨h3, h4⟩ := sumSq_nonneg (polyval fit) points values
  exact h4 (by linarith)

theorem colNorms_zero (ncol : Nat) (A : List (List ℝ)) (s : ℝ) (hs : s ∈ colNorms ncol A) (row : List ℝ) (hr : row ∈ A)
    (h : ∀ k, k < ncol → row.getD k 0 ≠ 0) : 0 < s := by
  unfold colNorms at hs
  obtain ⟨k, hk, rfl⟩ := List.mem_map.1 hs
  apply Real.sqrt_pos.2
  have h1 : row.getD k 0 ^ 2 ∈ A.map (fun row => row.getD k 0 ^ 2) := List.mem_map.2 ⟨row, hr, rfl⟩
  have h2 := List.single_le_sum (l := A.map (fun row => row.getD k 0 ^ 2)) (by
    intro v hv
    obtain ⟨r, _, rfl⟩ := List.mem_map.1 hv
    positivity) _ h1
  have h3 : 0 < row.getD k 0 ^ 2 := by
    have := h k (List.mem_range.1 hk)
    positivity
  linarith

/-- **C28** (`scale_vand`). The scales of the columns are not zero if there is a data point all of whose (scaled) coordinates are
not zero, and they are the norms of the columns: each scaled column has the norm one. -/
theorem C28_scale_vand (points : List (Fin d → ℝ)) (deg : Nat) (pmin pscale : Fin d → ℝ)
    (h : ∃ x ∈ points, ∀ j, (x j - pmin j) / pscale j ≠ 0) :
    let vand := points.map (fun x => vanderRow (fun j => (x j - pmin j) / pscale j) deg)
    let sv := colNorms (polyPowers d deg).length vand
    (∀ s ∈ sv, 0 < s) ∧ ∀ k, k < (polyPowers d deg).length →
      ((vand.map (fun row => List.zipWith (· / ·) row sv)).map (fun row => row.getD k 0 ^ 2)).sum = 1 := by
  intro vand sv
  obtain ⟨x, hx, hj⟩ := h
  have hpos : ∀ s ∈ sv, 0 < s := by
    intro s hs
    refine colNorms_zero _ _ s hs (vanderRow (fun j => (x j - pmin j) / pscale j) deg) (List.mem_map.2 ⟨x, hx, rfl⟩) ?_
    intro k hk
    unfold vanderRow
    rw [List.getD_eq_getElem?_getD, List.getElem?_map, List.getElem?_eq_getElem hk]
    simp only [Option.map_some, Option.getD_some]
    exact Finset.prod_ne_zero_iff.2 (fun j _ => pow_ne_zero _ (hj j))
  refine ⟨hpos, fun k hk => ?_⟩
  have hsl : sv.length = (polyPowers d deg).length := by simp [sv, colNorms]
  have hk' : k < sv.length := by omega
  have hs0 := hpos sv[k] (List.getElem_mem hk')
  have e : (vand.map (fun row => List.zipWith (· / ·) row sv)).map (fun row => row.getD k 0 ^ 2) =
      (vand.map (fun row => row.getD k 0 ^ 2)).map (· / sv[k] ^ 2) := by
    simp only [vand, List.map_map]
    apply List.map_congr_left
    intro y _
    have hl : k < (vanderRow (fun j => (y j - pmin j) / pscale j) deg).length := by rw [vanderRow_length]; exact hk
    simp only [Function.comp, List.getD_eq_getElem?_getD, List.getElem?_zipWith, List.getElem?_eq_getElem hl,
      List.getElem?_eq_getElem hk', Option.getD_some, div_pow]
  rw [e]
  have e2 : ∀ l : List ℝ, (l.map (· / sv[k] ^ 2)).sum = l.sum / sv[k] ^ 2 := by
    intro l
    induction l with
    | nil => simp
    | cons a l ih => simp [ih, add_div]
  rw [e2]
  have e3 : sv[k] ^ 2 = (vand.map (fun row => row.getD k 0 ^ 2)).sum := by
    simp only [sv, colNorms, List.getElem_map, List.getElem_range]
    apply Real.sq_sqrt
    apply List.sum_nonneg
    intro v hv
    obtain ⟨r, _, rfl⟩ := List.mem_map.1 hv
    positivity
  rw [← e3]
  exact div_self (by positivity)

/-- Non-vacuity: two points, the second of which has no zero coordinate. -/
example : ∃ x ∈ [(fun _ => 0 : Fin 2 → ℝ), fun _ => 3], ∀ j : Fin 2, (x j - (fun _ => 0 : Fin 2 → ℝ) j) / (fun _ => 3 : Fin 2 → ℝ) j ≠ 0 :=
  ⟨fun _ => 3, by simp, fun _ => by norm_num⟩

theorem foldl_min_spec (l : List ℝ) (x : ℝ) : (∀ v ∈ x :: l, l.foldl min x ≤ v) ∧ l.foldl min x ∈ x :: l := by
  induction l generalizing x with
  | nil => simp
  | cons y l ih =>
    obtain ⟨h1, h2⟩ := ih (min x y)
    simp only [List.foldl_cons]
    have h0 := h1 (min x y) (by simp)
    refine ⟨fun v hv => ?_, ?_⟩
    · rcases List.mem_cons.1 hv with rfl | hv
      · exact le_trans h0 (min_le_left _ _)
      rcases List.mem_cons.1 hv with rfl | hv
      · exact le_trans h0 (min_le_right _ _)
      · exact h1 v (List.mem_cons_of_mem _ hv)
    · rcases List.mem_cons.1 h2 with h2 | h2
      · rw [h2]; rcases min_choice x y with h | h <;> simp [h]
      · exact List.mem_cons_of_mem _ (List.mem_cons_of_mem _ h2)

theorem foldl_max_spec (l : List ℝ) (x : ℝ) : (∀ v ∈ x :: l, v ≤ l.foldl max x) ∧ l.foldl max x ∈ x :: l := by
  induction l generalizing x with
  | nil => simp
  | cons y l ih =>
    obtain ⟨h1, h2⟩ := ih (max x y)
    simp only [List.foldl_cons]
    have h0 := h1 (max x y) (by simp)
    refine ⟨fun v hv => ?_, ?_⟩
    · rcases List.mem_cons.1 hv with rfl | hv
      · exact le_trans (le_max_left _ _) h0
      rcases List.mem_cons.1 hv with rfl | hv
      · exact le_trans (le_max_right _ _) h0
      · exact h1 v (List.mem_cons_of_mem _ hv)
    · rcases List.mem_cons.1 h2 with h2 | h2
      · rw [h2]; rcases max_choice x y with h | h <;> simp [h]
      · exact List.mem_cons_of_mem _ (List.mem_cons_of_mem _ h2)

theorem scale_spec (l : List ℝ) (hl : l ≠ []) :
    (∀ v ∈ l, 0 ≤ v - listMin l ∧ v - listMin l ≤ listMax (l.map (fun v => |v|)) - listMin l) ∧
    0 ≤ listMax (l.map (fun v => |v|)) - listMin l ∧
    (listMax (l.map (fun v => |v|)) - listMin l = 0 ↔ ∃ c, 0 ≤ c ∧ ∀ v ∈ l, v = c) := by
  rcases l with _ | ⟨x, l⟩
  · exact absurd rfl hl
  obtain ⟨m1, m2⟩ := foldl_min_spec l x
  obtain ⟨M1, M2⟩ := foldl_max_spec (l.map (fun v => |v|)) |x|
  have hM : ∀ v ∈ x :: l, |v| ≤ listMax ((x :: l).map (fun v => |v|)) := by
    intro v hv
    exact M1 _ (by simpa using List.mem_map_of_mem (f := fun v : ℝ => |v|) hv)
  have hmn : ∀ v ∈ x :: l, listMin (x :: l) ≤ v := m1
  have hb : ∀ v ∈ x :: l, 0 ≤ v - listMin (x :: l) ∧ v - listMin (x :: l) ≤ listMax ((x :: l).map (fun v => |v|)) - listMin (x :: l) :=
    fun v hv => ⟨by have := hmn v hv; linarith, by have := hM v hv; have := le_abs_self v; linarith⟩
  refine ⟨hb, ?_, ?_⟩
  · have := hb x (by simp); linarith
  · constructor
    · intro h0
      refine ⟨listMin (x :: l), ?_, fun v hv => ?_⟩
      · have := hM x (by simp); have := abs_nonneg x; linarith
      · have := hb v hv; linarith
    · rintro ⟨c, hc, h⟩
      have e1 : listMin (x :: l) = c := h _ m2
      have e2 : listMax ((x :: l).map (fun v => |v|)) = c := by
        have : listMax ((x :: l).map (fun v => |v|)) ∈ (x :: l).map (fun v => |v|) := M2
        obtain ⟨v, hv, e⟩ := List.mem_map.1 this
        rw [← e, h v hv, abs_of_nonneg hc]
      rw [e1, e2, sub_self]

/-- **C28** (scales). With `scale=True` scaled coordinates and values are between 0 and 1. A scale is never negative, and
it is zero exactly if all data in that dimension (all values) are equal and not negative; so in every other case
the hypotheses on scales of the theorems above hold. With `scale=False` nothing is scaled. -/
theorem C28_scales (points : List (Fin d → ℝ)) (values : List ℝ) (hp : points ≠ []) (hv : values ≠ []) :
    (∀ j, ∀ x ∈ points, (pointScale points true).2 j ≠ 0 →
      0 ≤ (x j - (pointScale points true).1 j) / (pointScale points true).2 j ∧
      (x j - (pointScale points true).1 j) / (pointScale points true).2 j ≤ 1) ∧
    (∀ j, 0 ≤ (pointScale points true).2 j ∧ ((pointScale points true).2 j = 0 ↔ ∃ c, 0 ≤ c ∧ ∀ x ∈ points, x j = c)) ∧
    (∀ v ∈ values, (valueScale values true).2 ≠ 0 →
      0 ≤ (v - (valueScale values true).1) / (valueScale values true).2 ∧ (v - (valueScale values true).1) / (valueScale values true).2 ≤ 1) ∧
    (0 ≤ (valueScale values true).2 ∧ ((valueScale values true).2 = 0 ↔ ∃ c, 0 ≤ c ∧ ∀ v ∈ values, v = c)) ∧
    (∀ j, (pointScale points false).1 j = 0 ∧ (pointScale points false).2 j = 1) ∧ valueScale values false = (0, 1) := by
  have key : ∀ j, _ := fun j => scale_spec (points.map (· j)) (by simpa using hp)
  have kv := scale_spec values hv
  have div01 : ∀ a b : ℝ, 0 ≤ a → a ≤ b → b ≠ 0 → 0 ≤ a / b ∧ a / b ≤ 1 := by
    intro a b h1 h2 h3
    have : 0 < b := lt_of_le_of_ne (le_trans h1 h2) (Ne.symm h3)
    exact ⟨by positivity, (div_le_one this).2 h2⟩
  simp only [List.map_map, List.mem_map, forall_exists_index, and_imp, forall_apply_eq_imp_iff₂] at key
  simp only [pointScale, valueScale, if_true, Bool.false_eq_true, if_false, implies_true, and_self, and_true]
  refine ⟨fun j x hx h0 => ?_, fun j => ⟨(key j).2.1, (key j).2.2⟩, fun v hv h0 => ?_, kv.2.1, kv.2.2⟩
  · exact div01 _ _ ((key j).1 x hx).1 ((key j).1 x hx).2 h0
  · exact div01 _ _ (kv.1 v hv).1 (kv.1 v hv).2 h0

/-- **C28** (degenerate data). With `scale=True` values which are all equal and not negative have
value scale zero: the program divides zero by zero. The scaling must then be switched off. -/
theorem C28_constant_values (v : ℝ) (hv : 0 ≤ v) (n : Nat) :
    (valueScale (List.replicate (n + 1) v) true).2 = 0 := by
  have hmin : ∀ n, (List.replicate n v).foldl min v = v := by
    intro n; induction n with
    | zero => rfl
    | succ n ih => simp [List.replicate_succ, ih]
  have hmax : ∀ n, (List.replicate n v).foldl max v = v := by
    intro n; induction n with
    | zero => rfl
    | succ n ih => simp [List.replicate_succ, ih]
  simp [valueScale, listMin, listMax, List.replicate_succ, abs_of_nonneg hv, hmin, hmax]

/-! ### Derivatives in one dimension -/

/-- Horner's scheme, continued. -/
theorem horner_acc (p : List ℝ) (x y : ℝ) : p.foldl (fun y c => y * x + c) y = y * x ^ p.length + npPolyval p x := by
  unfold npPolyval
  induction p generalizing y with
  | nil => simp
  | cons c p ih =>
    simp only [List.foldl_cons, List.length_cons]
    rw [ih (y * x + c), ih (0 * x + c)]
    ring

theorem npPolyval_cons (c : ℝ) (p : List ℝ) (x : ℝ) : npPolyval (c :: p) x = c * x ^ p.length + npPolyval p x := by
  rw [npPolyval, List.foldl_cons, horner_acc]; ring

theorem polyder_cons (c b : ℝ) (p : List ℝ) :
    polyder (c :: b :: p) = (c * ((p.length + 1 : Nat) : ℝ)) :: polyder (b :: p) := by
  unfold polyder
  simp only [List.dropLast_cons₂, List.length_cons, Nat.add_sub_cancel]
  rw [List.range_succ_eq_map]
  simp only [List.map_cons, List.zipWith_cons_cons, Nat.sub_zero, List.map_map]
  congr 2
  apply List.map_congr_left
  intro i _
  simp only [Function.comp_apply]
  omega

theorem polyder_length (p : List ℝ) : (polyder p).length = p.length - 1 := by
  simp [polyder]

theorem hasDerivAt_npPolyval (p : List ℝ) (x : ℝ) : HasDerivAt (npPolyval p) (npPolyval (polyder p) x) x := by
  induction p with
  | nil =>
    have : npPolyval ([] : List ℝ) = fun _ => 0 := rfl
    rw [this]
    simpa [polyder, npPolyval] using hasDerivAt_const x (0 : ℝ)
  | cons c p ih =>
    cases p with
    | nil =>
      have : npPolyval [c] = fun _ => c := by funext x; simp [npPolyval]
      rw [this]
      simpa [polyder, npPolyval] using hasDerivAt_const x c
    | cons b p =>
      have e : npPolyval (c :: b :: p) = fun x => c * x ^ (p.length + 1) + npPolyval (b :: p) x := by
        funext x; rw [npPolyval_cons]; rfl
      rw [e, polyder_cons, npPolyval_cons, polyder_length]
      simp only [List.length_cons, Nat.add_sub_cancel]
      have h1 := ((hasDerivAt_pow (p.length + 1) x).const_mul c)
      have h2 := h1.add ih
      refine h2.congr_deriv ?_
      simp only [Nat.add_sub_cancel]
      ring

theorem polyderN_succ (p : List ℝ) (m : Nat) : polyderN p (m + 1) = polyder (polyderN p m) := by
  induction m generalizing p with
  | zero => rfl
  | succ m ih => rw [polyderN, ih]; rfl

theorem powers_one (deg : Nat) : polyPowers 1 deg = (List.range (deg + 1)).map (fun k => [k]) := by
  simp [polyPowers, itProduct]

theorem dot_reverse (cs : List ℝ) (t : ℝ) :
    dot ((List.range cs.length).map (fun k => t ^ k)) cs = npPolyval cs.reverse t := by
  induction cs using List.reverseRecOn with
  | nil => rfl
  | append_singleton cs c ih =>
    rw [List.reverse_append, List.reverse_singleton, List.singleton_append, npPolyval_cons, ← ih]
    simp only [List.length_append, List.length_singleton, List.length_reverse, List.range_succ, List.map_append]
    unfold dot
    rw [List.zipWith_append (by simp), List.sum_append]
    simp
    ring

/-- `polyval` in one dimension is the polynomial with the coefficients in ascending order. -/
theorem polyval_one (fit : Fit 1) (hl : fit.coeffs.length = fit.deg + 1) (x : ℝ) :
    polyval fit (fun _ => x) = npPolyval fit.coeffs.reverse ((x - fit.pmin 0) / fit.pscale 0) * fit.vscale + fit.vmin := by
  unfold polyval vanderRow
  rw [powers_one, ← hl, ← dot_reverse]
  simp [List.map_map, Function.comp_def]

/-- **C28** (derivatives). In one dimension `polyval(fit, x, der=m+1)` is the derivative of
`polyval(fit, x, der=m)` with respect to the unscaled `x`, at every `x` and for every `m`. -/
theorem C28_polyval_der (fit : Fit 1) (hl : fit.coeffs.length = fit.deg + 1) (m : Nat) (x : ℝ) :
    HasDerivAt (polyvalDer fit m) (polyvalDer fit (m + 1) x) x := by
  have hin : HasDerivAt (fun x => (x - fit.pmin 0) / fit.pscale 0) (1 / fit.pscale 0) x :=
    ((hasDerivAt_id x).sub_const _).div_const _
  cases m with
  | zero =>
    have e : polyvalDer fit 0 = fun x => npPolyval fit.coeffs.reverse ((x - fit.pmin 0) / fit.pscale 0) * fit.vscale + fit.vmin := by
      funext x
      simp [polyvalDer, polyval_one fit hl]
    rw [e]
    have h1 := ((hasDerivAt_npPolyval fit.coeffs.reverse ((x - fit.pmin 0) / fit.pscale 0)).comp x hin)
    have h2 := (h1.mul_const fit.vscale).add_const fit.vmin
    refine h2.congr_deriv ?_
    rw [polyvalDer, if_pos (by omega)]
    simp only [polyderN]
    ring
  | succ m =>
    have e : polyvalDer fit (m + 1) = fun x => npPolyval (polyderN fit.coeffs.reverse (m + 1)) ((x - fit.pmin 0) / fit.pscale 0)
        / fit.pscale 0 ^ (m + 1) * fit.vscale := by
      funext x; simp [polyvalDer]
    rw [e]
    have h1 := ((hasDerivAt_npPolyval (polyderN fit.coeffs.reverse (m + 1)) ((x - fit.pmin 0) / fit.pscale 0)).comp x hin)
    have h2 := (h1.div_const (fit.pscale 0 ^ (m + 1))).mul_const fit.vscale
    refine h2.congr_deriv ?_
    rw [polyvalDer, if_pos (by omega), polyderN_succ _ (m + 1)]
    ring

/-- Non-vacuity: `x ↦ 2 + 3x + x²` (no scaling), derivative at 1 is 5. -/
example : polyvalDer ⟨[2, 3, 1], 2, fun _ => 1, 1, fun _ => 0, 0⟩ 1 1 = 5 := by
  norm_num [polyvalDer, polyderN, polyder, npPolyval, List.range_succ]

/-- Non-vacuity of the fit theorems: the data (0, 1), (1, 2), (3, 4) lie on `1 + x`; with scaling
`pmin = 0, pscale = 3, vmin = 1, vscale = 3` the fit has coefficients `[0, 1]`. -/
example : PolyfitReturns (d := 1) [fun _ => 0, fun _ => 1, fun _ => 3] [1, 2, 4] 1 true false
    ⟨[0, 1], 1, fun _ => 3, 3, fun _ => 0, 1⟩ := by
  refine ⟨rfl, rfl, ?_, ?_, ?_, ?_, ?_⟩
  · funext j; norm_num [pointScale, listMin]
  · funext j; norm_num [pointScale, listMin, listMax]
  · norm_num [valueScale, listMin]
  · norm_num [valueScale, listMin, listMax]
  · refine ⟨by decide, fun c' _ => ?_⟩
    have : (List.zipWith (fun row v => (dot row [0, 1] - v) ^ 2)
        ([fun _ => 0, fun _ => 1, fun _ => 3].map (fun x : Fin 1 → ℝ => vanderRow (fun j => (x j - 0) / 3) 1))
        (([1, 2, 4] : List ℝ).map (fun v => (v - 1) / 3))).sum = 0 := by
      norm_num [vanderRow, powers_one, List.range_succ, dot]
    rw [this]
    apply List.sum_nonneg
    intro v hv
    rw [List.mem_iff_getElem] at hv
    obtain ⟨i, hi, rfl⟩ := hv
    rw [List.getElem_zipWith]
    exact sq_nonneg _

end Pwtools.Poly
