import Verif.Model.Fit1D
import Verif.Spec.Fit1D
import Mathlib.Topology.Order.IntermediateValue
import Mathlib.Analysis.Calculus.Deriv.MeanValue
import Mathlib.Tactic.Linarith
import Mathlib.Tactic.NormNum
/-!
# C109: roots, minima and inverse of 1d fits
-/
namespace Pwtools.Fit
open Spec

/-! ## `is_mono` -/

theorem sgn_pos {x : ℝ} : sgn x = 1 ↔ 0 < x := by
  unfold sgn
  split_ifs <;> norm_num <;> linarith
theorem sgn_neg {x : ℝ} : sgn x = -1 ↔ x < 0 := by
  unfold sgn
  split_ifs <;> norm_num <;> linarith
theorem sgn_zero {x : ℝ} : sgn x = 0 ↔ x = 0 := by
  unfold sgn
  split_ifs with h1 h2
  · norm_num; linarith
  · norm_num; linarith
  · simp; linarith
theorem sgn_cases (x : ℝ) : sgn x = 1 ∨ sgn x = -1 ∨ sgn x = 0 := by
  unfold sgn
  split_ifs <;> simp

theorem diff_zero (l : List ℝ) : (∀ d ∈ diff l, d = 0) ↔ ∀ a ∈ l, a = l.headD 0 := by
  induction l with
  | nil => simp [diff]
  | cons a l ih =>
    cases l with
    | nil => simp [diff]
    | cons b l =>
      have e : diff (a :: b :: l) = (b - a) :: diff (b :: l) := rfl
      rw [e]
      simp only [List.forall_mem_cons]
      rw [ih]
      simp only [List.headD_cons, List.forall_mem_cons]
      constructor
      · rintro ⟨h1, -, h2⟩
        have : b = a := by linarith
        exact ⟨trivial, this, fun x hx => by rw [h2 x hx, this]⟩
      · rintro ⟨-, h1, h2⟩
        exact ⟨by linarith, trivial, fun x hx => by rw [h2 x hx, h1]⟩

theorem diff_chain (R : ℝ → ℝ → Prop) (P : ℝ → Prop) (h : ∀ a b, P (b - a) ↔ R a b) (l : List ℝ) : (∀ d ∈ diff l, P d) ↔ l.IsChain R := by
  induction l with
  | nil => simp [diff]
  | cons a l ih =>
    cases l with
    | nil => simp [diff]
    | cons b l =>
      have e : diff (a :: b :: l) = (b - a) :: diff (b :: l) := rfl
      rw [e, List.forall_mem_cons, ih, h, List.isChain_cons_cons]

/-- **C109** (what `is_mono` tests) It is true exactly if the values at the data points all increase strictly, all decrease strictly, or are all
equal. -/
theorem C109_mono_partial (fit : Fit) : isMono fit ↔
    ((fit.x.map fit.f).IsChain (· < ·) ∨ (fit.x.map fit.f).IsChain (· > ·) ∨ (fit.x.map fit.f).IsChain (· = ·)) := by
  unfold isMono
  generalize fit.x.map fit.f = l
  rw [diff_zero]
  have h1 := diff_chain (· < ·) (fun d => 0 < d) (fun a b => sub_pos) l
  have h2 := diff_chain (· > ·) (fun d => d < 0) (fun a b => sub_neg) l
  have h3 := diff_chain (· = ·) (fun d => d = 0) (fun a b => by rw [sub_eq_zero]; exact eq_comm) l
  rw [← h1, ← h2, ← h3]
  simp only [List.forall_mem_map]
  cases hd : diff l with
  | nil => simp
  | cons d ds =>
    simp only [List.map_cons, List.headD_cons]
    rcases sgn_cases d with h | h | h
    · rw [h]
      constructor
      · intro hh; left; intro x hx; exact sgn_pos.1 (hh x hx)
      · rintro (hh | hh | hh)
        · intro x hx; exact sgn_pos.2 (hh x hx)
        · have := hh d (by simp); rw [sgn_pos] at h; linarith
        · have := hh d (by simp); rw [sgn_pos] at h; linarith
    · rw [h]
      constructor
      · intro hh; right; left; intro x hx; exact sgn_neg.1 (hh x hx)
      · rintro (hh | hh | hh)
        · have := hh d (by simp); rw [sgn_neg] at h; linarith
        · intro x hx; exact sgn_neg.2 (hh x hx)
        · have := hh d (by simp); rw [sgn_neg] at h; linarith
    · rw [h]
      constructor
      · intro hh; right; right; intro x hx; exact sgn_zero.1 (hh x hx)
      · rintro (hh | hh | hh)
        · have := hh d (by simp); rw [sgn_zero] at h; linarith
        · have := hh d (by simp); rw [sgn_zero] at h; linarith
        · intro x hx; exact sgn_zero.2 (hh x hx)

/-- **C109** (false for `is_mono`) A curve which never decreases but is flat somewhere is monotonic, `is_mono` says it is not; and a curve which
goes up and down between the data points is not monotonic, `is_mono` says it is. -/
theorem C109_mono_counterexample :
    (∃ fit : Fit, Monotone fit.f ∧ ¬ isMono fit) ∧ ∃ fit : Fit, isMono fit ∧ ¬ Monotone fit.f ∧ ¬ Antitone fit.f := by
  constructor
  · refine ⟨⟨[0, 1, 2], [0, 1, 1], fun x => min x 1, fun _ => 0⟩, fun a b h => min_le_min h le_rfl, ?_⟩
    rw [C109_mono_partial]
    simp only [List.map_cons, List.map_nil, List.isChain_cons_cons]
    norm_num
  · refine ⟨⟨[-1, 2], [1, 4], fun x => x ^ 2, fun _ => 0⟩, ?_, ?_, ?_⟩
    · rw [C109_mono_partial]
      simp only [List.map_cons, List.map_nil, List.isChain_cons_cons]
      norm_num
    · intro h
      have := h (show (-1 : ℝ) ≤ 0 by norm_num)
      norm_num at this
    · intro h
      have := h (show (0 : ℝ) ≤ 1 by norm_num)
      norm_num at this

/-! ## Roots -/

/-- The bracket which is used. -/
def bracket (fit : Fit) (xab : Option (ℝ × ℝ)) : Option (ℝ × ℝ) :=
  match xab with
  | some p => some p
  | none => match fit.x.head?, fit.x.getLast? with
    | some a, some b => some (a, b)
    | _, _ => none

theorem findroot_bracket (s : Solvers) (fit : Fit) (func : ℝ → ℝ) (xab : Option (ℝ × ℝ)) (a b : ℝ) (h : bracket fit xab = some (a, b)) :
    findroot s fit func none xab = s.brentq func a b := by
  unfold findroot bracket at *
  cases xab with
  | some p =>
    simp only [Option.some.injEq] at h
    rw [h]
  | none =>
    simp only at h ⊢
    cases h1 : fit.x.head? with
    | none => rw [h1] at h; simp at h
    | some u =>
      cases h2 : fit.x.getLast? with
      | none => rw [h1, h2] at h; simp at h
      | some v =>
        rw [h1, h2] at h
        simp only [Option.some.injEq, Prod.mk.injEq] at h
        rw [h.1, h.2]

/-- **C109** `get_root` returns a root in the bracket (by default the interval of the data), it returns one if the curve changes sign, and raises if
both ends have the same sign. -/
theorem C109_root (s : Solvers) (hs : GoodBrent s) (fit : Fit) (xab : Option (ℝ × ℝ)) (a b : ℝ) (h : bracket fit xab = some (a, b)) (hab : a ≤ b) :
    (∀ x, getRoot s fit none xab = some x → fit.f x = 0 ∧ a ≤ x ∧ x ≤ b) ∧
    (0 < fit.f a * fit.f b → getRoot s fit none xab = none) ∧
    (ContinuousOn fit.f (Set.Icc a b) → fit.f a * fit.f b ≤ 0 → ∃ x, getRoot s fit none xab = some x) := by
  unfold getRoot
  rw [findroot_bracket s fit _ xab a b h]
  exact ⟨fun x hx => hs.root _ a b x hab hx, hs.raises _ a b, hs.total _ a b hab⟩

/-- **C109** (start value) With a start value the result is what Newton's method finds from there, for the function itself, its derivative, or the
distance from `y0`; the bracket does not matter. In particular it is a root if Newton's method only returns roots. -/
theorem C109_start (s : Solvers) (fit : Fit) (x0 : ℝ) (xab : Option (ℝ × ℝ)) :
    getRoot s fit (some x0) xab = s.newton fit.f x0 ∧ getMin s fit (some x0) xab = s.newton fit.df x0 ∧
    getMax s fit (some x0) xab = s.newton (fun x => - fit.df x) x0 ∧
    ((∀ f a x, s.newton f a = some x → f x = 0) →
      (∀ x, getRoot s fit (some x0) xab = some x → fit.f x = 0) ∧ ∀ y0 x, invsplev s fit y0 (some x0) xab = some x → fit.f x = y0) := by
  refine ⟨rfl, rfl, rfl, fun h => ⟨fun x hx => h _ _ _ hx, fun y0 x hx => ?_⟩⟩
  unfold invsplev at hx
  split at hx
  · have := h _ _ _ hx
    linarith
  · cases hx

/-- **C109** (for convex curves) `get_min` returns the place of the smallest value in the bracket. -/
theorem C109_min_partial (s : Solvers) (hs : GoodBrent s) (fit : Fit) (xab : Option (ℝ × ℝ)) (a b : ℝ) (h : bracket fit xab = some (a, b)) (hab : a ≤ b)
    (hd : ∀ x, HasDerivAt fit.f (fit.df x) x) (hm : MonotoneOn fit.df (Set.Icc a b)) (x : ℝ) (hx : getMin s fit none xab = some x) :
    a ≤ x ∧ x ≤ b ∧ ∀ z, a ≤ z → z ≤ b → fit.f x ≤ fit.f z := by
  unfold getMin at hx
  rw [findroot_bracket s fit _ xab a b h] at hx
  obtain ⟨h0, hax, hxb⟩ := hs.root _ a b x hab hx
  refine ⟨hax, hxb, fun z haz hzb => ?_⟩
  rcases lt_trichotomy x z with hlt | rfl | hgt
  · obtain ⟨c, hc, e⟩ := exists_hasDerivAt_eq_slope fit.f fit.df hlt (fun y _ => (hd y).continuousAt.continuousWithinAt) (fun y _ => hd y)
    have hc0 : 0 ≤ fit.df c := by
      rw [← h0]
      exact hm ⟨hax, hxb⟩ ⟨by linarith [hc.1], by linarith [hc.2]⟩ hc.1.le
    rw [e] at hc0
    have hp : 0 < z - x := by linarith
    have := mul_nonneg hc0 hp.le
    rw [div_mul_cancel₀ _ hp.ne'] at this
    linarith
  · exact le_rfl
  · obtain ⟨c, hc, e⟩ := exists_hasDerivAt_eq_slope fit.f fit.df hgt (fun y _ => (hd y).continuousAt.continuousWithinAt) (fun y _ => hd y)
    have hc0 : fit.df c ≤ 0 := by
      rw [← h0]
      exact hm ⟨by linarith [hc.1], by linarith [hc.2]⟩ ⟨hax, hxb⟩ hc.2.le
    rw [e] at hc0
    have hp : 0 < x - z := by linarith
    have := mul_le_mul_of_nonneg_right hc0 hp.le
    rw [div_mul_cancel₀ _ hp.ne', zero_mul] at this
    linarith

/-- **C109** (for concave curves) `get_max` returns the place of the largest value in the bracket. -/
theorem C109_max_partial (s : Solvers) (hs : GoodBrent s) (fit : Fit) (xab : Option (ℝ × ℝ)) (a b : ℝ) (h : bracket fit xab = some (a, b)) (hab : a ≤ b)
    (hd : ∀ x, HasDerivAt fit.f (fit.df x) x) (hm : AntitoneOn fit.df (Set.Icc a b)) (x : ℝ) (hx : getMax s fit none xab = some x) :
    a ≤ x ∧ x ≤ b ∧ ∀ z, a ≤ z → z ≤ b → fit.f z ≤ fit.f x := by
  obtain ⟨h1, h2, h3⟩ := C109_min_partial s hs ⟨fit.x, fit.y, fun x => - fit.f x, fun x => - fit.df x⟩ xab a b h hab (fun x => (hd x).neg)
    (fun u hu v hv huv => neg_le_neg (hm hu hv huv)) x hx
  exact ⟨h1, h2, fun z hz1 hz2 => by have := h3 z hz1 hz2; simp only at this; linarith⟩

/-- **C109** (false in general) For the curve `-x²` on `[-1, 1]` `get_min` returns the place of the largest value. -/
theorem C109_min_counterexample (s : Solvers) (hs : GoodBrent s) :
    getMin s ⟨[-1, 1], [-1, -1], fun x => - x ^ 2, fun x => - (2 * x)⟩ none none = some 0 := by
  have hb : getMin s ⟨[-1, 1], [-1, -1], fun x => - x ^ 2, fun x => - (2 * x)⟩ none none = s.brentq (fun x => - (2 * x)) (-1) 1 := rfl
  rw [hb]
  obtain ⟨x, hx⟩ := hs.total (fun x => - (2 * x)) (-1) 1 (by norm_num) (by fun_prop) (by norm_num)
  have := (hs.root _ _ _ _ (by norm_num) hx).1
  have h0 : x = 0 := by linarith
  rw [hx, h0]

/-- **C109** For a strictly monotonic curve `invsplev` is the inverse of the curve on the interval of the data: `invsplev(f(x)) = x`. -/
theorem C109_inverse (s : Solvers) (hs : GoodBrent s) (fit : Fit) (a b : ℝ) (h : bracket fit none = some (a, b)) (hab : a ≤ b)
    (hy : fit.y = fit.x.map fit.f) (hc : ContinuousOn fit.f (Set.Icc a b))
    (hm : StrictMonoOn fit.f (Set.Icc a b) ∨ StrictAntiOn fit.f (Set.Icc a b)) (x : ℝ) (hx : x ∈ Set.Icc a b) :
    invsplev s fit (fit.f x) none none = some x := by
  have hmem : a ∈ fit.x ∧ b ∈ fit.x := by
    unfold bracket at h
    simp only at h
    cases h1 : fit.x.head? with
    | none => rw [h1] at h; simp at h
    | some u =>
      cases h2 : fit.x.getLast? with
      | none => rw [h1, h2] at h; simp at h
      | some v =>
        rw [h1, h2] at h
        simp only [Option.some.injEq, Prod.mk.injEq] at h
        exact ⟨h.1 ▸ List.mem_of_head? h1, h.2 ▸ List.mem_of_getLast? h2⟩
  have ha : a ∈ Set.Icc a b := ⟨le_rfl, hab⟩
  have hb : b ∈ Set.Icc a b := ⟨hab, le_rfl⟩
  have hya : fit.f a ∈ fit.y := by rw [hy]; exact List.mem_map_of_mem hmem.1
  have hyb : fit.f b ∈ fit.y := by rw [hy]; exact List.mem_map_of_mem hmem.2
  have inj : ∀ u ∈ Set.Icc a b, ∀ v ∈ Set.Icc a b, fit.f u = fit.f v → u = v := by
    rcases hm with hm | hm
    · exact fun u hu v hv e => hm.injOn hu hv e
    · exact fun u hu v hv e => hm.injOn hu hv e
  have hsign : (fit.f a ≤ fit.f x ∧ fit.f x ≤ fit.f b) ∨ (fit.f b ≤ fit.f x ∧ fit.f x ≤ fit.f a) := by
    rcases hm with hm | hm
    · exact Or.inl ⟨hm.monotoneOn ha hx hx.1, hm.monotoneOn hx hb hx.2⟩
    · exact Or.inr ⟨hm.antitoneOn hx hb hx.2, hm.antitoneOn ha hx hx.1⟩
  unfold invsplev
  rw [if_pos]
  · rw [findroot_bracket s fit _ none a b h]
    obtain ⟨z, hz⟩ := hs.total (fun z => fit.f z - fit.f x) a b hab (hc.sub continuousOn_const) (by
      rcases hsign with ⟨h1, h2⟩ | ⟨h1, h2⟩
      · exact mul_nonpos_of_nonpos_of_nonneg (by linarith) (by linarith)
      · exact mul_nonpos_of_nonneg_of_nonpos (by linarith) (by linarith))
    obtain ⟨e, h1, h2⟩ := hs.root _ a b z hab hz
    rw [hz, inj z ⟨h1, h2⟩ x hx (by linarith)]
  · rcases hsign with ⟨h1, h2⟩ | ⟨h1, h2⟩
    · exact ⟨⟨_, hya, h1⟩, ⟨_, hyb, h2⟩⟩
    · exact ⟨⟨_, hyb, h1⟩, ⟨_, hya, h2⟩⟩

/-- **C109** Values outside of the range of the data are rejected. -/
theorem C109_range (s : Solvers) (fit : Fit) (y0 : ℝ) (x0 : Option ℝ) (xab : Option (ℝ × ℝ)) (h : (∀ y ∈ fit.y, y < y0) ∨ ∀ y ∈ fit.y, y0 < y) :
    invsplev s fit y0 x0 xab = none := by
  unfold invsplev
  rw [if_neg]
  rintro ⟨⟨y, hy, h1⟩, ⟨z, hz, h2⟩⟩
  rcases h with h | h
  · exact absurd h2 (not_le.2 (h z hz))
  · exact absurd h1 (not_le.2 (h y hy))

open Classical in
/-- Non-vacuity: there are solvers with the documented behaviour. -/
theorem goodBrent_exists : ∃ s, GoodBrent s := by
  refine ⟨⟨fun _ _ => none, fun f a b => if h : (¬ 0 < f a * f b) ∧ ∃ x, f x = 0 ∧ a ≤ x ∧ x ≤ b then some h.2.choose else none⟩, ?_, ?_, ?_⟩
  · intro f a b h
    simp only
    rw [dif_neg (fun hh => hh.1 h)]
  · intro f a b x _ hx
    simp only at hx
    split_ifs at hx with h
    rw [Option.some.injEq] at hx
    rw [← hx]
    exact h.2.choose_spec
  · intro f a b hab hc hs
    have : ∃ x, f x = 0 ∧ a ≤ x ∧ x ≤ b := by
      rcases mul_nonpos_iff.1 hs with ⟨h1, h2⟩ | ⟨h1, h2⟩
      · obtain ⟨x, hx, e⟩ := intermediate_value_Icc' hab hc ⟨h2, h1⟩
        exact ⟨x, e, hx.1, hx.2⟩
      · obtain ⟨x, hx, e⟩ := intermediate_value_Icc hab hc ⟨h1, h2⟩
        exact ⟨x, e, hx.1, hx.2⟩
    simp only
    rw [dif_pos ⟨not_lt.2 hs, this⟩]
    exact ⟨_, rfl⟩

/-! ## Shapes -/

/-- **C109** (partial) `PolyFit1D(...)(points)` has one value per point, in the shape of the points, except for arrays of length one. -/
theorem C109_shape_partial {α : Type} (f : α → α) (p : Pts α) (h : ∀ x, p ≠ .vec [x]) : call f p = SameShape f p := by
  match p, h with
  | .scalar x, _ => rfl
  | .vec [], _ => rfl
  | .vec [x], h => exact absurd rfl (h x)
  | .vec (x :: y :: l), _ => rfl
  | .mat 0 rows, _ => rfl
  | .mat 1 rows, _ => rfl
  | .mat (n + 2) rows, _ => rfl
  | .more, _ => rfl

/-- **C109** (false for length one) An array with one point gives a number instead of an array with one number. -/
theorem C109_shape_counterexample : ∃ p : Pts Nat, call id p ≠ SameShape id p := ⟨.vec [1], by decide⟩

/-- **C109** (false for 2d points) The documented shape `(npoints, 1)` always raises, the shape `(npoints,)` never. -/
theorem C109_init {α : Type} (l : List α) : initPoints (.vec l) = some l ∧ initPoints (.mat 1 (l.map fun x => [x])) = none := ⟨rfl, rfl⟩

end Pwtools.Fit
