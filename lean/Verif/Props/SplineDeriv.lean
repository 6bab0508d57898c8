import Verif.Spec.SplineDeriv
import Verif.Props.Fit1D
import Mathlib.LinearAlgebra.Lagrange
import Mathlib.Tactic.Linarith
import Mathlib.Tactic.ComputeDegree
/-!
# C183: `deriv_spl`, `Spline`, `findmin`, `findroot`
-/
namespace Pwtools.SplD
open Pwtools.Spec Fit Polynomial

variable (rep : Splrep)

/-- C183: derivatives of data of a polynomial of degree at most the order are exact, everywhere, also outside of the data and for any spacing;
the axis which is returned is `xnew` (if given). Without `x` the data are at 0, 1, 2, ... -/
theorem C183_exact (hg : GoodSplrep rep) (P : ℝ[X]) (x xnew : Option (List ℝ)) (y xs : List ℝ) (n : Int) (k : Option Nat)
    (hx : xs = x.getD ((List.range y.length).map (fun i : Nat => (i : ℝ)))) (hinc : xs.Pairwise (· < ·)) (hy : y = xs.map (fun u => P.eval u))
    (hk : 1 ≤ k.getD 3 ∧ k.getD 3 ≤ 5) (hlen : k.getD 3 < xs.length) (hP : P.natDegree ≤ k.getD 3) (hn : 0 < n) (hnk : n ≤ k.getD 3) :
    derivSpl rep y x xnew n ⟨none, k⟩ =
      .ok (xnew.getD xs, (xnew.getD xs).map (fun u => (derivative^[n.toNat] P).eval u)) := by
  obtain ⟨t, ht⟩ := hg.total (k.getD 3) xs y hk.1 hk.2 hlen (by rw [hy]; simp) hinc
  have hev := hg.reproduces (k.getD 3) xs P t (by rw [← hy]; exact ht) hP n.toNat (by omega)
  unfold derivSpl
  rw [if_neg (by omega)]
  simp only [Option.getD_none]
  rw [← hx, ht, Option.bind_some]
  unfold splev
  rw [hg.order _ _ _ _ _ ht, if_pos (by omega)]
  simp only
  congr 2
  apply List.map_congr_left
  intro u _
  exact hev u

/-- C183: what is refused: an order of the derivative which is not positive, or larger than that of the spline; too few points. Otherwise the
axis has the length of `xnew` or else of the data, and so has the derivative. -/
theorem C183_refused (hg : GoodSplrep rep) (y : List ℝ) (x xnew : Option (List ℝ)) (n : Int) (kw : Kw) :
    (n ≤ 0 → derivSpl rep y x xnew n kw = .error .assertion) ∧
    (kw.k.getD 3 < n → derivSpl rep y x xnew n kw = .error .scipy) ∧
    (0 < n → (x.getD ((List.range y.length).map (fun i : Nat => (i : ℝ)))).length ≤ kw.k.getD 3 → derivSpl rep y x xnew n kw = .error .scipy) ∧
    (∀ r, derivSpl rep y x xnew n kw = .ok r → r.1 = xnew.getD (x.getD ((List.range y.length).map (fun i : Nat => (i : ℝ)))) ∧ r.2.length = r.1.length) := by
  refine ⟨fun h => by unfold derivSpl; rw [if_pos h], fun h => ?_, fun hn h => ?_, fun r h => ?_⟩
  · unfold derivSpl
    rw [if_neg (by omega)]
    dsimp only
    cases ht : rep (kw.s.getD 0) (kw.k.getD 3) (x.getD ((List.range y.length).map (fun i : Nat => (i : ℝ)))) y with
    | none => rfl
    | some t =>
      rw [Option.bind_some]
      unfold splev
      rw [hg.order _ _ _ _ _ ht, if_neg (by omega)]
  · unfold derivSpl
    rw [if_neg (by omega)]
    dsimp only
    rw [hg.short _ _ _ _ h]
    rfl
  · unfold derivSpl at h
    split_ifs at h
    dsimp only at h
    split at h
    · rename_i yd hyd
      cases h
      refine ⟨rfl, ?_⟩
      obtain ⟨t, -, ht⟩ := Option.bind_eq_some_iff.1 hyd
      unfold splev at ht
      split_ifs at ht
      cases ht
      simp
    · cases h

/-- C183: `deriv_spl(y, x, xnew, n)` is `Spline(x, y)(xnew, der=n)`, with the same keywords, whenever that object can be made. -/
theorem C183_spline (x y xnew : List ℝ) (n : Int) (eps : ℝ) (chk : Bool) (kw : Kw) (s : Spl) (hs : mkSpline rep x y eps chk kw = .ok s) (hn : 0 < n)
    (yd : List ℝ) : derivSpl rep y (some x) (some xnew) n kw = .ok (xnew, yd) ↔ splev s.tck n.toNat xnew = some yd := by
  unfold mkSpline at hs
  split_ifs at hs
  unfold derivSpl
  rw [if_neg (by omega)]
  simp only [Option.getD_some]
  cases ht : rep (kw.s.getD 0) (kw.k.getD 3) x y with
  | none => rw [ht] at hs; cases hs
  | some t =>
    rw [ht] at hs
    dsimp only at hs
    split_ifs at hs
    cases hs
    rw [Option.bind_some]
    cases splev t n.toNat xnew <;> simp

theorem diff_nonneg (x : List ℝ) : (∀ d ∈ diff x, 0 ≤ d) ↔ x.IsChain (· ≤ ·) := by
  induction x with
  | nil => simp [diff]
  | cons a l ih =>
    rcases l with _ | ⟨b, l⟩
    · simp [diff]
    · rw [List.isChain_cons_cons, ← ih]
      simp [diff]

/-- C183: a `Spline` made with the check goes through all points with an error below `eps`, also with smoothing; unordered abscissas are always
refused; for increasing ones (and no smoothing) the object is made. -/
theorem C183_check (hg : GoodSplrep rep) (x y : List ℝ) (eps : ℝ) :
    (∀ kw s, mkSpline rep x y eps true kw = .ok s → s.x = x ∧ s.y = y ∧ ∀ p ∈ List.zip x y, |s.tck.ev 0 p.1 - p.2| < eps) ∧
    (¬ x.IsChain (· ≤ ·) → ∀ chk kw, mkSpline rep x y eps chk kw = .error .assertion) ∧
    (0 < eps → x.Pairwise (· < ·) → x.length = y.length → ∀ k : Option Nat, 1 ≤ k.getD 3 → k.getD 3 ≤ 5 → k.getD 3 < x.length →
      ∀ chk, ∃ s, mkSpline rep x y eps chk ⟨none, k⟩ = .ok s) := by
  refine ⟨fun kw s h => ?_, fun h chk kw => ?_, fun he hx hl k h1 h2 h3 chk => ?_⟩
  · unfold mkSpline at h
    split_ifs at h
    split at h
    · cases h
    · split_ifs at h with hc
      cases h
      simp only [true_and, not_not] at hc
      exact ⟨rfl, rfl, hc⟩
  · unfold mkSpline
    exact if_pos (fun hc => h ((diff_nonneg x).1 hc))
  · obtain ⟨t, ht⟩ := hg.total (k.getD 3) x y h1 h2 h3 hl hx
    refine ⟨⟨x, y, t⟩, ?_⟩
    unfold mkSpline
    rw [if_neg (not_not.2 ((diff_nonneg x).2 (hx.imp (fun h => le_of_lt h)).isChain))]
    simp only [Option.getD_none, ht]
    rw [if_neg]
    rintro ⟨-, hc⟩
    apply hc
    intro p hp
    rw [hg.interpolates _ _ _ _ ht p hp, sub_self, abs_zero]
    exact he

theorem poly_spline (hg : GoodSplrep rep) (P : ℝ[X]) (x : List ℝ) (hinc : x.Pairwise (· < ·)) (hlen : 3 < x.length) (hP : P.natDegree ≤ 3) :
    ∃ s, mkSpline rep x (x.map (fun u => P.eval u)) (1 / 10 ^ 10) true {} = .ok s ∧ s.x = x ∧ (∀ u, s.tck.ev 0 u = P.eval u) ∧
      ∀ u, s.tck.ev 1 u = P.derivative.eval u := by
  obtain ⟨s, hs⟩ := (C183_check rep hg x (x.map (fun u => P.eval u)) (1 / 10 ^ 10)).2.2 (by positivity) hinc (by simp) none (by decide) (by decide) hlen true
  have hs' : mkSpline rep x (x.map (fun u => P.eval u)) (1 / 10 ^ 10) true {} = .ok s := hs
  refine ⟨s, hs', ?_⟩
  have h0 := hs'
  unfold mkSpline at h0
  split_ifs at h0
  split at h0
  · cases h0
  · rename_i t ht
    split_ifs at h0
    cases h0
    have hr := hg.reproduces 3 x P t ht hP
    exact ⟨rfl, hr 0 (by omega), fun u => by simpa using hr 1 (by omega) u⟩

/-- C183: `findmin` of data of a convex parabola, at any increasing places around the vertex, is the vertex, exactly. -/
theorem C183_findmin (hg : GoodSplrep rep) (sv : Solvers) (hs : GoodBrent sv) (x : List ℝ) (a c b l r : ℝ) (ha : 0 < a)
    (hinc : x.Pairwise (· < ·)) (hlen : 3 < x.length) (hl : x.head? = some l) (hr : x.getLast? = some r) (hc : l ≤ c ∧ c ≤ r) :
    findmin rep sv x (x.map (fun u => a * (u - c) ^ 2 + b)) = some (c, b) := by
  obtain ⟨s, h1, h2, h3, h4⟩ := poly_spline rep hg (C a * (X - C c) ^ 2 + C b) x hinc hlen (by
    have : (C a * (X - C c) ^ 2 + C b).natDegree ≤ 2 := by compute_degree
    omega)
  have e : (fun u => (C a * (X - C c) ^ 2 + C b).eval u) = (fun u => a * (u - c) ^ 2 + b) := by
    funext u; simp
  rw [e] at h1
  have hd : s.tck.ev 1 = fun u => a * (2 * (u - c)) := by
    funext u
    rw [h4]
    simp [Polynomial.derivative_pow]
  unfold findmin
  rw [h1]
  have hlr : l ≤ r := le_trans hc.1 hc.2
  have hb : getMin sv s.fit none none = sv.brentq (fun u => a * (2 * (u - c))) l r := by
    unfold getMin Fit.findroot Spl.fit
    simp only [h2, hl, hr, hd]
  obtain ⟨z, hz⟩ := hs.total (fun u => a * (2 * (u - c))) l r hlr (by fun_prop) (by
    have := mul_nonneg (sub_nonneg.2 hc.1) (sub_nonneg.2 hc.2)
    nlinarith [mul_pos ha ha])
  have hzc : z = c := by
    have := (hs.root _ l r z hlr hz).1
    have h5 : 2 * (z - c) = 0 := by
      rcases mul_eq_zero.1 this with h | h
      · exact absurd h ha.ne'
      · exact h
    linarith
  simp only [hb, hz, Option.map_some, hzc, h3]
  simp

/-- C183: `findroot` of data which change sign returns a point of the curve with the value zero, between the first and the last place; for
data of a straight line which is not constant it is the root of the line. -/
theorem C183_findroot (hg : GoodSplrep rep) (sv : Solvers) (hs : GoodBrent sv) (x y : List ℝ) (l r : ℝ) (hlr : l ≤ r)
    (hl : x.head? = some l) (hr : x.getLast? = some r) :
    (∀ p, findrootXY rep sv x y = some p → p.2 = 0 ∧ l ≤ p.1 ∧ p.1 ≤ r) ∧
    (∀ a c, a ≠ 0 → l ≤ c → c ≤ r → x.Pairwise (· < ·) → 3 < x.length → y = x.map (fun u => a * (u - c)) → findrootXY rep sv x y = some (c, 0)) := by
  have key : ∀ p, findrootXY rep sv x y = some p → p.2 = 0 ∧ l ≤ p.1 ∧ p.1 ≤ r := by
    intro p hp
    unfold findrootXY at hp
    split at hp
    · cases hp
    · rename_i s h
      have hx : s.x = x := ((C183_check rep hg x y (1 / 10 ^ 10)).1 _ _ h).1
      obtain ⟨z, hz, rfl⟩ := Option.map_eq_some_iff.1 hp
      unfold getRoot Fit.findroot Spl.fit at hz
      simp only [hx, hl, hr] at hz
      exact hs.root _ l r z hlr hz
  refine ⟨key, fun a c ha h1 h2 hinc hlen hy => ?_⟩
  obtain ⟨s, k1, k2, k3, -⟩ := poly_spline rep hg (C a * (X - C c)) x hinc hlen (by
    have : (C a * (X - C c)).natDegree ≤ 1 := by compute_degree
    omega)
  have e : (fun u => (C a * (X - C c)).eval u) = (fun u => a * (u - c)) := by
    funext u; simp
  rw [e, ← hy] at k1
  have hf : s.tck.ev 0 = fun u => a * (u - c) := by
    funext u
    rw [k3]
    simp
  have hb : getRoot sv s.fit none none = sv.brentq (fun u => a * (u - c)) l r := by
    unfold getRoot Fit.findroot Spl.fit
    simp only [k2, hl, hr, hf]
  obtain ⟨z, hz⟩ := hs.total (fun u => a * (u - c)) l r hlr (by fun_prop) (by
    have := mul_nonneg (sub_nonneg.2 h1) (sub_nonneg.2 h2)
    nlinarith [mul_self_pos.2 ha])
  have hzc : z = c := by
    have := (hs.root _ l r z hlr hz).1
    rcases mul_eq_zero.1 this with h | h
    · exact absurd h ha
    · linarith
  unfold findrootXY
  rw [k1]
  simp only [hb, hz, Option.map_some, hzc, k3]
  simp

/-! ### Non-vacuity -/

open Classical in
/-- Interpolation by one polynomial. -/
noncomputable def polyRep : Splrep := fun _ k xs ys =>
  if k < xs.length ∧ xs.length = ys.length ∧ xs.Pairwise (· < ·) then
    some ⟨k, fun n u => (derivative^[n] (Lagrange.interpolate (Finset.range xs.length) (fun i => xs.getD i 0) (fun i => ys.getD i 0))).eval u⟩
  else none

theorem inj_getD (xs : List ℝ) (h3 : xs.Pairwise (· < ·)) : Set.InjOn (fun i => xs.getD i 0) (Finset.range xs.length : Set ℕ) := by
  intro m hm n hn e
  simp only [Finset.coe_range, Set.mem_Iio] at hm hn
  simp only [List.getD_eq_getElem?_getD, List.getElem?_eq_getElem hm, List.getElem?_eq_getElem hn, Option.getD_some] at e
  rcases lt_trichotomy m n with h | h | h
  · exact absurd e (List.pairwise_iff_getElem.1 h3 m n hm hn h).ne
  · exact h
  · exact absurd e (List.pairwise_iff_getElem.1 h3 n m hn hm h).ne'

/-- What is assumed of `splrep` can be met. -/
theorem polyRep_good : GoodSplrep polyRep := by
  refine ⟨fun s k xs ys t h => ?_, fun s k xs ys h => ?_, fun k xs ys _ _ h1 h2 h3 => ?_, fun k xs ys t h p hp => ?_,
    fun k xs P t h hP n hn u => ?_⟩
  · unfold polyRep at h
    split_ifs at h
    cases h
    rfl
  · unfold polyRep
    rw [if_neg (by omega)]
  · unfold polyRep
    rw [if_pos ⟨h1, h2, h3⟩]
    exact ⟨_, rfl⟩
  · unfold polyRep at h
    split_ifs at h with hc
    cases h
    obtain ⟨i, hi, rfl⟩ := List.getElem_of_mem hp
    rw [List.length_zip] at hi
    have h1 : i < xs.length := by omega
    have h2 : i < ys.length := by omega
    have := Lagrange.eval_interpolate_at_node (s := Finset.range xs.length) (v := fun i => xs.getD i 0) (fun i => ys.getD i 0) (inj_getD xs hc.2.2)
      (Finset.mem_range.2 h1)
    simp only [List.getD_eq_getElem?_getD, List.getElem?_eq_getElem h1, List.getElem?_eq_getElem h2, Option.getD_some] at this
    simpa using this
  · unfold polyRep at h
    split_ifs at h with hc
    cases h
    have hdeg : P.degree < (xs.length : ℕ) := lt_of_le_of_lt Polynomial.degree_le_natDegree (by
      exact_mod_cast lt_of_le_of_lt hP hc.1)
    have hE := Lagrange.eq_interpolate_of_eval_eq (s := Finset.range xs.length) (v := fun i => xs.getD i 0)
      (r := fun i => (xs.map (fun u => P.eval u)).getD i 0) (f := P) (inj_getD xs hc.2.2) (by simpa using hdeg) (fun i hi => by
        have hi := Finset.mem_range.1 hi
        simp [List.getD_eq_getElem?_getD, hi])
    dsimp only
    rw [← hE]

/-- The hypotheses of `C183_exact` and `C183_findmin`: five unequally spaced places. -/
example : ([0, 1, 3, 4, 7] : List ℝ).Pairwise (· < ·) ∧ (3 < ([0, 1, 3, 4, 7] : List ℝ).length) ∧ ([0, 1, 3, 4, 7] : List ℝ).head? = some 0 ∧
    ([0, 1, 3, 4, 7] : List ℝ).getLast? = some 7 ∧ (X ^ 3 - 2 * X : ℝ[X]).natDegree ≤ 3 := by
  refine ⟨by norm_num, by decide, rfl, rfl, ?_⟩
  compute_degree

end Pwtools.SplD
