import Verif.Spec.Peaks
import Verif.Props.Signal
import Verif.Props.Smooth
import Verif.Props.Fit1D
import Mathlib.LinearAlgebra.Lagrange
import Mathlib.Analysis.Calculus.Deriv.Polynomial
import Mathlib.Topology.Algebra.Polynomial
/-!
# C145: positions of peaks
-/
namespace Pwtools.Peaks
open Spec Sig Fit

theorem slice_indices (n i sp : Nat) (h : sp ≤ i) (hi : i < n) :
    (⟨some ((i : Int) - sp), some ((i : Int) + 1 + sp), none⟩ : Nd.Sl).indices n = some (((i - sp : Nat) : Int), 1, min (i + sp + 1) n - (i - sp)) := by
  simp only [Nd.Sl.indices, Option.getD_none]
  norm_num
  split_ifs <;> omega

theorem pySlice_around {α : Type} (l : List α) (i sp : Nat) (h : sp ≤ i) (hi : i < l.length) :
    pySlice l ⟨some ((i : Int) - sp), some ((i : Int) + 1 + sp), none⟩ = around l i sp := by
  obtain ⟨h1, h2⟩ := pySlice_spec l _ _ _ _ (slice_indices l.length i sp h hi) (by intro q hq; omega)
  apply List.ext_getElem?
  intro q
  unfold around
  rw [List.getElem?_drop]
  by_cases hq : q < min (i + sp + 1) l.length - (i - sp)
  · rw [h2 q hq, List.getElem?_take, if_pos (by omega)]
    congr 1
    omega
  · rw [List.getElem?_eq_none (by omega), List.getElem?_eq_none (by rw [List.length_take]; omega)]

theorem pySlice_wrap {α : Type} (l : List α) (i sp : Nat) (h : i < sp) (hn : 2 * sp + 1 ≤ l.length) :
    pySlice l ⟨some ((i : Int) - sp), some ((i : Int) + 1 + sp), none⟩ = [] := by
  have : (⟨some ((i : Int) - sp), some ((i : Int) + 1 + sp), none⟩ : Nd.Sl).indices l.length = some ((i : Int) - sp + l.length, 1, 0) := by
    simp only [Nd.Sl.indices, Option.getD_none]
    norm_num
    split_ifs <;> omega
  unfold pySlice
  rw [this]; rfl

theorem around_get {α : Type} (l : List α) (i sp q : Nat) (h : sp ≤ i) (h1 : i - sp ≤ q) (h2 : q ≤ i + sp) : (around l i sp)[q - (i - sp)]? = l[q]? := by
  unfold around
  rw [List.getElem?_drop, List.getElem?_take, if_pos (by omega)]
  congr 1
  omega

theorem around_head {α : Type} (l : List α) (i sp : Nat) (h : sp ≤ i) (hi : i < l.length) : (around l i sp).head? = l[i - sp]? := by
  rw [List.head?_eq_getElem?, ← around_get l i sp (i - sp) h (by omega) (by omega), Nat.sub_self]

theorem around_length {α : Type} (l : List α) (i sp : Nat) : (around l i sp).length = min (i + sp + 1) l.length - (i - sp) := by
  unfold around; rw [List.length_drop, List.length_take]

theorem around_last {α : Type} (l : List α) (i sp : Nat) (h : sp ≤ i) (hi : i < l.length) : (around l i sp).getLast? = l[min (i + sp) (l.length - 1)]? := by
  rw [List.getLast?_eq_getElem?, around_length, ← around_get l i sp (min (i + sp) (l.length - 1)) h (by omega) (by omega)]
  congr 1
  omega

theorem mapM_get {α β : Type} (f : α → Option β) (l : List α) (r : List β) (h : l.mapM f = some r) :
    r.length = l.length ∧ ∀ (j : Nat) a b, l[j]? = some a → r[j]? = some b → f a = some b := by
  induction l generalizing r with
  | nil =>
    simp at h
    subst h
    simp
  | cons a l ih =>
    simp only [List.mapM_cons, Option.bind_eq_bind, Option.bind_eq_some_iff, Option.pure_def, Option.some.injEq] at h
    obtain ⟨b, h1, r', h2, rfl⟩ := h
    obtain ⟨e, g⟩ := ih r' h2
    refine ⟨by simp [e], fun j a' b' ha hb => ?_⟩
    cases j with
    | zero => simp at ha hb; rw [← ha, ← hb, h1]
    | succ j => exact g j a' b' (by simpa using ha) (by simpa using hb)

theorem findPeaks_isPeak {y : List ℝ} {ymin : Option ℝ} {idx : List Nat} (h : findPeaks y ymin = some idx) : ∀ i ∈ idx, IsPeak y i := by
  by_cases hy : y = []
  · subst hy
    unfold findPeaks at h
    split at h
    · cases h
    · simp [Sig.diff] at h
      subst h
      simp
  · obtain ⟨p, h1, -, h3⟩ := mem_findPeaks y ymin hy
    rw [h] at h1
    cases h1
    exact fun i hi => ((h3 i).1 hi).1

/-- A curve with increasing slope, zero at `r`, does not go down to the right of `r` and not up to the left. -/
theorem slope_sides (f df : ℝ → ℝ) (a b r : ℝ) (hd : ∀ x, HasDerivAt f (df x) x) (hm : MonotoneOn df (Set.Icc a b)) (hr : a ≤ r ∧ r ≤ b) (h0 : df r = 0) (u v : ℝ) (huv : u < v)
    (hu : a ≤ u) (hv : v ≤ b) : (r ≤ u → f u ≤ f v) ∧ (v ≤ r → f v ≤ f u) := by
  obtain ⟨c, hc, e⟩ := exists_hasDerivAt_eq_slope f df huv (fun y _ => (hd y).continuousAt.continuousWithinAt) (fun y _ => hd y)
  have hp : 0 < v - u := by linarith
  have hci : c ∈ Set.Icc a b := ⟨by linarith [hc.1], by linarith [hc.2]⟩
  constructor
  · intro h
    have : 0 ≤ df c := by rw [← h0]; exact hm ⟨hr.1, hr.2⟩ hci (by linarith [hc.1])
    rw [e] at this
    have := mul_nonneg this hp.le
    rw [div_mul_cancel₀ _ hp.ne'] at this
    linarith
  · intro h
    have : df c ≤ 0 := by rw [← h0]; exact hm hci ⟨hr.1, hr.2⟩ (by linarith [hc.2])
    rw [e] at this
    have := mul_le_mul_of_nonneg_right this hp.le
    rw [div_mul_cancel₀ _ hp.ne', zero_mul] at this
    linarith

/-- **C145** (part) With an x axis `find_peaks` returns one position for each peak, in the same order. Each lies in the interval of the points around its peak, and there the spline through these points (negative
values) has slope zero. If the spline is convex there, it is its minimum, and it lies between the two neighbours of the peak. Missing: peaks closer than `spread` to the first point, for which the function raises
(`C145_left_edge`). -/
theorem C145_positions_partial (k : Nat) (mk : MkSpline) (hk : GoodSpline k mk) (s : Solvers) (hs : GoodBrent s) (x y : List ℝ) (hl : x.length = y.length) (hx : x.Pairwise (· < ·)) (spread : Nat)
    (hsp : 1 ≤ spread) (ymin : Option ℝ) (idx : List Nat) (pos : Option (List ℝ)) (h : findPeaksX mk s y (some x) spread ymin = some (idx, pos)) (hedge : ∀ i ∈ idx, spread ≤ i) :
    findPeaks y ymin = some idx ∧ ∃ p, pos = some p ∧ p.length = idx.length ∧ ∀ (j i : Nat) (r : ℝ), idx[j]? = some i → p[j]? = some r →
      ∃ fit a b, mk (around x i spread) ((around y i spread).map fun v => -v) = some fit ∧ x[i - spread]? = some a ∧ x[min (i + spread) (x.length - 1)]? = some b ∧
        a ≤ r ∧ r ≤ b ∧ fit.df r = 0 ∧
        (MonotoneOn fit.df (Set.Icc a b) → (∀ z, a ≤ z → z ≤ b → fit.f r ≤ fit.f z) ∧ ∃ u v, x[i - 1]? = some u ∧ x[i + 1]? = some v ∧ u < r ∧ r < v) := by
  unfold findPeaksX at h
  cases hp : findPeaks y ymin with
  | none => rw [hp] at h; cases h
  | some idx0 =>
    rw [hp] at h
    simp only at h
    cases hm : idx0.mapM (peakPos mk s x y spread) with
    | none => rw [hm] at h; cases h
    | some p =>
      rw [hm] at h
      simp only [Option.some.injEq, Prod.mk.injEq] at h
      obtain ⟨rfl, rfl⟩ := h
      obtain ⟨e, g⟩ := mapM_get _ _ _ hm
      refine ⟨rfl, p, rfl, e, fun j i r hi hr => ?_⟩
      have hi' := List.mem_of_getElem? hi
      have hpk := findPeaks_isPeak hp i hi'
      have hsi := hedge i hi'
      obtain ⟨l, c, q, h1, yl, yc, yq, hlc, hqc⟩ := hpk
      have hin : i + 1 < y.length := (List.getElem?_eq_some_iff.1 yq).1
      have hpos := g j i r hi hr
      unfold peakPos at hpos
      simp only at hpos
      rw [pySlice_around x i spread hsi (by omega), pySlice_around y i spread hsi (by omega)] at hpos
      cases hf : mk (around x i spread) ((around y i spread).map fun v => -v) with
      | none => rw [hf] at hpos; cases hpos
      | some fit =>
        rw [hf] at hpos
        simp only at hpos
        have ha : x[i - spread]? = some (x[i - spread]'(by omega)) := List.getElem?_eq_getElem _
        have hb : x[min (i + spread) (x.length - 1)]? = some (x[min (i + spread) (x.length - 1)]'(by omega)) := List.getElem?_eq_getElem _
        generalize x[i - spread]'(by omega) = a at ha
        generalize x[min (i + spread) (x.length - 1)]'(by omega) = b at hb
        have hmono : ∀ (m n : Nat) (u v : ℝ), x[m]? = some u → x[n]? = some v → m < n → u < v := by
          intro m n u v hu hv hmn
          obtain ⟨h1, rfl⟩ := List.getElem?_eq_some_iff.1 hu
          obtain ⟨h2, rfl⟩ := List.getElem?_eq_some_iff.1 hv
          exact List.pairwise_iff_getElem.1 hx m n h1 h2 hmn
        have hab : a < b := hmono _ _ _ _ ha hb (by omega)
        have hbr : bracket fit none = some (a, b) := by
          unfold bracket
          rw [(hk.data _ _ _ hf).1, around_head x i spread hsi (by omega), around_last x i spread hsi (by omega), ha, hb]
        have hroot := hpos
        unfold getMin at hroot
        rw [findroot_bracket s fit _ none a b hbr] at hroot
        obtain ⟨h0, har, hrb⟩ := hs.root _ a b r hab.le hroot
        refine ⟨fit, a, b, rfl, ha, hb, har, hrb, h0, fun hmon => ⟨?_, ?_⟩⟩
        · exact (C109_min_partial s hs fit none a b hbr hab.le (hk.smooth _ _ _ hf).1 hmon r hpos).2.2
        · have hu : x[i - 1]? = some (x[i - 1]'(by omega)) := List.getElem?_eq_getElem _
          have hw : x[i]? = some (x[i]'(by omega)) := List.getElem?_eq_getElem _
          have hv : x[i + 1]? = some (x[i + 1]'(by omega)) := List.getElem?_eq_getElem _
          generalize x[i - 1]'(by omega) = u at hu
          generalize x[i]'(by omega) = w at hw
          generalize x[i + 1]'(by omega) = v at hv
          have fit_at : ∀ (q : Nat) (t z : ℝ), i - spread ≤ q → q ≤ i + spread → x[q]? = some t → y[q]? = some z → fit.f t = -z := by
            intro q t z q1 q2 ht hz
            apply hk.interpolates _ _ _ hf (q - (i - spread)) t (-z)
            · rw [around_get x i spread q hsi q1 q2, ht]
            · rw [List.getElem?_map, around_get y i spread q hsi q1 q2, hz]; rfl
          have fu := fit_at (i - 1) u l (by omega) (by omega) hu yl
          have fw := fit_at i w c (by omega) (by omega) hw yc
          have fv := fit_at (i + 1) v q (by omega) (by omega) hv yq
          have huw := hmono _ _ _ _ hu hw (by omega)
          have hwv := hmono _ _ _ _ hw hv (by omega)
          have hau : a ≤ u := by
            rcases Nat.lt_or_ge (i - spread) (i - 1) with h | h
            · exact (hmono _ _ _ _ ha hu h).le
            · have : i - spread = i - 1 := by omega
              rw [this, hu] at ha
              cases ha; exact le_rfl
          have hvb : v ≤ b := by
            rcases Nat.lt_or_ge (i + 1) (min (i + spread) (x.length - 1)) with h | h
            · exact (hmono _ _ _ _ hv hb h).le
            · have : i + 1 = min (i + spread) (x.length - 1) := by omega
              rw [← this, hv] at hb
              cases hb; exact le_rfl
          refine ⟨u, v, hu, hv, ?_, ?_⟩
          · by_contra hc
            have := (slope_sides fit.f fit.df a b r (hk.smooth _ _ _ hf).1 hmon ⟨har, hrb⟩ h0 u w huw hau (by linarith)).1 (not_lt.1 hc)
            rw [fu, fw] at this
            linarith
          · by_contra hc
            have := (slope_sides fit.f fit.df a b r (hk.smooth _ _ _ hf).1 hmon ⟨har, hrb⟩ h0 w v hwv (by linarith) hvb).2 (not_lt.1 hc)
            rw [fv, fw] at this
            linarith

theorem mapM_some {α β : Type} (f : α → Option β) (l : List α) (h : ∀ a ∈ l, ∃ b, f a = some b) : ∃ r, l.mapM f = some r := by
  induction l with
  | nil => exact ⟨[], rfl⟩
  | cons a l ih =>
    obtain ⟨b, hb⟩ := h a (by simp)
    obtain ⟨r, hr⟩ := ih fun a' h' => h a' (by simp [h'])
    exact ⟨b :: r, by simp [hb, hr]⟩

theorem mapM_none {α β : Type} (f : α → Option β) (l : List α) (a : α) (ha : a ∈ l) (h : f a = none) : l.mapM f = none := by
  cases hm : l.mapM f with
  | none => rfl
  | some r =>
    exfalso
    obtain ⟨e, g⟩ := mapM_get f l r hm
    obtain ⟨j, hj, rfl⟩ := List.getElem_of_mem ha
    have := g j l[j] (r[j]'(by omega)) (List.getElem?_eq_getElem hj) (List.getElem?_eq_getElem _)
    rw [h] at this
    cases this

/-- **C145** The positions are found if each peak has `spread` points before it, more than `k` points around it, and the spline through them (negative values) has negative slope at the first and positive slope at
the last of these points. -/
theorem C145_found (k : Nat) (mk : MkSpline) (hk : GoodSpline k mk) (s : Solvers) (hs : GoodBrent s) (x y : List ℝ) (hl : x.length = y.length) (hx : x.Pairwise (· < ·)) (spread : Nat)
    (hsp : 1 ≤ spread) (ymin : Option ℝ) (idx : List Nat) (hp : findPeaks y ymin = some idx)
    (hedge : ∀ i ∈ idx, spread ≤ i ∧ k + (i - spread) < min (i + spread + 1) x.length)
    (hslope : ∀ i ∈ idx, ∀ fit a b, mk (around x i spread) ((around y i spread).map fun v => -v) = some fit → x[i - spread]? = some a → x[min (i + spread) (x.length - 1)]? = some b →
      fit.df a ≤ 0 ∧ 0 ≤ fit.df b) :
    ∃ p, findPeaksX mk s y (some x) spread ymin = some (idx, some p) := by
  have : ∃ r, idx.mapM (peakPos mk s x y spread) = some r := by
    apply mapM_some
    intro i hi
    obtain ⟨h1, h2⟩ := hedge i hi
    obtain ⟨l, c, q, _, yl, yc, yq, _, _⟩ := findPeaks_isPeak hp i hi
    have hin : i + 1 < y.length := (List.getElem?_eq_some_iff.1 yq).1
    unfold peakPos
    simp only
    rw [pySlice_around x i spread h1 (by omega), pySlice_around y i spread h1 (by omega)]
    obtain ⟨fit, hf⟩ := hk.total (around x i spread) ((around y i spread).map fun v => -v) (by rw [around_length]; omega) (by rw [List.length_map, around_length, around_length, hl])
      (by unfold around; exact (hx.sublist (List.take_sublist _ _)).sublist (List.drop_sublist _ _))
    rw [hf]
    simp only
    have ha : x[i - spread]? = some (x[i - spread]'(by omega)) := List.getElem?_eq_getElem _
    have hb : x[min (i + spread) (x.length - 1)]? = some (x[min (i + spread) (x.length - 1)]'(by omega)) := List.getElem?_eq_getElem _
    have hab : x[i - spread]'(by omega) < x[min (i + spread) (x.length - 1)]'(by omega) := List.pairwise_iff_getElem.1 hx _ _ _ _ (by omega)
    generalize x[i - spread]'(by omega) = a at ha hab
    generalize x[min (i + spread) (x.length - 1)]'(by omega) = b at hb hab
    have hbr : bracket fit none = some (a, b) := by
      unfold bracket
      rw [(hk.data _ _ _ hf).1, around_head x i spread h1 (by omega), around_last x i spread h1 (by omega), ha, hb]
    unfold getMin
    rw [findroot_bracket s fit _ none a b hbr]
    obtain ⟨q1, q2⟩ := hslope i hi fit a b hf ha hb
    exact hs.total _ a b hab.le (hk.smooth _ _ _ hf).2.continuousOn (mul_nonpos_of_nonpos_of_nonneg q1 q2)
  obtain ⟨r, hr⟩ := this
  exact ⟨r, by unfold findPeaksX; rw [hp]; simp only; rw [hr]⟩

/-- **C145** (violated) With an x axis `find_peaks` raises if there is a peak closer than `spread` to the first point (and at least `2 spread + 1` points): the negative start of the slice counts from the end of
the array. Peaks near the last point do not raise (`C145_found`). -/
theorem C145_left_edge (k : Nat) (mk : MkSpline) (hk : GoodSpline k mk) (s : Solvers) (x y : List ℝ) (hl : x.length = y.length) (spread : Nat) (hn : 2 * spread + 1 ≤ x.length) (ymin : Option ℝ)
    (idx : List Nat) (hp : findPeaks y ymin = some idx) (i : Nat) (hi : i ∈ idx) (hsi : i < spread) : findPeaksX mk s y (some x) spread ymin = none := by
  have : peakPos mk s x y spread i = none := by
    unfold peakPos
    simp only
    rw [pySlice_wrap x i spread hsi hn, pySlice_wrap y i spread hsi (by omega), hk.short _ _ (by simp)]
  unfold findPeaksX
  rw [hp]
  simp only
  rw [mapM_none _ _ i hi this]

/-- **C145** Without an x axis, the indices of the peaks. -/
theorem C145_no_axis (mk : MkSpline) (s : Solvers) (y : List ℝ) (spread : Nat) (ymin : Option ℝ) (idx : List Nat) (hp : findPeaks y ymin = some idx) :
    findPeaksX mk s y none spread ymin = some (idx, none) := by
  unfold findPeaksX; rw [hp]

/-! ## Non-vacuity -/

/-- Interpolation by one polynomial through all points (a spline through `k + 1` points is this polynomial). -/
noncomputable def lagrange (k : Nat) : MkSpline := fun xs ys =>
  open Classical in
  if k < xs.length ∧ xs.length = ys.length ∧ xs.Pairwise (· < ·) then
    let P := Lagrange.interpolate (Finset.range xs.length) (fun i => xs.getD i 0) (fun i => ys.getD i 0)
    some ⟨xs, ys, fun t => P.eval t, fun t => P.derivative.eval t⟩
  else none

theorem lagrange_good (k : Nat) : GoodSpline k (lagrange k) := by
  constructor
  · intro xs ys h
    unfold lagrange
    rw [if_neg (by omega)]
  · intro xs ys fit h
    unfold lagrange at h
    split_ifs at h
    cases h
    exact ⟨rfl, rfl⟩
  · intro xs ys fit h i u v hu hv
    unfold lagrange at h
    split_ifs at h with hc
    cases h
    have hi : i < xs.length := (List.getElem?_eq_some_iff.1 hu).1
    have hinj : Set.InjOn (fun i => xs.getD i 0) (Finset.range xs.length : Set ℕ) := by
      intro m hm n hn e
      simp only [Finset.coe_range, Set.mem_Iio] at hm hn
      simp only [List.getD_eq_getElem?_getD, List.getElem?_eq_getElem hm, List.getElem?_eq_getElem hn, Option.getD_some] at e
      rcases lt_trichotomy m n with h | h | h
      · exact absurd e (List.pairwise_iff_getElem.1 hc.2.2 m n hm hn h).ne
      · exact h
      · exact absurd e (List.pairwise_iff_getElem.1 hc.2.2 n m hn hm h).ne'
    have := Lagrange.eval_interpolate_at_node (r := fun i => ys.getD i 0) hinj (Finset.mem_range.2 hi)
    simp only [List.getD_eq_getElem?_getD, hu, hv, Option.getD_some] at this
    exact this
  · intro xs ys fit h
    unfold lagrange at h
    split_ifs at h
    cases h
    exact ⟨fun t => Polynomial.hasDerivAt _ t, Polynomial.continuous _⟩
  · intro xs ys h1 h2 h3
    unfold lagrange
    rw [if_pos ⟨h1, h2, h3⟩]
    exact ⟨_, rfl⟩

theorem sample_peaks : findPeaks [(-4 : ℝ), -1, 0, -1, -4] none = some [2] := by
  unfold findPeaks; rw [if_neg (by simp)]; norm_num [Sig.diff, List.range_succ, listMin]

theorem lagrange_eq (k : Nat) (xs ys : List ℝ) (f : Polynomial ℝ) (h1 : k < xs.length) (h2 : xs.length = ys.length) (h3 : xs.Pairwise (· < ·)) (hd : f.degree < (xs.length : ℕ))
    (he : ∀ i, i < xs.length → f.eval (xs.getD i 0) = ys.getD i 0) : lagrange k xs ys = some ⟨xs, ys, fun t => f.eval t, fun t => f.derivative.eval t⟩ := by
  have hinj : Set.InjOn (fun i => xs.getD i 0) (Finset.range xs.length : Set ℕ) := by
    intro m hm n hn e
    simp only [Finset.coe_range, Set.mem_Iio] at hm hn
    simp only [List.getD_eq_getElem?_getD, List.getElem?_eq_getElem hm, List.getElem?_eq_getElem hn, Option.getD_some] at e
    rcases lt_trichotomy m n with h | h | h
    · exact absurd e (List.pairwise_iff_getElem.1 h3 m n hm hn h).ne
    · exact h
    · exact absurd e (List.pairwise_iff_getElem.1 h3 n m hn hm h).ne'
  have hP := Lagrange.eq_interpolate_of_eval_eq (s := Finset.range xs.length) (v := fun i => xs.getD i 0) (r := fun i => ys.getD i 0) (f := f) hinj (by simpa using hd)
    (fun i hi => he i (Finset.mem_range.1 hi))
  unfold lagrange
  rw [if_pos ⟨h1, h2, h3⟩]
  simp only
  rw [← hP]

theorem sample_fit : ∃ fit, lagrange 3 (around [0, 1, 2, 3, 4] 2 2) ((around [(-4 : ℝ), -1, 0, -1, -4] 2 2).map fun v => -v) = some fit ∧ ∀ t, fit.df t = 2 * (t - 2) := by
  refine ⟨_, lagrange_eq 3 _ _ ((Polynomial.X - Polynomial.C 2) ^ 2) (by simp [around]) rfl (by norm_num [around]) ?_ ?_, fun t => ?_⟩
  · refine lt_of_le_of_lt (Polynomial.degree_pow_le _ _) ?_
    rw [Polynomial.degree_X_sub_C]
    norm_num [around]
  · intro i hi
    have hi : i < 5 := hi
    interval_cases i <;> norm_num [around]
  · simp [Polynomial.derivative_pow]

/-- Non-vacuity of `C145_found` and `C145_positions_partial`: a parabola. -/
example : ∃ s p, GoodBrent s ∧ findPeaksX (lagrange 3) s [-4, -1, 0, -1, -4] (some [0, 1, 2, 3, 4]) 2 none = some ([2], some p) := by
  obtain ⟨s, hs⟩ := goodBrent_exists
  obtain ⟨p, hp⟩ := C145_found 3 (lagrange 3) (lagrange_good 3) s hs [0, 1, 2, 3, 4] [-4, -1, 0, -1, -4] rfl (by norm_num) 2 (by norm_num) none [2] sample_peaks
    (by simp)
    (by
      intro i hi fit a b hf ha hb
      simp only [List.mem_singleton] at hi
      subst hi
      obtain ⟨fit', hf', hd⟩ := sample_fit
      rw [hf'] at hf
      cases hf
      simp at ha hb
      rw [hd, hd, ← ha, ← hb]
      norm_num)
  exact ⟨s, p, hs, hp⟩

/-- The spline of the example is convex, as assumed at the end of `C145_positions_partial`. -/
example : ∃ fit, lagrange 3 (around [0, 1, 2, 3, 4] 2 2) ((around [(-4 : ℝ), -1, 0, -1, -4] 2 2).map fun v => -v) = some fit ∧ MonotoneOn fit.df (Set.Icc 0 4) := by
  obtain ⟨fit, h, hd⟩ := sample_fit
  exact ⟨fit, h, fun u _ v _ huv => by rw [hd, hd]; linarith⟩

/-- **C145** (violated) A peak at the second of six points is found, but with the default `spread` of 2 and an x axis the function raises. -/
theorem C145_edge_counterexample (mk : MkSpline) (hk : GoodSpline 3 mk) (s : Solvers) :
    findPeaks [(0 : ℝ), 1, 0, 0, 0, 0] none = some [1] ∧ findPeaksX mk s [0, 1, 0, 0, 0, 0] (some [0, 1, 2, 3, 4, 5]) 2 none = none := by
  have h : findPeaks [(0 : ℝ), 1, 0, 0, 0, 0] none = some [1] := by unfold findPeaks; rw [if_neg (by simp)]; norm_num [Sig.diff, List.range_succ, listMin]
  exact ⟨h, C145_left_edge 3 mk hk s [0, 1, 2, 3, 4, 5] [0, 1, 0, 0, 0, 0] (by simp) 2 (by norm_num) none [1] h 1 (by simp) (by norm_num)⟩

/-- **C145** (violated) With more points around each peak (`2 spread + 1 > n`) a peak near the first point may get the position of another peak. Here the peaks are at `x = 1` and `x = 4`, but the position for the
first one is at least 3. -/
theorem C145_other_counterexample (mk : MkSpline) (hk : GoodSpline 2 mk) (s : Solvers) (hs : GoodBrent s) (idx : List Nat) (p : List ℝ)
    (h : findPeaksX mk s [0, 1, 0, 0, 1, 0] (some [0, 1, 2, 3, 4, 5]) 4 none = some (idx, some p)) : idx = [1, 4] ∧ ∃ r, p[0]? = some r ∧ 3 ≤ r := by
  have hf : findPeaks [(0 : ℝ), 1, 0, 0, 1, 0] none = some [1, 4] := by unfold findPeaks; rw [if_neg (by simp)]; norm_num [Sig.diff, List.range_succ, listMin]
  unfold findPeaksX at h
  rw [hf] at h
  simp only at h
  cases hm : [1, 4].mapM (peakPos mk s [0, 1, 2, 3, 4, 5] [0, 1, 0, 0, 1, 0] 4) with
  | none => rw [hm] at h; cases h
  | some q =>
    rw [hm] at h
    simp only [Option.some.injEq, Prod.mk.injEq] at h
    obtain ⟨rfl, rfl⟩ := h
    obtain ⟨e, g⟩ := mapM_get _ _ _ hm
    have h0 : q[0]? = some (q[0]'(by rw [e]; simp)) := List.getElem?_eq_getElem _
    refine ⟨rfl, _, h0, ?_⟩
    have := g 0 1 _ rfl h0
    generalize q[0]'(by rw [e]; simp) = r at this
    unfold peakPos at this
    have hx : pySlice [(0 : ℝ), 1, 2, 3, 4, 5] ⟨some (((1 : Nat) : Int) - (4 : Nat)), some (((1 : Nat) : Int) + 1 + (4 : Nat)), none⟩ = [3, 4, 5] := rfl
    simp only [hx] at this
    split at this
    · cases this
    · rename_i fit hfit
      have hbr : bracket fit none = some (3, 5) := by
        unfold bracket
        rw [(hk.data _ _ _ hfit).1]; rfl
      unfold getMin at this
      rw [findroot_bracket s fit _ none 3 5 hbr] at this
      exact (hs.root _ 3 5 r (by norm_num) this).2.1

/-- Non-vacuity of `C145_other_counterexample`: there is a result. -/
example : ∃ s idx p, GoodBrent s ∧ findPeaksX (lagrange 2) s [0, 1, 0, 0, 1, 0] (some [0, 1, 2, 3, 4, 5]) 4 none = some (idx, some p) := by
  obtain ⟨s, hs⟩ := goodBrent_exists
  have hf : findPeaks [(0 : ℝ), 1, 0, 0, 1, 0] none = some [1, 4] := by unfold findPeaks; rw [if_neg (by simp)]; norm_num [Sig.diff, List.range_succ, listMin]
  have h1 : lagrange 2 [3, 4, 5] [-0, -1, -0] = some ⟨[3, 4, 5], [-0, -1, -0], _, _⟩ :=
    lagrange_eq 2 [3, 4, 5] [-0, -1, -0] (Polynomial.C 15 + Polynomial.C (-8) * Polynomial.X + Polynomial.X ^ 2) (by simp) rfl (by norm_num)
      (by
        refine lt_of_le_of_lt (b := (2 : WithBot ℕ)) (by compute_degree) ?_
        norm_num)
      (by
        intro i hi
        have hi : i < 3 := hi
        interval_cases i <;> norm_num)
  have h4 : lagrange 2 [0, 1, 2, 3, 4, 5] [-0, -1, -0, -0, -1, -0] = some ⟨[0, 1, 2, 3, 4, 5], [-0, -1, -0, -0, -1, -0], _, _⟩ :=
    lagrange_eq 2 _ _ (Polynomial.C (-15/4) * Polynomial.X + Polynomial.C (31/8) * Polynomial.X ^ 2 + Polynomial.C (-5/4) * Polynomial.X ^ 3 + Polynomial.C (1/8) * Polynomial.X ^ 4) (by simp) rfl
      (by norm_num)
      (by
        refine lt_of_le_of_lt (b := (4 : WithBot ℕ)) (by compute_degree) ?_
        norm_num)
      (by
        intro i hi
        have hi : i < 6 := hi
        interval_cases i <;> norm_num)
  have e1 : ∃ r, peakPos (lagrange 2) s [0, 1, 2, 3, 4, 5] [0, 1, 0, 0, 1, 0] 4 1 = some r := by
    have hx : pySlice [(0 : ℝ), 1, 2, 3, 4, 5] ⟨some (((1 : Nat) : Int) - (4 : Nat)), some (((1 : Nat) : Int) + 1 + (4 : Nat)), none⟩ = [3, 4, 5] := rfl
    have hy : (pySlice [(0 : ℝ), 1, 0, 0, 1, 0] ⟨some (((1 : Nat) : Int) - (4 : Nat)), some (((1 : Nat) : Int) + 1 + (4 : Nat)), none⟩).map (fun v => -v) = [-0, -1, -0] := rfl
    unfold peakPos
    simp only [hx, hy, h1]
    exact hs.total _ 3 5 (by norm_num) (Polynomial.continuous _).continuousOn (by norm_num)
  have e4 : ∃ r, peakPos (lagrange 2) s [0, 1, 2, 3, 4, 5] [0, 1, 0, 0, 1, 0] 4 4 = some r := by
    have hx : pySlice [(0 : ℝ), 1, 2, 3, 4, 5] ⟨some (((4 : Nat) : Int) - (4 : Nat)), some (((4 : Nat) : Int) + 1 + (4 : Nat)), none⟩ = [0, 1, 2, 3, 4, 5] := rfl
    have hy : (pySlice [(0 : ℝ), 1, 0, 0, 1, 0] ⟨some (((4 : Nat) : Int) - (4 : Nat)), some (((4 : Nat) : Int) + 1 + (4 : Nat)), none⟩).map (fun v => -v) = [-0, -1, -0, -0, -1, -0] := rfl
    unfold peakPos
    simp only [hx, hy, h4]
    exact hs.total _ 0 5 (by norm_num) (Polynomial.continuous _).continuousOn (by norm_num [Polynomial.derivative_pow])
  obtain ⟨r1, h1⟩ := e1
  obtain ⟨r4, h4⟩ := e4
  exact ⟨s, [1, 4], [r1, r4], hs, by unfold findPeaksX; rw [hf]; simp [h1, h4]⟩

end Pwtools.Peaks
