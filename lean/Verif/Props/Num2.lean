import Verif.Model.Num
import Verif.Spec.Num
import Verif.Props.Comb
import Verif.Props.NdArray
import Mathlib.Tactic.Ring
import Mathlib.Tactic.FieldSimp
import Mathlib.Tactic.Linarith
import Mathlib.LinearAlgebra.Matrix.Determinant.Basic
/-!
# C26, C27, C29, C30, C31, C77
-/
namespace Pwtools.Num
open Spec Nd

section fld
variable {K : Type} [Field K] [LinearOrder K]

/-! ### match_mask -/

/-- **C26**. The mask has one entry per element, it is set exactly for the elements which equal one
of the values (`eps=None`) or are closer than `eps` to one of them; the index list contains exactly
the marked positions, each once, in increasing order. -/
theorem C26_match_mask (arr values : List K) (eps : Option K) :
    let mask := (matchMask arr values eps).1
    let idx := (matchMask arr values eps).2
    mask.length = arr.length ∧
    (∀ (i : Nat) a, arr[i]? = some a →
      (mask[i]? = some true ↔ ∃ v ∈ values, match eps with | none => a = v | some e => |a - v| < e)) ∧
    (∀ i : Nat, i ∈ idx ↔ mask[i]? = some true) ∧ idx.Pairwise (· < ·) := by
  intro mask idx
  have hlen : mask.length = arr.length := by simp [mask, matchMask]
  have hmem : ∀ i : Nat, i ∈ idx ↔ ∃ v ∈ values, ∃ a, arr[i]? = some a ∧
      (match eps with | none => a = v | some e => |a - v| < e) := by
    intro i
    simp only [idx, matchMask, Finset.mem_sort, List.mem_toFinset, List.mem_flatMap, List.mem_filter, List.mem_range]
    constructor
    · rintro ⟨v, hv, hi, h⟩
      refine ⟨v, hv, arr[i], List.getElem?_eq_getElem hi, ?_⟩
      rw [List.getElem?_eq_getElem hi] at h
      rcases eps with _ | e
      · simpa [sub_eq_zero] using h
      · simpa using h
    · rintro ⟨v, hv, a, ha, h⟩
      have hi := (List.getElem?_eq_some_iff.1 ha).1
      refine ⟨v, hv, hi, ?_⟩
      rw [ha]
      rcases eps with _ | e
      · simpa [sub_eq_zero] using h
      · simpa using h
  have hmask : ∀ i : Nat, i < arr.length → (mask[i]? = some true ↔ i ∈ idx) := by
    intro i hi
    simp only [mask, matchMask]
    rw [List.getElem?_map, List.getElem?_range hi]
    simp only [Option.map_some, Option.some.injEq, decide_eq_true_eq]
    rfl
  refine ⟨hlen, ?_, ?_, ?_⟩
  · intro i a ha
    rw [hmask i (List.getElem?_eq_some_iff.1 ha).1, hmem]
    constructor
    · rintro ⟨v, hv, a', ha', h⟩
      rw [ha] at ha'; cases ha'
      exact ⟨v, hv, h⟩
    · rintro ⟨v, hv, h⟩
      exact ⟨v, hv, a, ha, h⟩
  · intro i
    by_cases hi : i < arr.length
    · exact (hmask i hi).symm
    · constructor
      · intro h
        obtain ⟨v, _, a, ha, _⟩ := (hmem i).1 h
        exact absurd (List.getElem?_eq_some_iff.1 ha).1 hi
      · intro h
        have := (List.getElem?_eq_some_iff.1 h).1
        omega
  · have := Finset.sortedLT_sort (values.flatMap (fun v => (List.range arr.length).filter (fun i =>
      match arr[i]? with | some a => (match eps with | none => decide (a - v = 0) | some e => decide (|a - v| < e)) | none => false))).toFinset
    exact this.pairwise

/-- Non-vacuity: 3 of `[1, 3, 5]` is closer than 1/2 to 13/4. -/
example : (matchMask ([1, 3, 5] : List ℚ) [13/4, 7] (some (1/2))).1[1]? = some true := by
  obtain ⟨_, h, _⟩ := C26_match_mask ([1, 3, 5] : List ℚ) [13/4, 7] (some (1/2))
  exact (h 1 3 rfl).2 ⟨13/4, by simp, by norm_num [abs_lt]⟩

/-! ### round_up_next_multiple, order_similar -/

/-- **C27** (round up). For `mult > 0` the result is the smallest multiple not below `x`. -/
theorem C27_round_up (x mult : Int) (h : 0 < mult) :
    ∃ r, roundUp x mult = some r ∧ mult ∣ r ∧ x ≤ r ∧ ∀ m, mult ∣ m → x ≤ m → r ≤ m := by
  unfold roundUp
  rw [if_neg (by omega)]
  have hf : Int.fmod x mult = x % mult := Int.fmod_eq_emod_of_nonneg x (by omega)
  have h1 := Int.emod_nonneg x (show mult ≠ 0 by omega)
  have h2 := Int.emod_lt_of_pos x h
  have h3 : mult ∣ x - x % mult := Int.dvd_self_sub_emod
  simp only [hf]
  split
  · rename_i hr
    refine ⟨_, rfl, Int.dvd_add h3 (dvd_refl _), by omega, ?_⟩
    intro m hm hxm
    obtain ⟨k, hk⟩ := hm
    obtain ⟨q, hq⟩ := h3
    rw [hq, hk]
    have : q < k := by
      by_contra hc
      have : mult * k ≤ mult * q := Int.mul_le_mul_of_nonneg_left (by omega) (by omega)
      omega
    have : mult * (q + 1) ≤ mult * k := Int.mul_le_mul_of_nonneg_left (by omega) (by omega)
    rw [Int.mul_add] at this
    omega
  · rename_i hr
    have : x % mult = 0 := by omega
    refine ⟨x, rfl, Int.dvd_of_emod_eq_zero this, le_refl _, fun m _ hm => hm⟩

/-- **C27** (round up, other arguments). Zero raises; a negative `mult` returns `x` as it is. -/
theorem C27_round_up_other (x mult : Int) :
    roundUp x 0 = none ∧ (mult < 0 → roundUp x mult = some x) := by
  refine ⟨rfl, ?_⟩
  intro h
  unfold roundUp
  rw [if_neg (by omega)]
  have : Int.fmod x mult ≤ 0 := by
    rw [Int.fmod_eq_emod]
    have h1 := Int.emod_lt_abs x (show mult ≠ 0 by omega)
    rw [abs_of_neg h] at h1
    split
    · rename_i hd
      have := Int.emod_eq_zero_of_dvd (hd.resolve_left (by omega))
      omega
    · omega
  simp only
  rw [if_neg (by omega)]

theorem argmin_lt (l : List K) (h : l ≠ []) : argmin l < l.length := by
  induction l with
  | nil => exact absurd rfl h
  | cons x l ih =>
    cases l with
    | nil => simp [argmin]
    | cons y rest =>
      rw [argmin]
      split
      · simp
      · have := ih (by simp)
        simp only [List.length_cons] at *
        omega

theorem argmin_min (l : List K) (i : Nat) (hi : i < l.length) : l.getD (argmin l) 0 ≤ l.getD i 0 := by
  induction l generalizing i with
  | nil => simp at hi
  | cons x l ih =>
    cases l with
    | nil =>
      have : i = 0 := by simpa using hi
      subst this; simp [argmin]
    | cons y rest =>
      rw [argmin]
      split
      · rename_i hle
        cases i with
        | zero => simp
        | succ i =>
          have := ih i (by simpa using hi)
          rw [List.getD_cons_zero, List.getD_cons_succ]
          exact le_trans hle this
      · rename_i hle
        rw [List.getD_cons_succ]
        cases i with
        | zero => rw [List.getD_cons_zero]; exact le_of_lt (not_le.1 hle)
        | succ i => rw [List.getD_cons_succ]; exact ih i (by simpa using hi)

theorem osCols_spec (order ii : Nat) (arr2 : List (List K)) (next : List K) (hne : next ≠ []) (js : List Nat) (ref : K) :
    (osCols order ii arr2 next js ref).1.length = js.length ∧
    ∀ v ∈ (osCols order ii arr2 next js ref).1, v ∈ next := by
  induction js generalizing ref with
  | nil => simp [osCols]
  | cons jj js ih =>
    have h := ih (osRef order ii arr2 jj ref)
    simp only [osCols]
    refine ⟨by simp [h.1], ?_⟩
    intro v hv
    rcases List.mem_cons.1 hv with rfl | hv
    · have : argmin (next.map (fun v => |v - osRef order ii arr2 jj ref|)) < next.length := by
        have := argmin_lt (next.map (fun v => |v - osRef order ii arr2 jj ref|)) (by simpa using hne)
        simpa using this
      rw [List.getD_eq_getElem?_getD, List.getElem?_eq_getElem this]
      simp
    · exact h.2 v hv

theorem osRows_spec (order nj : Nat) (ii : Nat) (arr2 : List (List K)) (ref : K) (rest : List (List K))
    (hrest : ∀ r ∈ rest, r ≠ []) :
    ∃ out, osRows order nj ii arr2 ref rest = arr2 ++ out ∧ out.length = rest.length ∧
      ∀ (i : Nat) r o, rest[i]? = some r → out[i]? = some o → o.length = nj ∧ ∀ v ∈ o, v ∈ r := by
  induction rest generalizing ii arr2 ref with
  | nil => exact ⟨[], by simp [osRows], rfl, by simp⟩
  | cons next rest ih =>
    obtain ⟨h1, h2⟩ := osCols_spec order ii arr2 next (hrest next (by simp)) (List.range nj) ref
    rw [osRows]
    obtain ⟨out, h3, h4, h5⟩ := ih (ii + 1) (arr2 ++ [(osCols order ii arr2 next (List.range nj) ref).1])
      (osCols order ii arr2 next (List.range nj) ref).2 (fun r hr => hrest r (List.mem_cons_of_mem _ hr))
    refine ⟨(osCols order ii arr2 next (List.range nj) ref).1 :: out, ?_, by simp [h4], ?_⟩
    · simp only [h3, List.append_assoc, List.singleton_append]
    · intro i r o hr ho
      cases i with
      | zero =>
        simp only [List.getElem?_cons_zero, Option.some.injEq] at hr ho
        subst hr; subst ho
        exact ⟨by simpa using h1, h2⟩
      | succ i => exact h5 i r o (by simpa using hr) (by simpa using ho)

/-- **C27** (`order_similar`, part that holds). The result has the shape of the input, the first row
is unchanged and row `i` consists of values of row `i` of the input. Missing: it need not be a
permutation, see `C27_order_similar_loses`. -/
theorem C27_order_similar_partial (arr : List (List K)) (nj order rep : Nat) (ho : order ≤ 2) (hr : 1 ≤ rep)
    (hne : arr ≠ []) (hnj : 1 ≤ nj) (hrect : ∀ r ∈ arr, r.length = nj) :
    ∃ out, orderSimilar arr order rep = some out ∧ out.length = arr.length ∧ out[0]? = arr[0]? ∧
      ∀ (i : Nat) r o, arr[i]? = some r → out[i]? = some o → o.length = nj ∧ ∀ v ∈ o, v ∈ r := by
  induction rep generalizing order with
  | zero => omega
  | succ rep ih =>
    rw [orderSimilar.eq_def]
    simp only []
    rw [if_neg (by omega)]
    by_cases hrep : rep + 1 = 1
    · rw [if_pos hrep]
      rcases arr with _ | ⟨r0, rest⟩
      · exact absurd rfl hne
      have h0 := hrect r0 (by simp)
      obtain ⟨out, h1, h2, h3⟩ := osRows_spec order r0.length 0 [r0] 0 rest (by
        intro r hr hc
        have := hrect r (List.mem_cons_of_mem _ hr)
        rw [hc] at this
        simp at this; omega)
      refine ⟨r0 :: out, by simp [h1], by simp [h2], by simp, ?_⟩
      intro i r o hri hoi
      cases i with
      | zero =>
        simp only [List.getElem?_cons_zero, Option.some.injEq] at hri hoi
        subst hri; subst hoi
        exact ⟨h0, fun v hv => hv⟩
      | succ i => rw [← h0]; exact h3 i r o (by simpa using hri) (by simpa using hoi)
    · rw [if_neg hrep]
      exact ih 2 (by omega) (by omega)

/-- **C27** (nearest value). What is chosen is a value of the next row closest to the reference. -/
theorem C27_order_similar_nearest (next : List K) (ref : K) (i : Nat) (v : K) (h : next[i]? = some v) :
    (next.map (fun v => |v - ref|)).getD (argmin (next.map (fun v => |v - ref|))) 0 ≤ |v - ref| := by
  have hi := (List.getElem?_eq_some_iff.1 h).1
  have := argmin_min (next.map (fun v => |v - ref|)) i (by simpa using hi)
  have e : (next.map (fun v => |v - ref|)).getD i 0 = |v - ref| := by
    rw [List.getD_eq_getElem?_getD, List.getElem?_map, h]; rfl
  rwa [e] at this

/-- **C27** fails: a value of the input can be taken twice and another one lost, in all orders. -/
theorem C27_order_similar_loses :
    orderSimilar ([[0, 1], [10, 20]] : List (List ℚ)) 2 1 = some [[0, 1], [10, 10]] ∧
    orderSimilar ([[0, 1], [10, 20]] : List (List ℚ)) 1 1 = some [[0, 1], [10, 10]] ∧
    orderSimilar ([[0, 1], [10, 20]] : List (List ℚ)) 0 1 = some [[0, 1], [10, 10]] ∧
    ¬ ([10, 10] : List ℚ).Perm [10, 20] := by
  refine ⟨?_, ?_, ?_, by decide⟩ <;>
  norm_num [orderSimilar, osRows, osCols, osRef, argmin, List.range_succ, abs_of_pos, abs_of_neg]

/-- **C27**: with `order=0` the third and later rows collapse to one value, also for perfectly
ordered parallel lines (the reference of the last column is used for all columns). -/
theorem C27_order_zero_collapses :
    orderSimilar ([[0, 10], [1, 11], [2, 12]] : List (List ℚ)) 0 1 = some [[0, 10], [1, 11], [12, 12]] := by
  norm_num [orderSimilar, osRows, osCols, osRef, argmin, List.range_succ, abs_of_pos, abs_of_neg]

/-- **C27**: `repeat` has no effect beyond fixing `order=2`: the algorithm is run once, on the
input, whatever `repeat ≥ 2` and `order` are. -/
theorem C27_repeat (arr : List (List K)) (order rep : Nat) (ho : order ≤ 2) (hr : 2 ≤ rep) :
    orderSimilar arr order rep = orderSimilar arr 2 1 := by
  induction rep generalizing order with
  | zero => omega
  | succ rep ih =>
    rw [orderSimilar.eq_def]
    simp only []
    rw [if_neg (by omega), if_neg (by omega)]
    by_cases h : rep = 1
    · rw [h]
    · exact ih 2 (by omega) (by omega)

/-! ### norm_int -/

theorem trapz_homogeneous : Homogeneous (trapz (K := K)) := by
  intro y x c e he
  induction y generalizing x with
  | nil => simp [trapz]
  | cons y0 y ih =>
    rcases y with _ | ⟨y1, y⟩
    · rcases x with _ | ⟨x0, x⟩ <;> simp [trapz]
    rcases x with _ | ⟨x0, x⟩
    · simp [trapz]
    rcases x with _ | ⟨x1, x⟩
    · simp [trapz]
    have := ih (x1 :: x)
    simp only [List.map_cons, trapz] at *
    rw [this]
    field_simp

theorem simpsOdd_homogeneous_aux (n : Nat) (y x : List K) (c e : K) (he : e ≠ 0) (hn : y.length ≤ n) :
    simpsOdd (y.map (· * c)) (x.map (· / e)) = simpsOdd y x * c / e := by
  induction n generalizing y x with
  | zero =>
    have : y = [] := List.eq_nil_of_length_eq_zero (by omega)
    subst this; simp [simpsOdd]
  | succ n ih =>
    rcases y with _ | ⟨y0, _ | ⟨y1, _ | ⟨y2, y⟩⟩⟩
    · simp [simpsOdd]
    · simp [simpsOdd]
    · simp [simpsOdd]
    rcases x with _ | ⟨x0, _ | ⟨x1, _ | ⟨x2, x⟩⟩⟩
    · simp [simpsOdd]
    · simp [simpsOdd]
    · simp [simpsOdd]
    have := ih (y2 :: y) (x2 :: x) (by simp at *; omega)
    simp only [List.map_cons, simpsOdd] at *
    rw [this]
    have e1 : x1 / e - x0 / e = (x1 - x0) / e := by ring
    have e2 : x2 / e - x1 / e = (x2 - x1) / e := by ring
    rw [e1, e2]
    generalize x1 - x0 = h0
    generalize x2 - x1 = h1
    have e3 : h1 / e / (h0 / e) = h1 / h0 := div_div_div_cancel_right₀ he h1 h0
    have e4 : h0 / e / (h1 / e) = h0 / h1 := div_div_div_cancel_right₀ he h0 h1
    have e5 : (h0 / e + h1 / e) * ((h0 / e + h1 / e) / (h0 / e * (h1 / e))) = (h0 + h1) * ((h0 + h1) / (h0 * h1)) := by
      rw [← add_div, show h0 / e * (h1 / e) = (h0 * h1) / e / e by ring, div_div_div_cancel_right₀ he, 
        div_div_eq_mul_div]
      field_simp
    rw [e3, e4, e5]
    ring

theorem simps_homogeneous : Homogeneous (simps (K := K)) := by
  intro y x c e he
  unfold simps
  have h1 := fun y x : List K => simpsOdd_homogeneous_aux y.length y x c e he (le_refl _)
  have h2 := fun y x : List K => trapz_homogeneous y x c e he
  simp only [List.length_map]
  split
  · exact h1 y x
  · simp only [← List.map_take, ← List.map_drop, h1, h2]
    ring

variable [IsStrictOrderedRing K]

theorem absMax_zero (x : List K) (h : absMax x = 0) : x.map (· / 2) = x := by
  have hge : ∀ v ∈ x, |v| ≤ absMax x := by
    intro v hv
    unfold absMax
    clear h
    induction x with
    | nil => simp at hv
    | cons a x ih =>
      simp only [List.map_cons, List.foldr_cons]
      rcases List.mem_cons.1 hv with rfl | hv
      · exact le_max_left _ _
      · exact le_trans (ih hv) (le_max_right _ _)
  rw [List.map_congr_left (g := id)]
  · simp
  · intro v hv
    have := hge v hv
    rw [h] at this
    have : v = 0 := abs_eq_zero.1 (le_antisymm this (abs_nonneg _))
    simp [this]

theorem absMax_zero' (y : List K) (h : absMax y = 0) : y.map (· * 0) = y := by
  have h2 := absMax_zero y h
  rw [List.map_congr_left (g := id)]
  · simp
  · intro v hv
    obtain ⟨i, hi, rfl⟩ := List.getElem_of_mem hv
    have : (y.map (· / 2))[i]'(by simpa using hi) = y[i] := by simp only [h2]
    rw [List.getElem_map] at this
    have h0 : y[i] = 0 := by linarith
    simp [h0]

theorem normInt_eq (func : List K → List K → K) (hf : Homogeneous func) (y x : List K) (area : K) (scale : Bool)
    (hI : func y x ≠ 0) : normInt func y x area scale = some (y.map (fun v => v * area / func y x)) := by
  have hfx : absMax x ≠ 0 := by
    intro h
    have h1 := hf y x 1 2 (by norm_num)
    rw [absMax_zero x h] at h1
    simp only [mul_one, List.map_id'] at h1
    apply hI
    linarith
  have hfy : absMax y ≠ 0 := by
    intro h
    have h1 := hf y x 0 1 one_ne_zero
    rw [absMax_zero' y h] at h1
    simp only [div_one, List.map_id'] at h1
    apply hI
    linarith
  unfold normInt
  cases scale
  · simp [hI]
  · simp only [if_true, hfx, hfy, or_self, if_false]
    have h1 := hf y x (absMax y)⁻¹ (absMax x) hfx
    have e : y.map (· / absMax y) = y.map (· * (absMax y)⁻¹) := by
      apply List.map_congr_left; intro v _; exact div_eq_mul_inv _ _
    rw [e, h1]
    have : func y x * (absMax y)⁻¹ / absMax x * absMax x * absMax y = func y x := by
      field_simp
    rw [this, if_neg hI]

/-- **C29**. For the trapezoidal rule, Simpson's rule, or any other integration rule which is
homogeneous: if the integral of `y` is not zero, `norm_int` multiplies all values with one common
factor such that the integral becomes `area`, and the result does not depend on `scale`. -/
theorem C29_norm_int (func : List K → List K → K) (hf : Homogeneous func) (y x : List K) (area : K) (scale : Bool)
    (hI : func y x ≠ 0) :
    ∃ y' c, normInt func y x area scale = some y' ∧ y' = y.map (· * c) ∧ func y' x = area ∧
      normInt func y x area (!scale) = some y' := by
  refine ⟨y.map (· * (area / func y x)), area / func y x, ?_, rfl, ?_, ?_⟩
  · rw [normInt_eq func hf y x area scale hI]
    congr 1; apply List.map_congr_left; intro v _; ring
  · have := hf y x (area / func y x) 1 one_ne_zero
    simp only [div_one, List.map_id'] at this
    rw [this]; field_simp
  · rw [normInt_eq func hf y x area _ hI]
    congr 1; apply List.map_congr_left; intro v _; ring

/-- **C29** for the rules of scipy. -/
theorem C29_rules : Homogeneous (trapz (K := K)) ∧ Homogeneous (simps (K := K)) :=
  ⟨trapz_homogeneous, simps_homogeneous⟩

/-- **C29** (no result). If the integral is zero there is no finite result. -/
theorem C29_zero (func : List K → List K → K) (hf : Homogeneous func) (y x : List K) (area : K) (scale : Bool)
    (hI : func y x = 0) : normInt func y x area scale = none := by
  unfold normInt
  cases scale
  · simp [hI]
  · simp only [if_true]
    split
    · rfl
    · rename_i h
      simp only [not_or] at h
      have h1 := hf y x (absMax y)⁻¹ (absMax x) h.1
      have e : y.map (· / absMax y) = y.map (· * (absMax y)⁻¹) := by
        apply List.map_congr_left; intro v _; exact div_eq_mul_inv _ _
      rw [e, h1, hI]
      simp

/-- Non-vacuity: the integral of (1, 3, 2) over (0, 1, 3) is 7; normalised to 14. -/
example : normInt trapz ([1, 3, 2] : List ℚ) [0, 1, 3] 14 true = some [2, 6, 4] := by
  rw [normInt_eq _ trapz_homogeneous _ _ _ _ (by norm_num [trapz])]
  norm_num [trapz]

/-! ### DataND -/

theorem itProduct_get {α : Type} {ls : List (List α)} {idxs : List Nat} {tup : List α} (h : Picks ls idxs tup) :
    (itProduct ls)[odometer (ls.map List.length) idxs]? = some tup := by
  have := foldl_pstep_get h [[]] 0 [] rfl
  simpa [itProduct] using this

theorem itProduct_length {α : Type} (ls : List (List α)) : (itProduct ls).length = (ls.map List.length).prod := by
  have := foldl_pstep_length ls [[]]
  simpa [itProduct] using this

theorem itProduct_mem {α : Type} {ls : List (List α)} {tup : List α} (h : tup ∈ itProduct ls) :
    ∃ idxs, Picks ls idxs tup := by
  obtain ⟨pre, hpre, t, idxs, hp, rfl⟩ := picks_exists_of_mem ls [[]] tup h
  simp only [List.mem_singleton] at hpre
  subst hpre
  exact ⟨idxs, by simpa using hp⟩

theorem itProduct_nodup {α : Type} (ls : List (List α)) (h : ∀ l ∈ ls, l.Nodup) : (itProduct ls).Nodup := by
  have : ∀ acc : List (List α), acc.Nodup →
      (ls.foldl (fun result pool => result.flatMap (fun x => pool.map (fun y => x ++ [y]))) acc).Nodup := by
    induction ls with
    | nil => exact fun acc h => h
    | cons l ls ih =>
      intro acc hacc
      rw [List.foldl_cons]
      apply ih (fun l hl => h l (List.mem_cons_of_mem _ hl))
      rw [List.nodup_flatMap]
      refine ⟨fun x _ => (h l (by simp)).map (fun a b hab => by simpa using hab), ?_⟩
      refine hacc.imp (fun {a b} hab => ?_)
      intro x h1 h2
      simp only [List.mem_map] at h1 h2
      obtain ⟨y, _, rfl⟩ := h1
      obtain ⟨z, _, h⟩ := h2
      exact hab (List.append_inj_left' h rfl).symm
  exact this [[]] (by simp)

theorem picks_length {α : Type} {ls : List (List α)} {idxs tup} (h : Picks ls idxs tup) :
    tup.length = ls.length ∧ idxs.length = ls.length := by
  induction h with
  | nil => exact ⟨rfl, rfl⟩
  | cons _ _ ih => simp [ih.1, ih.2]

theorem picks_get {α : Type} {ls : List (List α)} {idxs tup} (h : Picks ls idxs tup) (c : Nat) (l : List α)
    (hc : ls[c]? = some l) (d : α) : tup.getD c d ∈ l := by
  induction h generalizing c with
  | nil => simp at hc
  | cons ha _ ih =>
    cases c with
    | zero =>
      simp only [List.getElem?_cons_zero, Option.some.injEq] at hc
      subst hc
      exact List.mem_of_getElem? ha
    | succ c => exact ih c (by simpa using hc)

theorem picks_exists {α : Type} (ls : List (List α)) (hne : ∀ l ∈ ls, l ≠ []) (c : Nat) (l : List α)
    (hc : ls[c]? = some l) (x : α) (hx : x ∈ l) (d : α) : ∃ idxs tup, Picks ls idxs tup ∧ tup.getD c d = x := by
  have hall : ∀ ls : List (List α), (∀ l ∈ ls, l ≠ []) → ∃ idxs tup, Picks ls idxs tup := by
    intro ls
    induction ls with
    | nil => exact fun _ => ⟨[], [], .nil⟩
    | cons l ls ih =>
      intro h
      obtain ⟨idxs, tup, hp⟩ := ih (fun l hl => h l (List.mem_cons_of_mem _ hl))
      obtain ⟨a, l', rfl⟩ := List.exists_cons_of_ne_nil (h l (by simp))
      exact ⟨0 :: idxs, a :: tup, .cons rfl hp⟩
  induction ls generalizing c with
  | nil => simp at hc
  | cons l0 ls ih =>
    cases c with
    | zero =>
      simp only [List.getElem?_cons_zero, Option.some.injEq] at hc
      subst hc
      obtain ⟨idxs, tup, hp⟩ := hall ls (fun l hl => hne l (List.mem_cons_of_mem _ hl))
      obtain ⟨i, hi, rfl⟩ := List.getElem_of_mem hx
      exact ⟨i :: idxs, l0[i] :: tup, .cons (List.getElem?_eq_getElem hi) hp, rfl⟩
    | succ c =>
      obtain ⟨idxs, tup, hp, ht⟩ := ih (fun l hl => hne l (List.mem_cons_of_mem _ hl)) c (by simpa using hc)
      obtain ⟨a, l', rfl⟩ := List.exists_cons_of_ne_nil (hne l0 (by simp))
      exact ⟨0 :: idxs, a :: tup, .cons rfl hp, by simpa using ht⟩

theorem picks_ranges {α : Type} (ls : List (List α)) (idxs : List Nat) :
    (∃ tup, Picks ls idxs tup) ↔ Picks ((ls.map List.length).map List.range) idxs idxs := by
  induction ls generalizing idxs with
  | nil =>
    constructor
    · rintro ⟨tup, h⟩; cases h; exact .nil
    · intro h; cases h; exact ⟨[], .nil⟩
  | cons l ls ih =>
    constructor
    · rintro ⟨tup, h⟩
      cases h with
      | cons ha hr =>
        refine .cons ?_ ((ih _).1 ⟨_, hr⟩)
        exact List.getElem?_range (List.getElem?_eq_some_iff.1 ha).1
    · intro h
      cases h with
      | cons ha hr =>
        obtain ⟨tup, ht⟩ := (ih _).2 hr
        rename_i i _
        have hi : i < l.length := by
          have := (List.getElem?_eq_some_iff.1 ha).1
          simpa using this
        exact ⟨l[i] :: tup, .cons (List.getElem?_eq_getElem hi) ht⟩

theorem picks_idx_self {ls : List Nat} {idxs t : List Nat} (h : Picks (ls.map List.range) idxs t) : t = idxs := by
  induction ls generalizing idxs t with
  | nil => cases h; rfl
  | cons n ls ih =>
    cases h with
    | cons ha hr =>
      rw [ih hr]
      have := List.getElem?_eq_some_iff.1 ha
      obtain ⟨h1, h2⟩ := this
      simp at h2
      rw [h2]

/-- **C77** (part that holds). If the rows of `a2` are the points of a grid, in the order of a nested
loop over strictly increasing non-empty axes, followed by the value at that point, then the axes are
recovered, and `an[i, j, …]` is the value at `(axes[0][i], axes[1][j], …)`, for every index tuple
and for nothing else. Missing: other orders of the rows, see `C77_unordered`. -/
theorem C77_data_nd_partial (axs : List (List K)) (hsort : ∀ l ∈ axs, l.Pairwise (· < ·)) (hne : ∀ l ∈ axs, l ≠ [])
    (f : List K → K) :
    ∃ an, dataND ((itProduct axs).map (fun t => t ++ [f t])) axs.length = some (an, axs) ∧
      (∀ idxs tup, Picks axs idxs tup → (idxs, f tup) ∈ an) ∧
      (∀ p ∈ an, ∃ tup, Picks axs p.1 tup ∧ p.2 = f tup) ∧
      an.length = (axs.map List.length).prod := by
  have hcol : ∀ c l, axs[c]? = some l →
      ((((itProduct axs).map (fun t => t ++ [f t])).map (fun row => row.getD c 0)).toFinset.sort (· ≤ ·)) = l := by
    intro c l hc
    have hcl := (List.getElem?_eq_some_iff.1 hc).1
    have hl := List.mem_of_getElem? hc
    have hset : (((itProduct axs).map (fun t => t ++ [f t])).map (fun row => row.getD c 0)).toFinset = l.toFinset := by
      ext x
      simp only [List.map_map, List.mem_toFinset, List.mem_map, Function.comp_apply]
      constructor
      · rintro ⟨t, ht, rfl⟩
        obtain ⟨idxs, hp⟩ := itProduct_mem ht
        have htl := (picks_length hp).1
        have := picks_get hp c l hc 0
        rw [List.getD_eq_getElem?_getD, List.getElem?_append_left (by omega), ← List.getD_eq_getElem?_getD]
        exact this
      · intro hx
        obtain ⟨idxs, tup, hp, ht⟩ := picks_exists axs hne c l hc x hx 0
        refine ⟨tup, List.mem_of_getElem? (itProduct_get hp), ?_⟩
        rw [List.getD_eq_getElem?_getD, List.getElem?_append_left (by rw [(picks_length hp).1]; omega),
          ← List.getD_eq_getElem?_getD, ht]
    rw [hset]
    have hs := hsort l hl
    exact (List.toFinset_sort (r := (· ≤ ·)) (hs.imp (fun h => ne_of_lt h))).2 (hs.imp (fun h => le_of_lt h))
  have haxes : (List.range axs.length).map (fun c =>
      ((((itProduct axs).map (fun t => t ++ [f t])).map (fun row => row.getD c 0)).toFinset.sort (· ≤ ·))) = axs := by
    apply List.ext_getElem?
    intro c
    by_cases hc : c < axs.length
    · rw [List.getElem?_map, List.getElem?_range hc, Option.map_some, hcol c axs[c] (List.getElem?_eq_getElem hc),
        List.getElem?_eq_getElem hc]
    · rw [List.getElem?_eq_none (by simpa using hc), List.getElem?_eq_none (by simpa using hc)]
  have hvals : ((itProduct axs).map (fun t => t ++ [f t])).map (fun row => row.getLastD 0) = (itProduct axs).map f := by
    rw [List.map_map]
    apply List.map_congr_left
    intro t _
    simp
  have hl1 := itProduct_length axs
  have hlr : (((axs.map List.length).map List.range).map List.length) = axs.map List.length := by
    rw [List.map_map]
    conv_rhs => rw [← List.map_id (axs.map List.length)]
    apply List.map_congr_left; intro n _; simp
  have hl2 : (itProduct ((axs.map List.length).map List.range)).length = (axs.map List.length).prod := by
    rw [itProduct_length, hlr]
  refine ⟨(itProduct ((axs.map List.length).map List.range)).zip ((itProduct axs).map f), ?_, ?_, ?_, ?_⟩
  · unfold dataND
    simp only [haxes, hvals]
    rw [if_pos (by simp [hl1])]
  · intro idxs tup hp
    have h1 := itProduct_get hp
    have h2 := itProduct_get ((picks_ranges axs idxs).1 ⟨tup, hp⟩)
    rw [hlr] at h2
    apply List.mem_of_getElem? (i := odometer (axs.map List.length) idxs)
    rw [List.getElem?_zip_eq_some]
    refine ⟨h2, ?_⟩
    rw [List.getElem?_map, h1]; rfl
  · intro p hp
    obtain ⟨i, hi⟩ := List.getElem?_of_mem hp
    rw [List.getElem?_zip_eq_some] at hi
    obtain ⟨h1, h2⟩ := hi
    obtain ⟨idxs, hpk⟩ := itProduct_mem (List.mem_of_getElem? h1)
    have := picks_idx_self hpk
    rw [this] at h1 ⊢
    obtain ⟨tup, ht⟩ := (picks_ranges axs idxs).2 (this ▸ hpk)
    refine ⟨tup, ht, ?_⟩
    have h3 := itProduct_get ht
    have h4 := itProduct_get ((picks_ranges axs idxs).1 ⟨tup, ht⟩)
    rw [hlr] at h4
    have hnd : (itProduct ((axs.map List.length).map List.range)).Nodup := by
      apply itProduct_nodup
      intro l hl
      obtain ⟨n, _, rfl⟩ := List.mem_map.1 hl
      exact List.nodup_range
    have hij : i = odometer (axs.map List.length) idxs := by
      obtain ⟨b1, e1⟩ := List.getElem?_eq_some_iff.1 h1
      obtain ⟨b2, e2⟩ := List.getElem?_eq_some_iff.1 h4
      exact (hnd.getElem_inj_iff).1 (e1.trans e2.symm)
    rw [hij, List.getElem?_map, h3] at h2
    simpa using h2.symm
  · rw [List.length_zip, hl2, List.length_map, hl1]; simp

/-- Non-vacuity: a 2 × 3 grid. -/
example : ∃ an, dataND ((itProduct ([[0, 1], [2, 5, 7]] : List (List ℚ))).map (fun t => t ++ [t.sum])) 2 =
    some (an, [[0, 1], [2, 5, 7]]) ∧ ([1, 2], [1, 7].sum) ∈ an := by
  obtain ⟨an, h1, h2, _⟩ := C77_data_nd_partial ([[0, 1], [2, 5, 7]] : List (List ℚ))
    (by intro l hl; fin_cases hl <;> norm_num) (by intro l hl; fin_cases hl <;> simp) List.sum
  exact ⟨an, h1, h2 _ _ (.cons rfl (.cons rfl .nil))⟩

/-- **C77** fails for other orders of the rows: no error, but the values are attached to the wrong
coordinates. Here the value at coordinate 0 is 20, but `an[0]` (`axes[0][0] = 0`) is 10. -/
theorem C77_unordered : dataND ([[1, 10], [0, 20]] : List (List ℚ)) 1 = some ([([0], 10), ([1], 20)], [[0, 1]]) := by
  have h : ([1, 0] : List ℚ).toFinset.sort (· ≤ ·) = [0, 1] := by
    rw [show ([1, 0] : List ℚ).toFinset = ([0, 1] : List ℚ).toFinset by decide]
    exact (List.toFinset_sort (r := (· ≤ ·)) (by simp)).2 (by simp)
  have haxes : (List.range 1).map (fun c => ((([[1, 10], [0, 20]] : List (List ℚ)).map
      (fun row => row.getD c 0)).toFinset.sort (· ≤ ·))) = [[0, 1]] := by
    show [([1, 0] : List ℚ).toFinset.sort (· ≤ ·)] = _
    rw [h]
  unfold dataND
  simp only [haxes]
  decide

/-- **C77** (errors). A number of rows which is not the product of the numbers of different
coordinates raises. -/
theorem C77_error (a2 : List (List K)) (ncol : Nat)
    (h : (((List.range ncol).map (fun c => (a2.map (fun row => row.getD c 0)).toFinset.card)).prod ≠ a2.length)) :
    dataND a2 ncol = none := by
  unfold dataND
  simp only [List.map_map, Function.comp_def, Finset.length_sort]
  rw [if_neg h]

end fld
end Pwtools.Num
