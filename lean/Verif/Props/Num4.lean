import Verif.Props.Num2
import Mathlib.Tactic.Linarith
import Mathlib.Tactic.LinearCombination
/-!
# More about `order_similar` (C27) and the integration rules behind `norm_int` (C29)
-/
namespace Pwtools.Num

variable {K : Type} [Field K] [LinearOrder K] [IsStrictOrderedRing K]

/-! ### order_similar: the reference is the extrapolation -/

theorem osRef_two (ii : Nat) (arr2 : List (List K)) (jj : Nat) (r r' : K) :
    osRef 2 ii arr2 jj r = osRef 2 ii arr2 jj r' := by
  unfold osRef
  rcases ii with _ | _ | ii
  · simp
  · simp
  · simp

theorem osRef_append (ii : Nat) (arr2 more : List (List K)) (jj : Nat) (r : K) (h : ii < arr2.length) :
    osRef 2 ii (arr2 ++ more) jj r = osRef 2 ii arr2 jj r := by
  have e : ∀ i ≤ ii, (arr2 ++ more).getD i [] = arr2.getD i [] := by
    intro i hi
    simp only [List.getD_eq_getElem?_getD]
    rw [List.getElem?_append_left (by omega)]
  unfold osRef
  simp only [e ii le_rfl, e (ii - 1) (by omega), e (ii - 2) (by omega)]

theorem osCols_two (ii : Nat) (arr2 : List (List K)) (next : List K) (js : List Nat) (r : K) :
    (osCols 2 ii arr2 next js r).1 =
      js.map (fun jj => next.getD (argmin (next.map (fun v => |v - osRef 2 ii arr2 jj 0|))) 0) := by
  induction js generalizing r with
  | nil => rfl
  | cons j js ih =>
    rw [osCols.eq_def]
    simp only [List.map_cons]
    rw [ih, osRef_two ii arr2 j r 0]

theorem osRows_two (nj ii : Nat) (arr2 : List (List K)) (ref : K) (rest : List (List K)) (h : arr2.length = ii + 1) :
    ∃ tail, osRows 2 nj ii arr2 ref rest = arr2 ++ tail ∧
      ∀ (k : Nat) next, rest[k]? = some next → tail[k]? = some ((List.range nj).map (fun jj =>
        next.getD (argmin (next.map (fun v => |v - osRef 2 (ii + k) (arr2 ++ tail) jj 0|))) 0)) := by
  induction rest generalizing ii arr2 ref with
  | nil => exact ⟨[], by simp [osRows], by simp⟩
  | cons n0 rest ih =>
    rw [osRows.eq_def]
    simp only []
    obtain ⟨tail, h1, h2⟩ := ih (ii + 1) (arr2 ++ [(osCols 2 ii arr2 n0 (List.range nj) ref).1])
      (osCols 2 ii arr2 n0 (List.range nj) ref).2 (by simp [h])
    refine ⟨(osCols 2 ii arr2 n0 (List.range nj) ref).1 :: tail, ?_, ?_⟩
    · rw [h1]; simp
    · intro k next hk
      cases k with
      | zero =>
        simp only [List.getElem?_cons_zero, Option.some.injEq] at hk ⊢
        subst hk
        rw [osCols_two]
        apply List.map_congr_left
        intro jj _
        simp only [Nat.add_zero]
        rw [osRef_append _ _ _ _ _ (by omega)]
      | succ k =>
        simp only [List.getElem?_cons_succ] at hk ⊢
        rw [h2 k next hk]
        have : arr2 ++ [(osCols 2 ii arr2 n0 (List.range nj) ref).1] ++ tail =
          arr2 ++ (osCols 2 ii arr2 n0 (List.range nj) ref).1 :: tail := by simp
        rw [this, show ii + 1 + k = ii + (k + 1) by omega]

/-- The value that is chosen is an entry of the row and nearest to the reference. -/
theorem pick_nearest (next : List K) (ref : K) (hne : next ≠ []) :
    next.getD (argmin (next.map (fun v => |v - ref|))) 0 ∈ next ∧
    ∀ v ∈ next, |next.getD (argmin (next.map (fun v => |v - ref|))) 0 - ref| ≤ |v - ref| := by
  have hlt : argmin (next.map (fun v => |v - ref|)) < next.length := by
    have := argmin_lt (next.map (fun v => |v - ref|)) (by simpa using hne)
    simpa using this
  have hg : next.getD (argmin (next.map (fun v => |v - ref|))) 0 = next[argmin (next.map (fun v => |v - ref|))] := by
    simp only [List.getD_eq_getElem?_getD]
    rw [List.getElem?_eq_getElem hlt]; rfl
  refine ⟨by rw [hg]; exact List.getElem_mem _, ?_⟩
  intro v hv
  obtain ⟨i, hi, rfl⟩ := List.getElem_of_mem hv
  have := C27_order_similar_nearest next ref i next[i] (List.getElem?_eq_getElem hi)
  rw [hg]
  simp only [List.getD_eq_getElem?_getD, List.getElem?_map, List.getElem?_eq_getElem hlt] at this
  exact this

/-- **C27** (the reference). With the default `order=2` and `repeat=1`, the entry of stream `j` in
row `i + 1` is an entry of that row of the input which is nearest to the extrapolation of the
stream so far: the last value for `i = 0`, the straight line through the two values for `i = 1`, and
the parabola through the last three values for `i ≥ 2`. -/
theorem C27_order_similar_extrapolates (r0 : List K) (rest : List (List K)) (hrect : ∀ r ∈ rest, r ≠ []) :
    ∃ out, orderSimilar (r0 :: rest) 2 1 = some out ∧ out[0]? = some r0 ∧
      ∀ (i j : Nat) (r : List K), rest[i]? = some r → j < r0.length → ∃ o : Nat → K, ∃ row : List K,
        (∀ k ≤ i, o k = (out.getD k []).getD j 0) ∧ out[i + 1]? = some row ∧ row[j]? = some (o (i + 1)) ∧
        o (i + 1) ∈ r ∧
        ∀ p : K → K, (∃ a b c : K, (∀ t, p t = a + b * t + c * t ^ 2) ∧ (i < 2 → c = 0) ∧ (i = 0 → b = 0)) →
          (∀ k : Nat, k ≤ i → i ≤ k + 2 → p (k : K) = o k) →
          ∀ v ∈ r, |o (i + 1) - p ((i + 1 : Nat) : K)| ≤ |v - p ((i + 1 : Nat) : K)| := by
  obtain ⟨tail, h1, h2⟩ := osRows_two r0.length 0 [r0] 0 rest rfl
  refine ⟨r0 :: tail, by simp [orderSimilar, h1], by simp, ?_⟩
  intro i j r hr hj
  have hrow := h2 i r hr
  simp only [Nat.zero_add, List.singleton_append] at hrow
  have hne := hrect r (List.mem_of_getElem? hr)
  set x := r.getD (argmin (r.map (fun v => |v - osRef 2 i (r0 :: tail) j 0|))) 0 with hx
  obtain ⟨hmem, hnear⟩ := pick_nearest r (osRef 2 i (r0 :: tail) j 0) hne
  rw [← hx] at hmem hnear
  refine ⟨fun k => if k = i + 1 then x else ((r0 :: tail).getD k []).getD j 0,
    (List.range r0.length).map (fun jj => r.getD (argmin (r.map (fun v => |v - osRef 2 i (r0 :: tail) jj 0|))) 0),
    ?_, ?_, ?_, ?_, ?_⟩
  · intro k hk
    simp only []
    rw [if_neg (by omega)]
  · rw [List.getElem?_cons_succ]; exact hrow
  · simp [List.getElem?_map, List.getElem?_range hj, hx]
  · simpa using hmem
  · rintro p ⟨a, b, c, hp, hc, hb⟩ hpts v hv
    have hval : p ((i + 1 : Nat) : K) = osRef 2 i (r0 :: tail) j 0 := by
      unfold osRef
      rcases i with _ | _ | i
      · have h0 := hpts 0 (by omega) (by omega)
        simp only [hp, hb rfl, hc (by omega)] at h0 ⊢
        rw [if_neg (by omega)] at h0
        rw [if_pos trivial, ← h0]; push_cast; ring
      · have h0 := hpts 0 (by omega) (by omega)
        have h1 := hpts 1 (by omega) (by omega)
        simp only [hp, hc (by omega)] at h0 h1 ⊢
        rw [if_neg (by omega)] at h0 h1
        rw [if_neg (by omega), if_pos (by simp), ← h1]; simp only [show 0 + 1 - 1 = 0 by omega]; rw [← h0]; push_cast; ring
      · have h0 := hpts i (by omega) (by omega)
        have h1 := hpts (i + 1) (by omega) (by omega)
        have h2 := hpts (i + 2) (by omega) (by omega)
        simp only [hp] at h0 h1 h2 ⊢
        rw [if_neg (by omega)] at h0 h1 h2
        rw [if_neg (by omega), if_neg (by omega), if_pos (by simp)]
        simp only [show i + 1 + 1 - 1 = i + 1 by omega, show i + 1 + 1 - 2 = i by omega]
        rw [← h0, ← h1, ← h2]; push_cast; ring
    simp only [if_true, hval]
    exact hnear v hv

/-- **C27** (errors): exactly `repeat = 0`, `order > 2` (and an array without rows) are refused. -/
theorem C27_order_similar_errors (arr : List (List K)) (order rep : Nat) :
    orderSimilar arr order rep = none ↔ rep = 0 ∨ 2 < order ∨ arr = [] := by
  induction rep generalizing order with
  | zero => simp [orderSimilar]
  | succ rep ih =>
    rw [orderSimilar.eq_def]
    simp only []
    by_cases ho : 2 < order
    · simp [ho]
    · rw [if_neg ho]
      rcases rep with _ | rep
      · rcases arr with _ | ⟨r0, rest⟩ <;> simp [ho]
      · rw [if_neg (by omega), ih]
        simp [ho]

/-- Non-vacuity: two crossing streams, the input rows unordered; the crossing is resolved. -/
example : orderSimilar ([[0, 4], [3, 1], [2, 2], [3, 1], [0, 4]] : List (List ℚ)) 2 1 =
    some [[0, 4], [1, 3], [2, 2], [3, 1], [4, 0]] := by
  norm_num [orderSimilar, osRows, osCols, osRef, argmin, List.range_succ, abs_of_pos, abs_of_neg]

/-! ### The integration rules -/

/-- **C29** (the rule). `trapz` is the sum of the areas of the trapezoids between neighbouring points. -/
theorem C29_trapz_sum (y x : List K) (h : y.length = x.length) :
    trapz y x = ∑ i ∈ Finset.range (x.length - 1),
      (x.getD (i + 1) 0 - x.getD i 0) * ((y.getD i 0 + y.getD (i + 1) 0) / 2) := by
  induction y generalizing x with
  | nil =>
    have : x = [] := List.length_eq_zero_iff.1 (by simpa using h.symm)
    subst this; simp [trapz]
  | cons y0 y ih =>
    rcases x with _ | ⟨x0, x⟩
    · simp at h
    rcases y with _ | ⟨y1, y⟩
    · have : x = [] := List.length_eq_zero_iff.1 (by simpa using h.symm)
      subst this; simp [trapz]
    rcases x with _ | ⟨x1, x⟩
    · simp at h
    rw [trapz, ih (x1 :: x) (by simpa using h)]
    simp only [List.length_cons, Nat.add_sub_cancel]
    rw [Finset.sum_range_succ']
    simp only [List.getD_cons_succ, List.getD_cons_zero]
    ring

/-- **C29** (the rule). Simpson's rule with an odd number of points (any spacing, no two neighbours
equal) integrates every polynomial of degree two exactly. -/
theorem C29_simps_exact (a b c : K) (x0 : K) (x : List K) (hodd : (x0 :: x).length % 2 = 1)
    (hne : List.IsChain (· ≠ ·) (x0 :: x)) :
    simps ((x0 :: x).map (fun t => a + b * t + c * t ^ 2)) (x0 :: x) =
      (a * (x.getLastD x0) + b * (x.getLastD x0) ^ 2 / 2 + c * (x.getLastD x0) ^ 3 / 3) -
      (a * x0 + b * x0 ^ 2 / 2 + c * x0 ^ 3 / 3) := by
  unfold simps
  rw [if_pos (by simpa using hodd)]
  induction x using List.twoStepInduction generalizing x0 with
  | nil => simp [simpsOdd]
  | singleton x1 => simp at hodd
  | cons_cons x1 x2 x ih _ =>
    have hc := hne
    rw [List.isChain_cons_cons, List.isChain_cons_cons] at hc
    have ih' := ih x2 (by simp at hodd ⊢; omega) hc.2.2
    simp only [List.map_cons] at ih' ⊢
    rw [simpsOdd, ih']
    have e : (x1 :: x2 :: x).getLastD x0 = x.getLastD x2 := by
      cases x with
      | nil => rfl
      | cons z zs => rfl
    rw [e]
    have h1 : x1 - x0 ≠ 0 := sub_ne_zero.2 (Ne.symm hc.1)
    have h2 : x2 - x1 ≠ 0 := sub_ne_zero.2 (Ne.symm hc.2.1)
    field_simp
    ring

example : List.IsChain (· ≠ ·) ([0, 1, 3] : List ℚ) := by simp

theorem absMax_spec (x : List K) (h : absMax x ≠ 0) : 0 < absMax x ∧ (∀ v ∈ x, |v| ≤ absMax x) ∧ ∃ v ∈ x, |v| = absMax x := by
  have key : ∀ l : List K, 0 ≤ absMax l ∧ (∀ v ∈ l, |v| ≤ absMax l) ∧ (absMax l = 0 ∨ ∃ v ∈ l, |v| = absMax l) := by
    intro l
    induction l with
    | nil => simp [absMax]
    | cons a l ih =>
      have e : absMax (a :: l) = max |a| (absMax l) := rfl
      obtain ⟨h0, h1, h2⟩ := ih
      refine ⟨by rw [e]; exact le_max_of_le_right h0, ?_, ?_⟩
      · intro v hv
        rw [e]
        rcases List.mem_cons.1 hv with rfl | hv
        · exact le_max_left _ _
        · exact le_max_of_le_right (h1 v hv)
      · rw [e]
        rcases max_choice |a| (absMax l) with hc | hc
        · right; exact ⟨a, by simp, hc.symm⟩
        · rw [hc]
          rcases h2 with h2 | ⟨v, hv, h2⟩
          · left; exact h2
          · right; exact ⟨v, by simp [hv], h2⟩
  obtain ⟨h0, h1, h2⟩ := key x
  exact ⟨lt_of_le_of_ne h0 (Ne.symm h), h1, h2.resolve_left h⟩

/-- **C29** (what is integrated). With `scale=True` the integration function, whatever it is, gets the data
divided by the largest magnitudes: all numbers in `[-1, 1]`, with a number of magnitude 1 in both arrays. -/
theorem C29_scaled (func : List K → List K → K) (y x : List K) (area : K) (r : List K)
    (h : normInt func y x area true = some r) :
    ∃ fx fy, 0 < fx ∧ 0 < fy ∧ (∀ v ∈ x, |v| ≤ fx) ∧ (∃ v ∈ x, |v| = fx) ∧ (∀ v ∈ y, |v| ≤ fy) ∧ (∃ v ∈ y, |v| = fy) ∧
      r = y.map (fun v => v * area / (func (y.map (· / fy)) (x.map (· / fx)) * fx * fy)) := by
  unfold normInt at h
  simp only [if_true] at h
  split at h
  · cases h
  · rename_i hne
    push Not at hne
    split at h
    · cases h
    · obtain ⟨a1, a2, a3⟩ := absMax_spec x hne.1
      obtain ⟨b1, b2, b3⟩ := absMax_spec y hne.2
      exact ⟨_, _, a1, b1, a2, a3, b2, b3, (Option.some.inj h).symm⟩

/-- The hypothesis of `C29_scaled` can be met. -/
example : ∃ r, normInt trapz ([1, 3] : List ℚ) [0, 2] 1 true = some r := Option.ne_none_iff_exists'.1 (by decide +kernel)

theorem trapz_linear (a b x0 : K) (x : List K) :
    trapz ((x0 :: x).map (fun t => a + b * t)) (x0 :: x) =
      (a * (x.getLastD x0) + b * (x.getLastD x0) ^ 2 / 2) - (a * x0 + b * x0 ^ 2 / 2) := by
  induction x generalizing x0 with
  | nil => simp [trapz]
  | cons x1 x ih =>
    have := ih x1
    simp only [List.map_cons, trapz, List.getLastD_cons] at this ⊢
    rw [this]
    ring

/-- Simpson's rule on a part with an odd number of points. -/
theorem simpsOdd_linear (a b : K) (l : List K) (h0 : l ≠ []) (hodd : l.length % 2 = 1) (hne : l.IsChain (· ≠ ·)) :
    simpsOdd (l.map (fun t => a + b * t)) l =
      (a * l.getLast h0 + b * l.getLast h0 ^ 2 / 2) - (a * l.head h0 + b * l.head h0 ^ 2 / 2) := by
  obtain ⟨x0, x, rfl⟩ := List.exists_cons_of_ne_nil h0
  have := C29_simps_exact a b 0 x0 x hodd hne
  unfold simps at this
  rw [if_pos (by simpa using hodd)] at this
  simp only [zero_mul, add_zero, zero_div] at this
  have hl : (x0 :: x).getLast h0 = x.getLastD x0 := by
    cases x with
    | nil => rfl
    | cons x1 x => rw [List.getLast_cons (by simp)]; simp [List.getLastD_eq_getLast?, List.getLast?_eq_getLast_of_ne_nil]
  rw [this, hl, List.head_cons]

/-- **C29** (the rule). Simpson's rule with an even number of points (average of both ends) integrates every
straight line exactly. -/
theorem C29_simps_even (a b : K) (l : List K) (h0 : l ≠ []) (heven : l.length % 2 = 0) (hne : l.IsChain (· ≠ ·)) :
    simps (l.map (fun t => a + b * t)) l =
      (a * l.getLast h0 + b * l.getLast h0 ^ 2 / 2) - (a * l.head h0 + b * l.head h0 ^ 2 / 2) := by
  match l, h0, heven, hne with
  | [_], _, h, _ => simp at h
  | x0 :: x1 :: x, _, heven, hne =>
    simp only [List.length_cons] at heven
    unfold simps
    rw [if_neg (by simp only [List.length_map, List.length_cons]; omega)]
    simp only [List.length_map, List.length_cons, ← List.map_take, ← List.map_drop]
    have hd2 : ∃ p q, (x0 :: x1 :: x).drop (x.length + 1 + 1 - 2) = [p, q] ∧
        (x0 :: x1 :: x).take (x.length + 1 + 1 - 1) = (x0 :: x1 :: x).take (x.length) ++ [p] ∧
        (x0 :: x1 :: x).getLast (by simp) = q := by
      have hlt : x.length < (x0 :: x1 :: x).length := by simp only [List.length_cons]; omega
      have hlt1 : x.length + 1 < (x0 :: x1 :: x).length := by simp only [List.length_cons]; omega
      refine ⟨(x0 :: x1 :: x)[x.length], (x0 :: x1 :: x)[x.length + 1], ?_, ?_, ?_⟩
      · rw [show x.length + 1 + 1 - 2 = x.length by omega, List.drop_eq_getElem_cons hlt, List.drop_eq_getElem_cons hlt1, List.drop_eq_nil_of_le (by simp)]
      · rw [Nat.add_sub_cancel, List.take_succ_eq_append_getElem hlt]
      · rw [List.getLast_eq_getElem]; simp
    obtain ⟨p, q, e1, e2, e3⟩ := hd2
    have hc1 : ((x0 :: x1 :: x).take (x.length + 1 + 1 - 1)).IsChain (· ≠ ·) := hne.take _
    have hc2 : ((x0 :: x1 :: x).drop 1).IsChain (· ≠ ·) := hne.drop _
    have ht : (x0 :: x1 :: x).take (x.length + 1 + 1 - 1) ≠ [] := by simp
    have s1 := simpsOdd_linear a b _ ht (by simp only [List.length_take, List.length_cons]; omega) hc1
    have s2 := simpsOdd_linear a b ((x0 :: x1 :: x).drop 1) (by simp) (by simp only [List.length_drop, List.length_cons]; omega) hc2
    have l1 : ((x0 :: x1 :: x).take (x.length + 1 + 1 - 1)).getLast ht = p := by
      simp only [e2, List.getLast_append_singleton]
    have l2 : ((x0 :: x1 :: x).take (x.length + 1 + 1 - 1)).head ht = x0 := by simp
    rw [l1, l2] at s1
    have t1 := trapz_linear a b p [q]
    have t2 := trapz_linear a b x0 [x1]
    simp only [List.getLastD_cons, List.getLastD_nil] at t1 t2
    have l3 : ((x0 :: x1 :: x).drop 1).getLast (by simp) = q := by rw [← e3]; simp
    have l4 : ((x0 :: x1 :: x).drop 1).head (by simp) = x1 := by simp
    rw [l3, l4] at s2
    rw [s1, s2, e1, show List.take 2 (x0 :: x1 :: x) = [x0, x1] by simp, t1, t2, e3, List.head_cons]
    ring

/-- The hypotheses of `C29_simps_even` can be met. -/
example : ([0, 1, 3, 4] : List ℚ).length % 2 = 0 ∧ ([0, 1, 3, 4] : List ℚ).IsChain (· ≠ ·) := by simp

end Pwtools.Num
