import Verif.Spec.OrderSimilar
import Verif.Props.Num2
import Mathlib.Tactic.LinearCombination
/-!
# C184: `order_similar` untangles bands
-/
namespace Pwtools.Num
open Pwtools.Spec

variable {K : Type} [Field K] [LinearOrder K] [IsStrictOrderedRing K]

omit [LinearOrder K] [IsStrictOrderedRing K] in
theorem rows_at (b : Nat → Nat → K) (n nj i j : Nat) (hi : i < n) (hj : j < nj) : ((bandRows b n nj).getD i []).getD j 0 = b i j := by
  unfold bandRows
  simp [List.getD_eq_getElem?_getD, hi, hj]

omit [LinearOrder K] [IsStrictOrderedRing K] in
theorem ref_eq (b : Nat → Nat → K) (order ii nj j : Nat) (hj : j < nj) (ho : order ≤ 2) (hi : ii ≤ order ∨ order = 2) (ref : K) :
    osRef order ii (bandRows b (ii + 1) nj) j ref = extrapolated b ii j := by
  unfold osRef
  dsimp only
  match ii with
  | 0 => rw [if_pos rfl, rows_at b _ nj 0 j (by omega) hj]; rfl
  | 1 =>
    rw [if_neg (by omega), if_pos ⟨rfl, by omega⟩, rows_at b _ nj _ j (by omega) hj, rows_at b _ nj _ j (by omega) hj]
    simp only [extrapolated]
    ring
  | ii + 2 =>
    rw [if_neg (by omega), if_neg (by omega), if_pos ⟨by omega, by omega⟩, rows_at b _ nj _ j (by omega) hj, rows_at b _ nj _ j (by omega) hj,
      rows_at b _ nj _ j (by omega) hj]
    have e1 : ii + 2 - 1 = ii + 1 := by omega
    have e2 : ii + 2 - 2 = ii := by omega
    rw [e1, e2]
    simp only [extrapolated]
    ring

omit [IsStrictOrderedRing K] in
theorem chosen (b : Nat → Nat → K) (n nj i j : Nat) (hr : Resolved b n nj) (hi : i + 1 < n) (hj : j < nj) (next : List K)
    (hp : next.Perm ((List.range nj).map (b (i + 1)))) :
    next.getD (argmin (next.map (fun v => |v - extrapolated b i j|))) 0 = b (i + 1) j := by
  set r := extrapolated b i j with hrdef
  have hmem : b (i + 1) j ∈ next := hp.mem_iff.2 (List.mem_map.2 ⟨j, List.mem_range.2 hj, rfl⟩)
  obtain ⟨m, hm, hme⟩ := List.getElem_of_mem hmem
  have hne : next.map (fun v => |v - r|) ≠ [] := by
    intro h
    rw [List.map_eq_nil_iff] at h
    rw [h] at hmem
    simp at hmem
  have hlt := argmin_lt _ hne
  rw [List.length_map] at hlt
  have hle := argmin_min (next.map (fun v => |v - r|)) m (by simpa using hm)
  simp only [List.getD_eq_getElem?_getD, List.getElem?_map, List.getElem?_eq_getElem hm, List.getElem?_eq_getElem hlt, Option.map_some,
    Option.getD_some, hme] at hle ⊢
  by_contra hc
  obtain ⟨l, hl, e⟩ := List.mem_map.1 (hp.mem_iff.1 (List.getElem_mem hlt))
  have := hr i hi j hj l (List.mem_range.1 hl) (by rw [e]; exact hc)
  rw [e, ← hrdef] at this
  exact absurd hle (not_le.2 this)

omit [IsStrictOrderedRing K] in
theorem cols_eq (b : Nat → Nat → K) (order n nj ii : Nat) (hr : Resolved b n nj) (hi : ii + 1 < n) (ho : order ≤ 2) (hio : ii ≤ order ∨ order = 2)
    (next : List K) (hp : next.Perm ((List.range nj).map (b (ii + 1)))) (js : List Nat) (hjs : ∀ j ∈ js, j < nj) (ref : K) :
    (osCols order ii (bandRows b (ii + 1) nj) next js ref).1 = js.map (b (ii + 1)) := by
  induction js generalizing ref with
  | nil => rfl
  | cons j l ih =>
    unfold osCols
    dsimp only
    rw [ih (fun x hx => hjs x (by simp [hx])), ref_eq b order ii nj j (hjs j (by simp)) ho hio,
      chosen b n nj ii j hr hi (hjs j (by simp)) next hp]
    rfl

omit [IsStrictOrderedRing K] in
theorem rows_eq (b : Nat → Nat → K) (order n nj : Nat) (hr : Resolved b n nj) (ho : order ≤ 2) (hn : n ≤ order + 2 ∨ order = 2) (rest : List (List K))
    (ii : Nat) (hlen : ii + 1 + rest.length = n) (hp : ∀ (i : Nat) (r : List K), rest[i]? = some r → r.Perm ((List.range nj).map (b (ii + 1 + i)))) (ref : K) :
    osRows order nj ii (bandRows b (ii + 1) nj) ref rest = bandRows b n nj := by
  induction rest generalizing ii ref with
  | nil =>
    unfold osRows
    rw [← hlen]
    rfl
  | cons next rest ih =>
    rw [List.length_cons] at hlen
    unfold osRows
    dsimp only
    rw [cols_eq b order n nj ii hr (by omega) ho (by omega) next (by simpa using hp 0 next rfl) _ (fun j hj => List.mem_range.1 hj)]
    have e : bandRows b (ii + 1) nj ++ [(List.range nj).map (b (ii + 1))] = bandRows b (ii + 1 + 1) nj := by
      unfold bandRows
      rw [List.range_succ (n := ii + 1), List.map_append]
      rfl
    rw [e]
    apply ih (ii + 1) (by omega)
    intro i r h
    have := hp (i + 1) r (by simpa using h)
    have e2 : ii + 1 + (i + 1) = ii + 1 + 1 + i := by omega
    rwa [e2] at this

omit [IsStrictOrderedRing K] in
theorem os_once (r0 : List K) (rest : List (List K)) (o : Nat) (ho : o ≤ 2) :
    orderSimilar (r0 :: rest) o 1 = some (osRows o r0.length 0 [r0] 0 rest) := by
  simp [orderSimilar, not_lt.2 ho]

omit [IsStrictOrderedRing K] in
/-- C184: if the first row is in order and each next point of a band is closer to the extrapolated value than those of the other bands, the bands
are recovered from shuffled rows: for any number of points with `order=2` (and any `repeat`), for at most `order + 2` points otherwise. -/
theorem C184_untangle_partial (b : Nat → Nat → K) (arr : List (List K)) (n nj order rep : Nat) (hn : 1 ≤ n) (hs : Shuffled b n nj arr)
    (hr : Resolved b n nj) (ho : order ≤ 2) (hrep : 1 ≤ rep) (hno : (n ≤ order + 2 ∧ rep = 1) ∨ order = 2 ∨ 2 ≤ rep) :
    orderSimilar arr order rep = some (bandRows b n nj) := by
  have main : ∀ o, o ≤ 2 → (n ≤ o + 2 ∨ o = 2) → orderSimilar arr o 1 = some (bandRows b n nj) := by
    intro o ho hno
    obtain ⟨h1, h2, h3⟩ := hs
    rcases arr with _ | ⟨r0, rest⟩
    · simp at h1; omega
    · have e0 := h2 r0 rfl
      rw [os_once r0 rest o ho, e0, List.length_map, List.length_range]
      have := rows_eq b o n nj hr ho hno rest 0 (by simp at h1; omega) (fun i r h => by
        have := h3 (i + 1) r (by simpa using h)
        have e2 : i + 1 = 0 + 1 + i := by omega
        rwa [e2] at this) 0
      rw [← this]
      rfl
  by_cases h1 : rep = 1
  · rw [h1]
    exact main order ho (by omega)
  · rw [C27_repeat arr order rep ho (by omega)]
    exact main 2 (le_refl 2) (.inr rfl)

/-- C184: bands which are parabolas of the row number are recovered whatever crossings they have, if the first two steps are resolved. -/
theorem C184_parabolas (a c d : Nat → K) (arr : List (List K)) (n nj : Nat) (hn : 1 ≤ n)
    (hs : Shuffled (fun i j => a j + c j * i + d j * i ^ 2) n nj arr)
    (hr : Resolved (fun i j => a j + c j * i + d j * i ^ 2) (min n 3) nj) :
    orderSimilar arr 2 1 = some (bandRows (fun i j => a j + c j * i + d j * i ^ 2) n nj) := by
  apply C184_untangle_partial _ arr n nj 2 1 hn hs _ (le_refl 2) (le_refl 1) (.inr (.inl rfl))
  intro i hi j hj l hl hne
  match i with
  | 0 => exact hr 0 (by omega) j hj l hl hne
  | 1 => exact hr 1 (by omega) j hj l hl hne
  | i + 2 =>
    have e : a j + c j * ((i + 2 + 1 : ℕ) : K) + d j * ((i + 2 + 1 : ℕ) : K) ^ 2 =
        extrapolated (fun i j => a j + c j * (i : K) + d j * (i : K) ^ 2) (i + 2) j := by
      simp only [extrapolated]
      push_cast
      ring
    rw [← e, sub_self, abs_zero]
    exact abs_pos.2 (sub_ne_zero.2 hne)

omit [IsStrictOrderedRing K] in
theorem cols_stale (order ii : Nat) (arr2 : List (List K)) (next : List K) (js : List Nat) (ref : K) (h : order < ii ∧ order ≤ 1) :
    osCols order ii arr2 next js ref = (js.map (fun _ => next.getD (argmin (next.map (fun v => |v - ref|))) 0), ref) := by
  induction js with
  | nil => rfl
  | cons j l ih =>
    have hrf : osRef order ii arr2 j ref = ref := by
      unfold osRef
      dsimp only
      rw [if_neg (by omega), if_neg (by omega), if_neg (by omega)]
    unfold osCols
    dsimp only
    rw [hrf, ih]
    rfl

omit [IsStrictOrderedRing K] in
theorem rows_stale (order nj : Nat) (ho : order ≤ 1) (rest : List (List K)) (ii : Nat) (arr2 : List (List K)) (hl : arr2.length = ii + 1)
    (h0 : ∀ (i : Nat) o, order + 2 ≤ i → arr2[i]? = some o → ∀ u ∈ o, ∀ v ∈ o, u = v) (ref : K) (i : Nat) (o : List K) (hi : order + 2 ≤ i)
    (hout : (osRows order nj ii arr2 ref rest)[i]? = some o) : ∀ u ∈ o, ∀ v ∈ o, u = v := by
  induction rest generalizing ii arr2 ref with
  | nil => exact h0 i o hi hout
  | cons next rest ih =>
    unfold osRows at hout
    dsimp only at hout
    refine ih (ii + 1) _ (by simp [hl]) ?_ _ hout
    intro k r hk hr
    by_cases hkl : k < arr2.length
    · rw [List.getElem?_append_left hkl] at hr
      exact h0 k r hk hr
    · have : k = ii + 1 := by
        have := (List.getElem?_eq_some_iff.1 hr).1
        simp at this
        omega
      subst this
      rw [cols_stale order ii arr2 next _ ref ⟨by omega, ho⟩, List.getElem?_append_right (by omega), hl] at hr
      simp only [Nat.sub_self, List.getElem?_cons_zero, Option.some.injEq] at hr
      subst hr
      intro u hu v hv
      obtain ⟨_, _, rfl⟩ := List.mem_map.1 hu
      obtain ⟨_, _, rfl⟩ := List.mem_map.1 hv
      rfl

omit [IsStrictOrderedRing K] in
/-- C184 is false for `order=0` and `order=1` with more than `order + 2` points: from there on all bands have the same value, whatever the data. -/
theorem C184_order_counterexample (arr out : List (List K)) (order : Nat) (ho : order ≤ 1) (h : orderSimilar arr order 1 = some out) (i : Nat)
    (o : List K) (hi : order + 2 ≤ i) (hout : out[i]? = some o) : ∀ u ∈ o, ∀ v ∈ o, u = v := by
  rcases arr with _ | ⟨r0, rest⟩
  · simp [orderSimilar] at h
  · rw [os_once r0 rest order (by omega)] at h
    cases h
    refine rows_stale order r0.length ho rest 0 [r0] rfl ?_ 0 i o hi hout
    intro k r hk hr
    have := (List.getElem?_eq_some_iff.1 hr).1
    simp at this
    omega

/-- Two lines which cross between rows 3 and 4: `i` and `7 - i`. -/
theorem lines_resolved : Resolved (fun i j => (if j = 0 then (0 : ℚ) else 7) + (if j = 0 then 1 else -1) * i + 0 * (i : ℚ) ^ 2) (min 5 3) 2 := by
  intro i hi j hj l hl hne
  have : i = 0 ∨ i = 1 := by omega
  have hj : j = 0 ∨ j = 1 := by omega
  have hl : l = 0 ∨ l = 1 := by omega
  rcases this with rfl | rfl <;> rcases hj with rfl | rfl <;> rcases hl with rfl | rfl <;> first
    | exact absurd rfl hne
    | (simp only [extrapolated]; norm_num [abs_of_pos, abs_of_neg])

theorem lines_shuffled : Shuffled (fun i j => (if j = 0 then (0 : ℚ) else 7) + (if j = 0 then 1 else -1) * i + 0 * (i : ℚ) ^ 2) 5 2
    [[0, 7], [6, 1], [2, 5], [4, 3], [3, 4]] := by
  refine ⟨rfl, ?_, ?_⟩
  · intro r h
    cases h
    norm_num [List.range_succ]
  · intro i r h
    match i, h with
    | 0, h => cases h; norm_num [List.range_succ]
    | 1, h => cases h; norm_num [List.range_succ]; exact List.Perm.swap _ _ _
    | 2, h => cases h; norm_num [List.range_succ]
    | 3, h => cases h; norm_num [List.range_succ]; exact List.Perm.swap _ _ _
    | 4, h => cases h; norm_num [List.range_succ]; exact List.Perm.swap _ _ _

example : orderSimilar ([[0, 7], [6, 1], [2, 5], [4, 3], [3, 4]] : List (List ℚ)) 2 1 = some [[0, 7], [1, 6], [2, 5], [3, 4], [4, 3]] := by
  rw [C184_parabolas _ _ (fun _ => 0) _ 5 2 (by norm_num) lines_shuffled lines_resolved]
  norm_num [bandRows, List.range_succ]

/-- With `order=1` the fourth row is lost. -/
example : ∀ out, orderSimilar ([[0, 7], [6, 1], [2, 5], [4, 3], [3, 4]] : List (List ℚ)) 1 1 = some out → out[3]? ≠ some [3, 4] := by
  intro out h h3
  have := C184_order_counterexample _ out 1 (le_refl 1) h 3 _ (le_refl 3) h3 3 (by simp) 4 (by simp)
  norm_num at this

end Pwtools.Num
