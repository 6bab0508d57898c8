import Verif.Model.Regex
/-!
# The backtracking matcher
-/
namespace Pwtools.Re
variable {β : Type}

theorem mem_downFrom (n lo i : Nat) : i ∈ downFrom n lo ↔ lo ≤ i ∧ i ≤ n := by
  simp [downFrom]
  omega

theorem downFrom_succ (n lo : Nat) (h : lo ≤ n + 1) : downFrom (n + 1) lo = (n + 1) :: downFrom n lo := by
  unfold downFrom
  rw [List.range_succ, List.filter_append, List.reverse_append]
  simp [h]

theorem downFrom_lt (n lo : Nat) (h : n < lo) : downFrom n lo = [] := by
  rw [List.eq_nil_iff_forall_not_mem]
  intro i hi
  rw [mem_downFrom] at hi
  omega

theorem downFrom_find (f : Nat → Option β) (b : β) (lo n0 : Nat) (hlo : lo ≤ n0) (h0 : f n0 = some b) (d : Nat)
    (h : ∀ n, n0 < n → n ≤ n0 + d → f n = none) : (downFrom (n0 + d) lo).findSome? f = some b := by
  induction d with
  | zero =>
    cases n0 with
    | zero =>
      have : lo = 0 := by omega
      subst this
      simp [downFrom, h0]
    | succ n0 => rw [Nat.add_zero, downFrom_succ _ _ hlo, List.findSome?_cons, h0]
  | succ d ih =>
    rw [← Nat.add_assoc, downFrom_succ _ _ (by omega), List.findSome?_cons, h _ (by omega) (by omega)]
    exact ih fun n h1 h2 => h n h1 (by omega)

/-- A class of characters matches `n0` of them if more do not lead to a match. -/
theorem many_some {lo : Nat} {p : Char → Bool} {s : Text} {k : Text → Text → Caps → Option β} (n0 : Nat) (b : β) (hlo : lo ≤ n0) (hl : n0 ≤ (s.takeWhile p).length)
    (h : ∀ n, n0 < n → n ≤ (s.takeWhile p).length → k (s.take n) (s.drop n) [] = none) (h0 : k (s.take n0) (s.drop n0) [] = some b) :
    (Rx.many lo p).m s k = some b := by
  obtain ⟨d, hd⟩ : ∃ d, (s.takeWhile p).length = n0 + d := ⟨_, (Nat.add_sub_of_le hl).symm⟩
  simp only [Rx.m]
  rw [hd] at h ⊢
  exact downFrom_find _ b lo n0 hlo h0 d h

theorem many_none {lo : Nat} {p : Char → Bool} {s : Text} {k : Text → Text → Caps → Option β}
    (h : ∀ n, lo ≤ n → n ≤ (s.takeWhile p).length → k (s.take n) (s.drop n) [] = none) : (Rx.many lo p).m s k = none := by
  simp only [Rx.m, List.findSome?_eq_none_iff]
  intro n hn
  rw [mem_downFrom] at hn
  exact h n hn.1 hn.2

theorem takeWhile_split {p : Char → Bool} (u v : Text) (hu : ∀ c ∈ u, p c = true) (hv : ∀ c, v.head? = some c → p c = false) : (u ++ v).takeWhile p = u := by
  rw [List.takeWhile_append_of_pos hu]
  cases v with
  | nil => simp
  | cons c v => rw [List.takeWhile_cons_of_neg (by simp [hv c rfl]), List.append_nil]

/-- All characters of the class, if the rest of the pattern then matches. -/
theorem many_all {lo : Nat} {p : Char → Bool} {k : Text → Text → Caps → Option β} (u v : Text) (b : β) (hu : ∀ c ∈ u, p c = true)
    (hv : ∀ c, v.head? = some c → p c = false) (hlo : lo ≤ u.length) (h : k u v [] = some b) : (Rx.many lo p).m (u ++ v) k = some b := by
  have e := takeWhile_split u v hu hv
  refine many_some u.length b hlo (by rw [e]; exact Nat.le_refl _) (fun n h1 h2 => ?_) (by simpa using h)
  rw [e] at h2
  omega

theorem takeWhile_le {p : Char → Bool} (s : Text) (i : Nat) (c : Char) (hi : s[i]? = some c) (hc : p c = false) : (s.takeWhile p).length ≤ i := by
  induction s generalizing i with
  | nil => simp
  | cons a s ih =>
    cases i with
    | zero =>
      simp only [List.getElem?_cons_zero, Option.some.injEq] at hi
      rw [hi, List.takeWhile_cons_of_neg (by simp [hc])]
      simp
    | succ i =>
      by_cases ha : p a = true
      · rw [List.takeWhile_cons_of_pos ha]
        simpa using ih i (by simpa using hi)
      · rw [List.takeWhile_cons_of_neg ha]
        simp

/-- What is matched is the beginning of the text. -/
theorem m_split (r : Rx) (s : Text) (k : Text → Text → Caps → Option β) (b : β) (h : r.m s k = some b) : ∃ c t g, s = c ++ t ∧ k c t g = some b := by
  induction r generalizing s k with
  | eps => exact ⟨[], s, [], rfl, h⟩
  | lit t =>
    simp only [Rx.m] at h
    split at h
    · rename_i hp
      obtain ⟨u, rfl⟩ := List.isPrefixOf_iff_prefix.1 hp
      exact ⟨t, u, [], rfl, by simpa using h⟩
    · simp at h
  | many lo p =>
    simp only [Rx.m] at h
    obtain ⟨n, -, hn⟩ := List.exists_of_findSome?_eq_some h
    exact ⟨_, _, [], (List.take_append_drop n s).symm, hn⟩
  | seq a b iha ihb =>
    obtain ⟨c, t, g, e, h1⟩ := iha _ _ h
    obtain ⟨c', t', g', e', h2⟩ := ihb _ _ h1
    exact ⟨c ++ c', t', _, by rw [e, e', List.append_assoc], h2⟩
  | alt a b iha ihb =>
    simp only [Rx.m] at h
    rcases e : a.m s k with - | x
    · rw [e] at h
      exact ihb _ _ (by simpa using h)
    · rw [e] at h
      exact iha _ _ (by rw [e]; simpa using h)
  | grp n a ih =>
    obtain ⟨c, t, g, e, h1⟩ := ih _ _ h
    exact ⟨c, t, _, e, h1⟩

theorem matchAt_split (r : Rx) (s c t : Text) (g : Caps) (h : r.matchAt s = some (c, t, g)) : s = c ++ t := by
  obtain ⟨c', t', g', e, h'⟩ := m_split r s _ _ h
  simp only [Option.some.injEq, Prod.mk.injEq] at h'
  rw [e, h'.1, h'.2.1]

/-- More fuel does not change the matches. -/
theorem finditer_fuel (r : Rx) (s : Text) (fuel : Nat) (h : s.length + 1 ≤ fuel) : r.finditerAux fuel s = r.finditer s := by
  unfold Rx.finditer
  induction hn : s.length using Nat.strongRecOn generalizing s fuel with
  | _ n ih =>
    obtain ⟨f, rfl⟩ : ∃ f, fuel = f + 1 := ⟨fuel - 1, by omega⟩
    have key : ∀ t : Text, t.length < n → r.finditerAux f t = r.finditerAux n t := by
      intro t ht
      rw [ih t.length ht t f (by omega) rfl, ih t.length ht t n (by omega) rfl]
    simp only [Rx.finditerAux]
    rcases e : r.matchAt s with - | ⟨c, t, g⟩
    · simp only
      split
      · rfl
      · rename_i hs
        have := List.length_pos_iff.2 hs
        exact key _ (by simp; omega)
    · simp only
      split
      · rfl
      · rename_i hs
        have h1 := List.length_pos_iff.2 hs
        have h2 := congrArg List.length (matchAt_split r s c t g e)
        rw [List.length_append] at h2
        congr 1
        split
        · exact key _ (by simp; omega)
        · rename_i hc
          have := List.length_pos_iff.2 hc
          exact key _ (by omega)

theorem finditer_none (r : Rx) (c : Char) (s : Text) (h : r.matchAt (c :: s) = none) : r.finditer (c :: s) = r.finditer s := by
  unfold Rx.finditer
  rw [List.length_cons, Rx.finditerAux, h]
  simp only [if_neg (List.cons_ne_nil c s), List.drop_one, List.tail_cons]

theorem finditer_nil (r : Rx) (h : r.matchAt [] = none) : r.finditer [] = [] := by
  unfold Rx.finditer
  simp [Rx.finditerAux, h]

theorem finditer_some (r : Rx) (s c t : Text) (g : Caps) (h : r.matchAt s = some (c, t, g)) (hc : c ≠ []) : r.finditer s = g :: r.finditer t := by
  have e := matchAt_split r s c t g h
  have hs : s ≠ [] := by rw [e]; simp [hc]
  have h1 := List.length_pos_iff.2 hc
  have h2 := congrArg List.length e
  rw [List.length_append] at h2
  have e' : r.finditer s = r.finditerAux (s.length + 1) s := rfl
  rw [e', Rx.finditerAux, h]
  simp only
  rw [if_neg hs, if_neg hc, finditer_fuel _ _ _ (by omega)]

/-- A text in which no match begins is skipped. -/
theorem finditer_skip (r : Rx) (t s : Text) (h : ∀ u v, t = u ++ v → v ≠ [] → r.matchAt (v ++ s) = none) : r.finditer (t ++ s) = r.finditer s := by
  induction t with
  | nil => rfl
  | cons c t ih =>
    have h0 : r.matchAt (c :: (t ++ s)) = none := h [] (c :: t) rfl (by simp)
    rw [List.cons_append, finditer_none _ _ _ h0]
    exact ih fun u v e hv => h (c :: u) v (by rw [e]; rfl) hv

theorem search_skip (r : Rx) (t s : Text) (h : ∀ u v, t = u ++ v → v ≠ [] → r.matchAt (v ++ s) = none) : r.search (t ++ s) = r.search s := by
  induction t with
  | nil => rfl
  | cons c t ih =>
    have := h [] (c :: t) rfl (by simp)
    rw [List.cons_append] at this ⊢
    rw [Rx.search, this]
    exact ih fun u v e hv => h (c :: u) v (by rw [e]; rfl) hv

theorem search_some (r : Rx) (s : Text) (x : Text × Text × Caps) (h : r.matchAt s = some x) : r.search s = some x.2.2 := by
  cases s with
  | nil => simp [Rx.search, h]
  | cons c s => simp [Rx.search, h]

theorem search_none (r : Rx) (t : Text) (h : ∀ u v, t = u ++ v → r.matchAt v = none) : r.search t = none := by
  induction t with
  | nil => simp [Rx.search, h [] [] rfl]
  | cons c t ih =>
    rw [Rx.search, h [] _ rfl]
    exact ih fun u v e => h (c :: u) v (by rw [e]; rfl)

end Pwtools.Re
