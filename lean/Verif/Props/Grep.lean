import Verif.Model.Grep
import Verif.Props.Common
import Verif.Spec.PwOut
import Mathlib.Data.List.Infix
import Mathlib.Data.List.Forall2
import Mathlib.Tactic.Ring
/-!
# Lemmas about the shell tools
-/
namespace Pwtools.Gr

theorem isInfix_iff_append (key l : Text) : isInfix key l = true ↔ ∃ a b, l = a ++ key ++ b := by
  induction l with
  | nil =>
    simp only [isInfix, List.isEmpty_iff]
    constructor
    · rintro rfl
      exact ⟨[], [], rfl⟩
    · rintro ⟨a, b, h⟩
      simp at h
      exact h.2.1
  | cons c cs ih =>
    simp only [isInfix, Bool.or_eq_true, List.isPrefixOf_iff_prefix, ih]
    constructor
    · rintro (⟨t, ht⟩ | ⟨a, b, h⟩)
      · exact ⟨[], t, by simpa using ht.symm⟩
      · exact ⟨c :: a, b, by simp [h]⟩
    · rintro ⟨a, b, h⟩
      cases a with
      | nil => exact Or.inl ⟨b, by simpa using h.symm⟩
      | cons x a =>
        refine Or.inr ⟨a, b, ?_⟩
        simp at h
        simpa using h.2

theorem hasSeq_cons (w : Text) (ws : List Text) (l : Text) :
    hasSeq (w :: ws) l = true ↔ ∃ a b, l = a ++ (w ++ b) ∧ hasSeq ws b = true := by
  simp only [hasSeq, List.any_eq_true, List.mem_tails, Bool.and_eq_true, List.isPrefixOf_iff_prefix]
  constructor
  · rintro ⟨t, ⟨a, rfl⟩, ⟨b, rfl⟩, h⟩
    exact ⟨a, b, rfl, by simpa using h⟩
  · rintro ⟨a, b, rfl, h⟩
    exact ⟨w ++ b, ⟨a, rfl⟩, ⟨b, rfl⟩, by simpa using h⟩

theorem dropWhile_replicate_append (n : Nat) (t : Text) (ht : t.head? ≠ some ' ') :
    (List.replicate n ' ' ++ t).dropWhile (· = ' ') = t := by
  induction n with
  | zero =>
    cases t with
    | nil => rfl
    | cons c t =>
      simp only [List.head?_cons, ne_eq, Option.some.injEq] at ht
      simp [ht]
  | succ n ih => simpa [List.replicate_succ] using ih

theorem dropWhile_spaces (t : Text) : ∃ n, t = List.replicate n ' ' ++ t.dropWhile (· = ' ') := by
  induction t with
  | nil => exact ⟨0, rfl⟩
  | cons c t ih =>
    by_cases h : c = ' '
    · subst h
      obtain ⟨n, hn⟩ := ih
      refine ⟨n + 1, ?_⟩
      simp only [List.replicate_succ, List.cons_append, List.dropWhile_cons, decide_true, if_true]
      rw [← hn]
    · exact ⟨0, by simp [h]⟩

/-- One more word in front. -/
theorem spacedPrefix_cons (w w2 : Text) (ws : List Text) (l : Text) (hw : w2.head? ≠ some ' ') (hw' : w2 ≠ []) :
    spacedPrefix (w :: w2 :: ws) l = true ↔
      ∃ n t, l = w ++ (List.replicate (n + 1) ' ' ++ t) ∧ spacedPrefix (w2 :: ws) t = true := by
  have hp : ∀ t, spacedPrefix (w2 :: ws) t = true → w2 <+: t := by
    intro t h
    cases ws with
    | nil => simpa [spacedPrefix] using h
    | cons w3 ws =>
      simp only [spacedPrefix, Bool.and_eq_true, List.isPrefixOf_iff_prefix] at h
      exact h.1.1
  simp only [spacedPrefix, Bool.and_eq_true, List.isPrefixOf_iff_prefix, decide_eq_true_eq]
  constructor
  · rintro ⟨⟨⟨b, rfl⟩, h2⟩, h3⟩
    simp only [List.drop_left] at h2 h3
    obtain ⟨n, hn⟩ := dropWhile_spaces b
    cases n with
    | zero =>
      exfalso
      simp only [List.replicate_zero, List.nil_append] at hn
      obtain ⟨u, hu⟩ := hp _ h3
      rw [← hn] at hu
      cases w2 with
      | nil => exact hw' rfl
      | cons x w2 =>
        apply hw
        rw [← h2, ← hu]
        simp
    | succ n => exact ⟨n, b.dropWhile (· = ' '), by rw [← hn], h3⟩
  · rintro ⟨n, t, rfl, h⟩
    refine ⟨⟨⟨_, rfl⟩, by simp [List.replicate_succ]⟩, ?_⟩
    have : t.head? ≠ some ' ' := by
      obtain ⟨u, rfl⟩ := hp _ h
      cases w2 with
      | nil => exact absurd rfl hw'
      | cons x w2 => simpa using hw
    simp only [List.drop_left]
    rw [dropWhile_replicate_append _ _ this]
    exact h

theorem splitWs_ne_nil (l w : Text) (h : w ∈ splitWs l) : w ≠ [] := by
  unfold splitWs at h
  have : ∀ cur, w ∈ splitWsAux cur l → w ≠ [] := by
    clear h
    induction l with
    | nil =>
      intro cur h
      simp only [splitWsAux] at h
      split at h
      · simp at h
      · next hc => simp only [List.mem_singleton] at h; exact h ▸ hc
    | cons c l ih =>
      intro cur h
      simp only [splitWsAux] at h
      split at h
      · split at h
        · exact ih _ h
        · next hc =>
          simp only [List.mem_cons] at h
          rcases h with rfl | h
          · exact hc
          · exact ih _ h
      · exact ih _ h
  exact this _ h

/-! ## grep -A -/

/-- What is left of the output of `grep -A` without the separators. -/
def pick (n : Nat) (p keep : Text → Bool) : List Text → Nat → List Text
  | [], _ => []
  | l :: ls, cnt =>
    if p l then pick n p keep ls n
    else match cnt with
      | c + 1 => (if keep l then [l] else []) ++ pick n p keep ls c
      | 0 => pick n p keep ls 0

theorem grepA_filter (n : Nat) (p keep : Text → Bool) (hk : ∀ l, keep l = true → p l = false) (hd : keep "--".toList = false)
    (L : List Text) (c : Nat) (s g : Bool) : (grepA n p L c s g).filter keep = pick n p keep L c := by
  induction L generalizing c s g with
  | nil => rfl
  | cons l L ih =>
    simp only [grepA, pick]
    by_cases h : p l = true
    · rw [if_pos h, if_pos h, List.filter_append, List.filter_cons, ih]
      have h1 : keep l = false := by
        by_contra hc
        have := hk l (by simpa using hc)
        simp [h] at this
      rw [h1]
      split
      · rw [List.filter_cons, hd]
        simp
      · simp
    · rw [if_neg h, if_neg h]
      cases c with
      | zero => exact ih _ _ _
      | succ c =>
        simp only [List.filter_cons, ih]
        split <;> simp

theorem pick_other (n : Nat) (p keep : Text → Bool) (A B : List Text) (h : ∀ l ∈ A, p l = false) :
    pick n p keep (A ++ B) 0 = pick n p keep B 0 := by
  induction A with
  | nil => rfl
  | cons l A ih =>
    simp only [List.cons_append, pick, h l (by simp), Bool.false_eq_true, if_false]
    exact ih fun x hx => h x (by simp [hx])

theorem pick_rows (n : Nat) (p keep : Text → Bool) (A B : List Text) (c : Nat) (h : ∀ l ∈ A, p l = false ∧ keep l = true) (hc : A.length ≤ c) :
    pick n p keep (A ++ B) c = A ++ pick n p keep B (c - A.length) := by
  induction A generalizing c with
  | nil => simp
  | cons l A ih =>
    obtain ⟨c, rfl⟩ : ∃ c', c = c' + 1 := ⟨c - 1, by simp at hc; omega⟩
    simp only [List.cons_append, pick, (h l (by simp)).1, (h l (by simp)).2, Bool.false_eq_true, if_false, if_true]
    rw [ih c (fun x hx => h x (by simp [hx])) (by simpa using hc)]
    simp

theorem pick_block (n : Nat) (p keep : Text → Bool) (hd : Text) (A B : List Text) (hh : p hd = true)
    (h : ∀ l ∈ A, p l = false ∧ keep l = true) (hc : A.length = n) :
    pick n p keep (hd :: A ++ B) 0 = A ++ pick n p keep B 0 := by
  simp only [List.cons_append, pick, hh, if_true]
  rw [pick_rows n p keep A B n h hc.le]
  simp [hc]

theorem grepAfter_eq (n : Nat) (key : Text) (file : List Text) :
    grepAfter n key file = pick n (isInfix key) (fun l => !isInfix key l && !isInfix "--".toList l) file 0 := by
  unfold grepAfter
  apply grepA_filter
  · intro l h
    simp only [Bool.and_eq_true, Bool.not_eq_true'] at h
    exact h.1
  · have : isInfix "--".toList "--".toList = true := by decide
    simp only [this, Bool.not_true, Bool.and_false]

/-! ## numbers -/

variable {K : Type}

theorem fromString_map (num : Text → Option K) (ws : List Text) (v : List K) (h : ws.map num = v.map some) : fromString num ws = v := by
  induction ws generalizing v with
  | nil =>
    cases v with
    | nil => rfl
    | cons _ _ => simp at h
  | cons w ws ih =>
    cases v with
    | nil => simp at h
    | cons x v =>
      simp only [List.map_cons, List.cons.injEq] at h
      simp only [fromString, h.1, ih v h.2]

theorem fromString_length (num : Text → Option K) (ws : List Text) : (fromString num ws).length ≤ ws.length := by
  induction ws with
  | nil => simp [fromString]
  | cons w ws ih =>
    simp only [fromString]
    split <;> simp <;> omega

theorem chunks_flatten (m : Nat) (L : List (List K)) (h : ∀ r ∈ L, r.length = m) : chunks m L.flatten L.length = L := by
  unfold chunks
  induction L with
  | nil => rfl
  | cons r L ih =>
    rw [List.length_cons, List.range_succ_eq_map, List.map_cons, List.map_map]
    have hr : r.length = m := h r (by simp)
    congr 1
    · simp [hr.symm]
    · conv_rhs => rw [← ih fun x hx => h x (by simp [hx])]
      apply List.map_congr_left
      intro i _
      simp only [Function.comp, List.flatten_cons]
      rw [show (i + 1) * m = r.length + i * m by rw [hr]; ring, List.drop_append,
        List.drop_eq_nil_of_le (by omega)]
      simp

/-- Reading back a 3d array. -/
theorem trajFromTxt_eq (num : Text → Option K) (ws : List Text) (A : List (List (List K))) (m k : Nat) (hm : 0 < m) (hk : 0 < k)
    (hA : ∀ a ∈ A, a.length = m ∧ ∀ r ∈ a, r.length = k) (hw : ws.map num = (A.flatMap List.flatten).map some) :
    trajFromTxt num ws A.length m k = .ok (if A = [] then none else some A) := by
  have hlen : ∀ a ∈ A, a.flatten.length = m * k := by
    intro a ha
    rw [List.length_flatten, List.map_congr_left (g := fun _ => k) (fun r hr => (hA a ha).2 r hr)]
    simp [(hA a ha).1]
  have hf : A.flatMap List.flatten = (A.map List.flatten).flatten := by rw [List.flatMap_def]
  have hl : (A.flatMap List.flatten).length = A.length * (m * k) := by
    rw [hf, List.length_flatten, List.map_map]
    have : A.map (List.length ∘ List.flatten) = A.map fun _ => m * k := List.map_congr_left fun a ha => hlen a ha
    rw [this]
    simp
  have hws : ws.length = A.length * (m * k) := by
    have := congrArg List.length hw
    simpa [hl] using this
  unfold trajFromTxt
  have hmk : 0 < m * k := Nat.mul_pos hm hk
  by_cases hA0 : A = []
  · subst hA0
    have : ws = [] := List.length_eq_zero_iff.1 (by simpa using hws)
    simp [this]
  · have hpos : 0 < A.length := List.length_pos_of_ne_nil hA0
    have hne : ws ≠ [] := by
      intro h
      rw [h] at hws
      have := Nat.mul_pos hpos hmk
      rw [← hws] at this
      simp at this
    rw [if_neg hne, if_neg hA0]
    simp only [fromString_map num ws _ hw]
    rw [if_pos (by rw [hl, Nat.mul_assoc]), hf]
    have h1 := chunks_flatten (m * k) (A.map List.flatten) (by
      intro r hr
      obtain ⟨a, ha, rfl⟩ := List.mem_map.1 hr
      exact hlen a ha)
    rw [List.length_map] at h1
    rw [h1, List.map_map]
    congr 2
    rw [List.map_congr_left (g := id)]
    · simp
    · intro a ha
      simp only [Function.comp, id]
      have := chunks_flatten k a (hA a ha).2
      rwa [(hA a ha).1] at this

/-- A wrong number of numbers is refused. -/
theorem trajFromTxt_short (num : Text → Option K) (ws : List Text) (n m k : Nat) (h0 : ws ≠ []) (h : ws.length < n * m * k) :
    trajFromTxt num ws n m k = .error .value := by
  unfold trajFromTxt
  rw [if_neg h0]
  have := fromString_length num ws
  exact if_neg (by omega)

theorem awk_row (num : Text → Option K) (cols : List Nat) (l : Text) (v : List K)
    (h : cols.map (fun i => (splitWs l)[i - 1]?.bind num) = v.map some) : (awk cols l).map num = v.map some := by
  unfold awk
  induction cols generalizing v with
  | nil => simpa using h
  | cons i cols ih =>
    cases v with
    | nil => simp at h
    | cons x v =>
      simp only [List.map_cons, List.cons.injEq] at h ⊢
      obtain ⟨h1, h2⟩ := h
      have ih := ih v h2
      cases hw : (splitWs l)[i - 1]? with
      | none => simp [hw] at h1
      | some w =>
        have hne : w ≠ [] := splitWs_ne_nil l w (List.mem_of_getElem? hw)
        simp only [hw, Option.bind_some] at h1
        have hd : (splitWs l).getD (i - 1) [] = w := by simp [List.getD, hw]
        rw [hd, List.filter_cons]
        rw [if_pos (by simpa using hne), List.map_cons, ih, h1]

theorem mapM_num (num : Text → Option K) (ws : List Text) (v : List K) (h : ws.map num = v.map some) : ws.mapM num = some v := by
  induction ws generalizing v with
  | nil =>
    cases v with
    | nil => rfl
    | cons _ _ => simp at h
  | cons w ws ih =>
    cases v with
    | nil => simp at h
    | cons x v =>
      simp only [List.map_cons, List.cons.injEq] at h
      simp [List.mapM_cons, h.1, ih v h.2]

theorem mapM_rows (num : Text → Option K) (rows : List (List Text)) (vals : List (List K))
    (h : List.Forall₂ (fun r v => r.map num = v.map some) rows vals) : rows.mapM (fun r => r.mapM num) = some vals := by
  induction h with
  | nil => rfl
  | cons h _ ih => simp [List.mapM_cons, mapM_num num _ _ h, ih]

theorem loadRows_eq (num : Text → Option K) (rows : List (List Text)) (vals : List (List K)) (m : Nat) (hm : 0 < m)
    (h : List.Forall₂ (fun r v => r.map num = v.map some) rows vals) (hv : ∀ v ∈ vals, v.length = m) :
    loadRows num rows = .ok vals := by
  have hne : ∀ r ∈ rows, r ≠ [] := by
    intro r hr hn
    subst hn
    obtain ⟨v, hv', he⟩ : ∃ v ∈ vals, ([] : List Text).map num = v.map some := by
      clear hv
      induction h with
      | nil => simp at hr
      | cons h1 h2 ih =>
        rcases List.mem_cons.1 hr with h3 | h3
        · subst h3
          exact ⟨_, by simp, h1⟩
        · obtain ⟨v, hv, e⟩ := ih h3
          exact ⟨v, by simp [hv], e⟩
    have hl := hv v hv'
    have : v = [] := by simpa using he.symm
    subst this
    simp at hl
    omega
  unfold loadRows
  have : rows.filter (· ≠ []) = rows := by
    rw [List.filter_eq_self]
    intro r hr
    simpa using hne r hr
  simp only [this, mapM_rows num rows vals h]
  rw [if_pos]
  rw [List.all_eq_true]
  intro v hv'
  have h1 := hv v hv'
  cases vals with
  | nil => simp at hv'
  | cons x xs => simp [h1, hv x (by simp)]

end Pwtools.Gr
