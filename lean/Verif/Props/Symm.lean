import Verif.Model.Symm
import Verif.Spec.Symm
import Verif.Props.AtomicData
import Verif.Props.Common
import Mathlib.Tactic.NormNum
import Mathlib.Tactic.Positivity
/-!
# C106: comparing structures, conversion to and from spglib
-/
namespace Pwtools.Symm
open Spec

theorem andThen_some (p q : Prop) : andThen (some p) (some q) = some (p ∧ q) := by
  unfold andThen
  by_cases h : p <;> simp [h]

theorem zip_iff {α : Type} (R : α → α → Prop) (a b : List α) : (∀ p ∈ a.zip b, R p.1 p.2) ↔
    ∀ (i : Nat) (x y : α), a[i]? = some x → b[i]? = some y → R x y := by
  constructor
  · intro h i x y hx hy
    exact h (x, y) (List.mem_of_getElem? (i := i) (by rw [List.getElem?_zip_eq_some]; exact ⟨hx, hy⟩))
  · intro h p hp
    obtain ⟨i, hi⟩ := List.getElem?_of_mem hp
    rw [List.getElem?_zip_eq_some] at hi
    exact h i p.1 p.2 hi.1 hi.2

/-- **C106** `is_same_struct` never raises for valid structures, also with different numbers of atoms; it says whether the two have the same
symbols, agree up to the tolerances and have the same space group. -/
theorem C106_same {S : Type} (spg : St → S) (a b : St) (ha : ValidSt a) (hb : ValidSt b) :
    ∃ p, isSame spg a b = some p ∧ (p ↔ Agree a b ∧ spg a = spg b) := by
  by_cases hs : a.symbols = b.symbols
  · have hc : allclose1 a.crystConst b.crystConst = some (∀ p ∈ a.crystConst.zip b.crystConst, close p.1 p.2) := by
      unfold allclose1
      rw [if_pos (by rw [ha.cc, hb.cc])]
    have hx : allclose2 a.coordsFrac b.coordsFrac = some (∀ p ∈ a.coordsFrac.zip b.coordsFrac, ∀ q ∈ p.1.zip p.2, close q.1 q.2) := by
      unfold allclose2
      rw [if_pos (by rw [ha.rows, hb.rows, hs])]
    have e : isSame spg a b = some ((((((True ∧ a.symbols = b.symbols) ∧ a.symbols.length = b.symbols.length) ∧ close a.volume b.volume) ∧
        (∀ p ∈ a.crystConst.zip b.crystConst, close p.1 p.2)) ∧
        (∀ p ∈ a.coordsFrac.zip b.coordsFrac, ∀ q ∈ p.1.zip p.2, close q.1 q.2)) ∧ spg a = spg b) := by
      unfold isSame
      rw [hc, hx]
      simp only [andThen_some]
    refine ⟨_, e, ?_⟩
    · rw [zip_iff close]
      rw [zip_iff (fun x y : List ℝ => ∀ q ∈ x.zip y, close q.1 q.2) a.coordsFrac b.coordsFrac]
      unfold Agree
      constructor
      · rintro ⟨⟨⟨⟨⟨-, -⟩, h1⟩, h2⟩, h3⟩, h4⟩
        exact ⟨⟨hs, h1, h2, fun i j r s x y e1 e2 e3 e4 => (zip_iff close r s).1 (h3 i r s e1 e2) j x y e3 e4⟩, h4⟩
      · rintro ⟨⟨-, h1, h2, h3⟩, h4⟩
        exact ⟨⟨⟨⟨⟨⟨trivial, hs⟩, by rw [hs]⟩, h1⟩, h2⟩, fun i r s e1 e2 => (zip_iff close r s).2 fun j x y e3 e4 => h3 i j r s x y e1 e2 e3 e4⟩, h4⟩
  · refine ⟨False, ?_, ?_⟩
    · unfold isSame
      simp only [andThen_some]
      simp [andThen, hs]
    · constructor
      · exact False.elim
      · exact fun h => absurd h.1.1 hs

theorem close_refl (x : ℝ) : close x x := by
  unfold close
  rw [sub_self, abs_zero]
  positivity

/-- **C106** A structure is the same as itself. -/
theorem C106_refl {S : Type} (spg : St → S) (a : St) (ha : ValidSt a) : ∃ p, isSame spg a a = some p ∧ p := by
  obtain ⟨p, h1, h2⟩ := C106_same spg a a ha ha
  refine ⟨p, h1, h2.2 ⟨⟨rfl, close_refl _, ?_, ?_⟩, rfl⟩⟩
  · intro i x y hx hy
    rw [hx, Option.some.injEq] at hy
    subst hy
    exact close_refl _
  · intro i j r s x y e1 e2 e3 e4
    rw [e1, Option.some.injEq] at e2
    subst e2
    rw [e3, Option.some.injEq] at e4
    subst e4
    exact close_refl _

/-- A structure with one atom at the origin and the given volume. -/
noncomputable def one (v : ℝ) : St := ⟨["Al"], v, [1, 1, 1, 90, 90, 90], [[0, 0, 0]], [1, 0, 0, 0, 1, 0, 0, 0, 1]⟩

theorem one_valid (v : ℝ) : ValidSt (one v) := ⟨rfl, by simp [one], rfl⟩

/-- **C106** (false for symmetry) The order of the arguments matters at the edge of the tolerance: `is_same_struct(a, b)` can be true while
`is_same_struct(b, a)` is false. -/
theorem C106_symm_counterexample : ∃ a b : St, ValidSt a ∧ ValidSt b ∧ (∃ p, isSame (fun _ => 0) a b = some p ∧ p) ∧
    ∃ p, isSame (fun _ => 0) b a = some p ∧ ¬ p := by
  refine ⟨one 1, one (1 + 1 / 10 ^ 8 + 1 / 10 ^ 5 + 1 / 10 ^ 11), one_valid _, one_valid _, ?_, ?_⟩
  · obtain ⟨p, h1, h2⟩ := C106_same (fun _ => 0) (one 1) (one (1 + 1 / 10 ^ 8 + 1 / 10 ^ 5 + 1 / 10 ^ 11)) (one_valid _) (one_valid _)
    refine ⟨p, h1, h2.2 ⟨⟨rfl, ?_, ?_, ?_⟩, rfl⟩⟩
    · show close 1 (1 + 1 / 10 ^ 8 + 1 / 10 ^ 5 + 1 / 10 ^ 11)
      unfold close
      rw [abs_le]
      constructor <;> rw [abs_of_nonneg (by norm_num)] <;> norm_num
    · intro i x y hx hy
      have : some x = some y := hx.symm.trans hy
      simp only [Option.some.injEq] at this
      subst this
      exact close_refl _
    · intro i j r s x y e1 e2 e3 e4
      have : some r = some s := e1.symm.trans e2
      simp only [Option.some.injEq] at this
      subst this
      have : some x = some y := e3.symm.trans e4
      simp only [Option.some.injEq] at this
      subst this
      exact close_refl _
  · obtain ⟨p, h1, h2⟩ := C106_same (fun _ => 0) (one (1 + 1 / 10 ^ 8 + 1 / 10 ^ 5 + 1 / 10 ^ 11)) (one 1) (one_valid _) (one_valid _)
    refine ⟨p, h1, fun hp => ?_⟩
    have := (h2.1 hp).1.2.1
    simp only [one, close] at this
    rw [abs_of_nonneg (by norm_num), abs_one] at this
    norm_num at this

theorem mapM_inverse {α β : Type} (f : α → Option β) (g : β → Option α) (h : ∀ a b, f a = some b → g b = some a) (l : List α) (r : List β)
    (hr : l.mapM f = some r) : r.mapM g = some l := by
  induction l generalizing r with
  | nil =>
    simp only [List.mapM_nil] at hr
    cases hr
    rfl
  | cons a l ih =>
    simp only [List.mapM_cons, Option.bind_eq_bind, Option.bind_eq_some_iff, Option.pure_def, Option.some.injEq] at hr
    obtain ⟨b, hb, bs, hbs, rfl⟩ := hr
    simp [List.mapM_cons, h a b hb, ih bs hbs]

/-- **C106** Converting a structure for spglib and back gives its cell, coordinates and symbols; `KeyError` only for unknown symbols. -/
theorem C106_roundtrip (mk : List ℝ → List (List ℝ) → List String → St) (s : St) :
    ((∀ x ∈ s.symbols, (Atomic.numbers x).isSome) → ∃ t, struct2spglib s = some t) ∧
    ∀ t, struct2spglib s = some t → spglib2struct mk t = some (mk s.cell s.coordsFrac s.symbols) := by
  constructor
  · intro h
    have : ∃ z, s.symbols.mapM Atomic.numbers = some z := by
      generalize s.symbols = l at h
      induction l with
      | nil => exact ⟨[], rfl⟩
      | cons a l ih =>
        obtain ⟨z, hz⟩ := ih fun x hx => h x (by simp [hx])
        obtain ⟨n, hn⟩ := Option.isSome_iff_exists.1 (h a (by simp))
        exact ⟨n :: z, by simp [List.mapM_cons, hz, hn]⟩
    obtain ⟨z, hz⟩ := this
    exact ⟨_, by unfold struct2spglib; rw [hz]; rfl⟩
  · intro t ht
    unfold struct2spglib at ht
    obtain ⟨z, hz, rfl⟩ := Option.map_eq_some_iff.1 ht
    unfold spglib2struct
    rw [mapM_inverse Atomic.numbers (fun z => Atomic.symbols[z]?) (fun a b h => (Atomic.C83_numbers a b).1.1 h) _ _ hz]
    rfl

/-- **C106** `spglib_get_primitive` returns the cell which spglib found, or `None` exactly if it agrees with the given structure and has the same
space group. In particular `None` if spglib returns its input. -/
theorem C106_primitive {S : Type} (spg : St → S) (mk : List ℝ → List (List ℝ) → List String → St)
    (find : List ℝ × List (List ℝ) × List Nat → List ℝ × List (List ℝ) × List Nat) (s c : St) (t : List ℝ × List (List ℝ) × List Nat)
    (ht : struct2spglib s = some t) (hc : spglib2struct mk (find t) = some c) (hs : ValidSt s) (hv : ValidSt c) :
    (getPrimitive spg mk find s = some none ↔ Agree c s ∧ spg c = spg s) ∧
    (getPrimitive spg mk find s = some (some c) ↔ ¬ (Agree c s ∧ spg c = spg s)) ∧
    (find t = t → mk s.cell s.coordsFrac s.symbols = s → getPrimitive spg mk find s = some none) := by
  classical
  obtain ⟨p, h1, h2⟩ := C106_same spg c s hv hs
  have key : getPrimitive spg mk find s = some (if p then none else some c) := by
    unfold getPrimitive
    simp [ht, hc, h1]
  have first : getPrimitive spg mk find s = some none ↔ Agree c s ∧ spg c = spg s := by
    rw [key, ← h2]
    by_cases hp : p <;> simp [hp]
  refine ⟨first, ?_, ?_⟩
  · rw [key, ← h2]
    by_cases hp : p <;> simp [hp]
  · intro hf hm
    have : c = s := by
      rw [hf] at hc
      rw [(C106_roundtrip mk s).2 t ht, hm, Option.some.injEq] at hc
      exact hc.symm
    subst this
    obtain ⟨q, e1, e2⟩ := C106_refl spg c hs
    rw [first]
    rw [h1, Option.some.injEq] at e1
    subst e1
    exact h2.1 e2

/-- Non-vacuity: a structure of one Al atom has numbers and is valid. -/
example : ∃ t, struct2spglib (one 1) = some t :=
  (C106_roundtrip (fun _ _ _ => one 1) (one 1)).1 fun x hx => by
    have : x = "Al" := by simpa [one] using hx
    rw [this, ((Atomic.C83_numbers "Al" 13).1).2 rfl]
    rfl

theorem replace_none (t val : Text) (c : Char) (h : c ∉ t) : pyReplace t [c] val = t := by
  unfold pyReplace
  simp only
  induction t with
  | nil => simp [replaceNE]
  | cons x t ih =>
    simp only [List.mem_cons, not_or] at h
    rw [replaceNE]
    rw [if_neg (by simp [List.isPrefixOf, h.1]), ih h.2]

theorem replace_head (t : Text) (c : Char) (h : c ∉ t) : pyReplace (c :: t) [c] [] = t := by
  have := replace_none t [] c h
  unfold pyReplace at this ⊢
  simp only at this ⊢
  rw [replaceNE, if_pos (by simp [List.isPrefixOf])]
  simpa using this

theorem replace_last (t : Text) (c : Char) (h : c ∉ t) : pyReplace (t ++ [c]) [c] [] = t := by
  unfold pyReplace
  simp only
  induction t with
  | nil =>
    rw [List.nil_append, replaceNE, if_pos (by simp [List.isPrefixOf])]
    simp [replaceNE]
  | cons x t ih =>
    simp only [List.mem_cons, not_or] at h
    rw [List.cons_append, replaceNE, if_neg (by simp [List.isPrefixOf, h.1]), ih h.2]

/-- **C106** The text `<symbol> (<number>)` of spglib is read as number and symbol, for all symbols and numbers. -/
theorem C106_spacegroup (sym : Text) (n : Nat) (hne : sym ≠ []) (hs : ∀ c ∈ sym, isPySpace c = false) :
    parseSpg (sym ++ " (".toList ++ strNat n ++ ")".toList) = some ((n : Int), sym) := by
  have hd := strNat_digits n
  have hnot : ∀ c : Char, c.isDigit = false → c ∉ strNat n := fun c hc hm => by rw [hd c hm] at hc; cases hc
  have hsplit : splitWs (sym ++ " (".toList ++ strNat n ++ ")".toList) = [sym, '(' :: (strNat n ++ [')'])] := by
    have := splitWs_join [' '] (by simp) (by decide) [sym, '(' :: (strNat n ++ [')'])] (by
      intro t ht
      simp only [List.mem_cons, List.not_mem_nil, or_false] at ht
      rcases ht with rfl | rfl
      · exact ⟨hne, hs⟩
      · refine ⟨by simp, ?_⟩
        intro c hc
        simp only [List.mem_cons, List.mem_append, List.not_mem_nil, or_false] at hc
        rcases hc with rfl | hc | rfl
        · decide
        · exact isPySpace_digit c (hd c hc)
        · decide)
    rw [← this]
    simp [joinSep]
  unfold parseSpg
  rw [hsplit]
  simp only
  have e1 : pyReplace ('(' :: (strNat n ++ [')'])) "(".toList [] = strNat n ++ [')'] := by
    apply replace_head
    simp only [List.mem_append, List.mem_singleton, not_or]
    exact ⟨hnot '(' (by decide), by decide⟩
  have e2 : pyReplace (strNat n ++ [')']) ")".toList [] = strNat n := replace_last _ _ (hnot ')' (by decide))
  rw [e1, e2, parseInt_strNat]
  rfl

example : parseSpg "Fm-3m (225)".toList = some (225, "Fm-3m".toList) := by decide +kernel

end Pwtools.Symm
