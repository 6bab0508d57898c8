import Verif.Model.CutScripts
import Verif.Spec.CutScripts
import Verif.Props.Grep
import Verif.Props.Common
/-!
# C100: the scripts which truncate output files
-/
namespace Pwtools.Cut
open Gr Spec

/-! ## numbers -/

theorem dc_init (l : Text) (i : Nat) : Nat.ofDigitChars 10 l 0 ≤ Nat.ofDigitChars 10 l i := by
  rw [Nat.ofDigitChars_eq_ofDigitChars_zero (init := i)]
  omega

theorem dc_ge (l : Text) (i : Nat) : i ≤ Nat.ofDigitChars 10 l i := by
  rw [Nat.ofDigitChars_eq_ofDigitChars_zero]
  have : 1 ≤ 10 ^ l.length := Nat.one_le_pow _ _ (by norm_num)
  nlinarith

/-- A number which contains the digits of another one is not smaller. -/
theorem infix_le (s n : Nat) (h : strNat s <:+: strNat n) : s ≤ n := by
  obtain ⟨a, b, e⟩ := h
  have hs : Nat.ofDigitChars 10 (strNat s) 0 = s := by simp [strNat]
  have hn : Nat.ofDigitChars 10 (strNat n) 0 = n := by simp [strNat]
  rw [← hn, ← e, Nat.ofDigitChars_append, Nat.ofDigitChars_append]
  calc s = Nat.ofDigitChars 10 (strNat s) 0 := hs.symm
    _ ≤ _ := dc_init _ _
    _ ≤ _ := dc_ge _ _

theorem head_digit (n : Nat) : ∃ d ds, strNat n = d :: ds ∧ d.isDigit = true := by
  obtain ⟨d, ds, e⟩ := List.exists_cons_of_ne_nil (strNat_ne_nil n)
  exact ⟨d, ds, e, strNat_digits n d (by simp [e])⟩

/-! ## blanks before a number -/

theorem drop_blank (ws : Text) (h : IsBlank ws) (n : Nat) (x : Text) : (ws ++ strNat n ++ x).dropWhile isPySpace = strNat n ++ x := by
  obtain ⟨d, ds, e, hd⟩ := head_digit n
  rw [List.append_assoc, List.dropWhile_append_of_pos h.2, e, List.cons_append, List.dropWhile_cons_of_neg]
  rw [isPySpace_digit d hd]; simp

theorem take_blank (ws : Text) (h : IsBlank ws) (n : Nat) (x : Text) : (ws ++ strNat n ++ x).takeWhile isPySpace = ws := by
  obtain ⟨d, ds, e, hd⟩ := head_digit n
  rw [List.append_assoc, List.takeWhile_append_of_pos h.2, e, List.cons_append, List.takeWhile_cons_of_neg]
  · simp
  · rw [isPySpace_digit d hd]; simp

theorem takeWhile_blank (l : Text) (h : (l.takeWhile isPySpace != []) = true) : IsBlank (l.takeWhile isPySpace) :=
  ⟨by simpa using h, fun c hc => List.all_eq_true.1 (List.all_takeWhile (p := isPySpace) (l := l)) c hc⟩

theorem lineRe_iff (s : Nat) (l : Text) : lineRe s l = true ↔ StepLine s l := by
  unfold lineRe StepLine
  simp only [Bool.and_eq_true]
  constructor
  · rintro ⟨⟨h1, h2⟩, h3⟩
    obtain ⟨t, ht⟩ := List.isPrefixOf_iff_prefix.1 h2
    rw [← ht, List.drop_left] at h3
    cases t with
    | nil => simp at h3
    | cons c tail =>
      refine ⟨_, c, tail, takeWhile_blank l h1, by simpa using h3, ?_⟩
      rw [List.append_assoc, ht, List.takeWhile_append_dropWhile]
  · rintro ⟨ws, c, tail, hws, hc, rfl⟩
    rw [drop_blank ws hws, take_blank ws hws, List.drop_left]
    exact ⟨⟨by simpa using hws.1, List.isPrefixOf_iff_prefix.2 ⟨_, rfl⟩⟩, by simpa using hc⟩

theorem stepLine_unique (m n : Nat) (l : Text) (hm : StepLine m l) (hn : StepLine n l) : m = n := by
  obtain ⟨ws, c, tail, hws, hc, rfl⟩ := hm
  obtain ⟨ws', c', tail', hws', hc', e⟩ := hn
  have h := congrArg (List.dropWhile isPySpace) e
  rw [drop_blank ws hws, drop_blank ws' hws'] at h
  have h2 := congrArg (List.takeWhile fun c => !isPySpace c) h
  have ht : ∀ (k : Nat) (c : Char) (t : Text), isPySpace c = true → (strNat k ++ c :: t).takeWhile (fun c => !isPySpace c) = strNat k := by
    intro k c t hc
    rw [List.takeWhile_append_of_pos fun a ha => by rw [isPySpace_digit a (strNat_digits k a ha)]; rfl,
      List.takeWhile_cons_of_neg (by simp [hc]), List.append_nil]
  rw [ht m c tail hc, ht n c' tail' hc'] at h2
  exact strNat_inj h2

/-! ## the general argument -/

theorem filter_before (steps : List (Nat × List Text)) (hasc : Ascending steps) (s : Nat) (hs : s ∈ steps.map Prod.fst) :
    ∃ before ls after, steps = before ++ (s, ls) :: after ∧ (∀ b ∈ before, b.1 < s) ∧ steps.filter (fun b => decide (b.1 < s)) = before := by
  obtain ⟨⟨s', ls⟩, hb, rfl⟩ := List.mem_map.1 hs
  obtain ⟨before, after, rfl⟩ := List.append_of_mem hb
  have h := List.pairwise_append.1 hasc
  have hlt : ∀ b ∈ before, b.1 < s' := fun b hb => h.2.2 b hb (s', ls) (by simp)
  refine ⟨before, ls, after, rfl, hlt, ?_⟩
  rw [List.filter_append, List.filter_eq_self.2 (fun b hb => by simpa using hlt b hb), List.filter_cons_of_neg (by simp),
    List.filter_eq_nil_iff.2, List.append_nil]
  intro b hb
  have := (List.pairwise_cons.1 h.2.1).1 b hb
  simp only [decide_eq_true_eq, Nat.not_lt]
  exact this.le

/-- If no line before the block of step `s` matches, and this block begins with lines `lead` and a matching line, the rest of the file is the
earlier steps and `lead`. -/
theorem cut_present (p : Text → Bool) (head : List Text) (steps : List (Nat × List Text)) (s : Nat) (hasc : Ascending steps)
    (hs : s ∈ steps.map Prod.fst) (hhead : ∀ l ∈ head, p l = false) (hbefore : ∀ b ∈ steps, b.1 < s → ∀ l ∈ b.2, p l = false)
    (lead : List Text → List Text)
    (hown : ∀ ls, (s, ls) ∈ steps → ∃ x rest, ls = lead ls ++ x :: rest ∧ (∀ l ∈ lead ls, p l = false) ∧ p x = true) :
    ∃ ls, (s, ls) ∈ steps ∧ sedCut p (stepFile head steps) = stepFileBefore s head steps ++ lead ls := by
  obtain ⟨before, ls, after, rfl, hlt, hf⟩ := filter_before steps hasc s hs
  refine ⟨ls, by simp, ?_⟩
  obtain ⟨x, rest, e, hl, hx⟩ := hown ls (by simp)
  unfold stepFileBefore
  rw [hf]
  unfold stepFile sedCut
  rw [List.flatMap_append, List.flatMap_cons]
  simp only
  conv_lhs => rw [e]
  have : head ++ (before.flatMap Prod.snd ++ (lead ls ++ x :: rest ++ after.flatMap Prod.snd)) =
      (head ++ before.flatMap Prod.snd ++ lead ls) ++ x :: (rest ++ after.flatMap Prod.snd) := by simp
  rw [this, List.takeWhile_append_of_pos, List.takeWhile_cons_of_neg (by simp [hx]), List.append_nil]
  intro l hl'
  rw [List.mem_append, List.mem_append] at hl'
  rcases hl' with (h | h) | h
  · simp [hhead l h]
  · obtain ⟨b, hb, hlb⟩ := List.mem_flatMap.1 h
    simp [hbefore b (by simp [hb]) (hlt b hb) l hlb]
  · simp [hl l h]

theorem cut_absent (p : Text → Bool) (file : List Text) (h : ∀ l ∈ file, p l = false) : sedCut p file = file := by
  unfold sedCut
  have := List.takeWhile_append_of_pos (p := fun l => !p l) (l₁ := file) (l₂ := []) (fun l hl => by simp [h l hl])
  simpa using this

/-! ## files with one line per step or atom -/

theorem lineBlock_other (n s : Nat) (ls : List Text) (h : LineBlock n ls) (hne : n ≠ s) : ∀ l ∈ ls, lineRe s l = false := by
  obtain ⟨l0, rest, rfl, h0, hr⟩ := h
  intro l hl
  rw [Bool.eq_false_iff, Ne, lineRe_iff]
  intro hs
  rcases List.mem_cons.1 hl with h | h
  · rw [h] at hs
    exact hne (stepLine_unique n s _ h0 hs)
  · rcases hr l h with h' | h'
    · exact hne (stepLine_unique n s _ h' hs)
    · exact h' s hs

/-- **C100** (where it holds) CP2K `cell`, `ener`, `stress` and CPMD `ENERGIES`, `TRAJECTORY`, `FTRAJECTORY`: if the step is in the file, then
exactly the earlier steps are kept. Missing: a step which is not in the file, see `C100_absent`. -/
theorem C100_lines_partial (head : List Text) (steps : List (Nat × List Text)) (s : Nat) (hasc : Ascending steps)
    (hs : s ∈ steps.map Prod.fst) (hhead : ∀ l ∈ head, ∀ m, ¬ StepLine m l) (hblk : ∀ b ∈ steps, LineBlock b.1 b.2) :
    cp2kLines s (stepFile head steps) = stepFileBefore s head steps ∧ cpmdLines s (stepFile head steps) = stepFileBefore s head steps := by
  obtain ⟨ls, -, h⟩ := cut_present (lineRe s) head steps s hasc hs
    (fun l hl => by rw [Bool.eq_false_iff, Ne, lineRe_iff]; exact hhead l hl s)
    (fun b hb hlt => lineBlock_other b.1 s b.2 (hblk b hb) hlt.ne) (fun _ => []) (by
      intro ls hls
      obtain ⟨l0, rest, e, h0, -⟩ := hblk _ hls
      exact ⟨l0, rest, e, by simp, (lineRe_iff s l0).2 h0⟩)
  rw [List.append_nil] at h
  exact ⟨h, h⟩

/-- **C100** is false if the step is not in the file (files written every 10 steps, say): nothing is deleted, later steps stay. -/
theorem C100_absent (head : List Text) (steps : List (Nat × List Text)) (s : Nat) (hs : s ∉ steps.map Prod.fst)
    (hhead : ∀ l ∈ head, ∀ m, ¬ StepLine m l) (hblk : ∀ b ∈ steps, LineBlock b.1 b.2) :
    cp2kLines s (stepFile head steps) = stepFile head steps := by
  apply cut_absent
  intro l hl
  unfold stepFile at hl
  rw [List.mem_append, List.mem_flatMap] at hl
  rcases hl with h | ⟨b, hb, hl⟩
  · rw [Bool.eq_false_iff, Ne, lineRe_iff]; exact hhead l h s
  · exact lineBlock_other b.1 s b.2 (hblk b hb) (fun e => hs (List.mem_map.2 ⟨b, hb, e⟩)) l hl

/-! ## files with headlines -/

theorem infix_digits (d a m b : Text) (hd : d ≠ []) (hdig : ∀ c ∈ d, c.isDigit = true) (ha : NoDigit a) (hb : NoDigit b)
    (hm : ∀ c ∈ m, c.isDigit = true) (h : d <:+: a ++ m ++ b) : d <:+: m := by
  obtain ⟨x, y, e⟩ := h
  have h1 := congrArg (List.filter Char.isDigit) e
  have fd : ∀ t : Text, (∀ c ∈ t, c.isDigit = true) → t.filter Char.isDigit = t := fun t ht => List.filter_eq_self.2 ht
  have fn : ∀ t : Text, NoDigit t → t.filter Char.isDigit = [] := fun t ht => List.filter_eq_nil_iff.2 fun c hc => by simp [ht c hc]
  simp only [List.filter_append, fd d hdig, fd m hm, fn a ha, fn b hb, List.nil_append, List.append_nil] at h1
  exact ⟨_, _, h1⟩

theorem hasSeq_three (a b c l : Text) : hasSeq [a, b, c] l = true ↔ ∃ u v w x, l = u ++ a ++ v ++ b ++ w ++ c ++ x := by
  rw [hasSeq_cons]
  constructor
  · rintro ⟨u, t, rfl, h⟩
    obtain ⟨v, t', rfl, h'⟩ := (hasSeq_cons _ _ _).1 h
    obtain ⟨w, x, rfl, _⟩ := (hasSeq_cons _ _ _).1 h'
    exact ⟨u, v, w, x, by simp⟩
  · rintro ⟨u, v, w, x, rfl⟩
    refine ⟨u, v ++ b ++ w ++ c ++ x, by simp, (hasSeq_cons _ _ _).2 ⟨v, w ++ c ++ x, by simp, (hasSeq_cons _ _ _).2 ⟨w, x, by simp, rfl⟩⟩⟩

theorem noDigit_append {a b : Text} (ha : NoDigit a) (hb : NoDigit b) : NoDigit (a ++ b) := by
  intro c hc
  rcases List.mem_append.1 hc with h | h
  · exact ha c h
  · exact hb c h

theorem headRe_le (key : Text) (n s : Nat) (u v w b : Text) (hu : NoDigit u) (hk : NoDigit key) (hv : NoDigit v) (hw : NoDigit w)
    (hb : NoDigit b) (h : hasSeq [key, "Step".toList, strNat s] (u ++ key ++ v ++ "Step".toList ++ w ++ strNat n ++ b) = true) : s ≤ n := by
  obtain ⟨u', v', w', x', e⟩ := (hasSeq_three _ _ _ _).1 h
  have hstep : NoDigit "Step".toList := by
    unfold NoDigit
    decide +kernel
  apply infix_le
  apply infix_digits (strNat s) (u ++ key ++ v ++ "Step".toList ++ w) (strNat n) b (strNat_ne_nil s) (strNat_digits s)
    (noDigit_append (noDigit_append (noDigit_append (noDigit_append hu hk) hv) hstep) hw) hb (strNat_digits n)
  exact ⟨_, _, e.symm⟩

theorem seq_infix (a b c l : Text) (h : isInfix a l = false) : hasSeq [a, b, c] l = false := by
  rw [Bool.eq_false_iff, Ne, hasSeq_three]
  rintro ⟨u, v, w, x, rfl⟩
  rw [Bool.eq_false_iff, Ne, isInfix_iff_append] at h
  exact h ⟨u, v ++ b ++ w ++ c ++ x, by simp⟩

/-- **C100** (where it holds) CPMD `CELL` and `STRESS`: the pattern `.*<step>.*` matches also longer numbers with the same digits, but not before
the step itself; so if the step is in the file, exactly the earlier steps are kept. -/
theorem C100_headlines_partial (key : Text) (head : List Text) (steps : List (Nat × List Text)) (s : Nat) (hasc : Ascending steps)
    (hs : s ∈ steps.map Prod.fst) (hhead : ∀ l ∈ head, isInfix key l = false) (hblk : ∀ b ∈ steps, HeadBlock key b.1 b.2) :
    cpmdHeader key s (stepFile head steps) = stepFileBefore s head steps := by
  obtain ⟨ls, -, h⟩ := cut_present (hasSeq [key, "Step".toList, strNat s]) head steps s hasc hs
    (fun l hl => seq_infix _ _ _ _ (hhead l hl))
    (fun b hb hlt l hl => by
      obtain ⟨u, v, w, x, rest, e, hu, hk, hv, hw, hx, hr⟩ := hblk b hb
      rw [e] at hl
      rcases List.mem_cons.1 hl with h | h
      · rw [Bool.eq_false_iff]
        intro hc
        rw [h] at hc
        have := headRe_le key b.1 s u v w x hu hk hv hw hx hc
        omega
      · exact seq_infix _ _ _ _ (hr l h)) (fun _ => []) (by
      intro ls hls
      obtain ⟨u, v, w, x, rest, e, -⟩ := hblk _ hls
      exact ⟨_, rest, e, by simp, (hasSeq_three _ _ _ _).2 ⟨u, v, w, x, rfl⟩⟩)
  rw [List.append_nil] at h
  exact h

/-! ## CP2K xyz files -/

theorem xyzReAt_head (s : Nat) (t : Text) (h : xyzReAt s t = true) : ∃ r, t = "i =".toList ++ r := by
  unfold xyzReAt at h
  simp only [Bool.and_eq_true] at h
  obtain ⟨r, hr⟩ := List.isPrefixOf_iff_prefix.1 h.1.1.1
  exact ⟨r, hr.symm⟩

theorem xyzRe_infix (s : Nat) (l : Text) (h : isInfix "i =".toList l = false) : xyzRe s l = false := by
  rw [Bool.eq_false_iff]
  intro hc
  obtain ⟨t, ht, h2⟩ := List.any_eq_true.1 hc
  obtain ⟨r, rfl⟩ := xyzReAt_head s t h2
  obtain ⟨u, hu⟩ := (List.mem_tails _ _).1 ht
  rw [Bool.eq_false_iff, Ne, isInfix_iff_append] at h
  exact h ⟨u, r, by rw [← hu]; simp⟩

theorem xyzReAt_iff (s n : Nat) (ws : Text) (hws : IsBlank ws) (c : Char) (hc : isPySpace c = true) (tail : Text) :
    xyzReAt s ("i =".toList ++ ws ++ strNat n ++ [',', c] ++ tail) = true ↔ s = n := by
  have hcomma : isPySpace ',' = false := by decide
  have e3 : ("i =".toList ++ ws ++ strNat n ++ [',', c] ++ tail).drop 3 = ws ++ strNat n ++ (',' :: c :: tail) := by
    have : "i =".toList ++ ws ++ strNat n ++ [',', c] ++ tail = "i =".toList ++ (ws ++ strNat n ++ (',' :: c :: tail)) := by simp
    rw [this]
    rfl
  unfold xyzReAt
  simp only [Bool.and_eq_true]
  rw [e3, drop_blank ws hws, take_blank ws hws]
  constructor
  · rintro ⟨⟨-, h⟩, -⟩
    obtain ⟨r, hr⟩ := List.isPrefixOf_iff_prefix.1 h
    have h2 := congrArg (List.takeWhile Char.isDigit) hr
    have ht : ∀ (k : Nat) (t : Text), (strNat k ++ ',' :: t).takeWhile Char.isDigit = strNat k := by
      intro k t
      rw [List.takeWhile_append_of_pos (strNat_digits k), List.takeWhile_cons_of_neg (by decide), List.append_nil]
    rw [show strNat s ++ [','] ++ r = strNat s ++ ',' :: r by simp, ht, ht] at h2
    exact strNat_inj h2
  · rintro rfl
    refine ⟨⟨⟨List.isPrefixOf_iff_prefix.2 ⟨ws ++ strNat s ++ [',', c] ++ tail, by simp⟩, by simpa using hws.1⟩,
      List.isPrefixOf_iff_prefix.2 ⟨c :: tail, by simp⟩⟩, ?_⟩
    have : strNat s ++ ',' :: c :: tail = (strNat s ++ [',']) ++ c :: tail := by simp
    rw [this, List.drop_left]
    simpa using hc

/-- Texts without an `i` do not matter. -/
theorem xyzRe_skip (s : Nat) (u v : Text) (hu : 'i' ∉ u) : xyzRe s (u ++ v) = xyzRe s v := by
  induction u with
  | nil => rfl
  | cons c u ih =>
    simp only [List.mem_cons, not_or] at hu
    rw [← ih hu.2]
    unfold xyzRe
    rw [List.cons_append, List.tails_cons, List.any_cons]
    have : xyzReAt s (c :: (u ++ v)) = false := by
      rw [Bool.eq_false_iff]
      intro hc
      obtain ⟨r, hr⟩ := xyzReAt_head s _ hc
      have h2 : "i =".toList ++ r = 'i' :: (" =".toList ++ r) := rfl
      rw [h2] at hr
      exact hu.1 (List.cons.inj hr).1.symm
    rw [this, Bool.false_or]

theorem blank_noI (ws : Text) (h : IsBlank ws) : 'i' ∉ ws := fun hc => by
  have := h.2 'i' hc
  revert this
  decide

theorem nat_noI (n : Nat) : 'i' ∉ strNat n := fun hc => by
  have := strNat_digits n 'i' hc
  revert this
  decide

theorem xyzRe_comment (s n : Nat) (l : Text) (h : CommentLine n l) : xyzRe s l = true ↔ s = n := by
  obtain ⟨ws, c, tail, hws, hc, rfl, ht⟩ := h
  have e1 : " i =".toList ++ ws ++ strNat n ++ [',', c] ++ tail = [' '] ++ ("i =".toList ++ ws ++ strNat n ++ [',', c] ++ tail) := by simp
  rw [e1, xyzRe_skip s [' '] _ (by decide)]
  have hci : c ≠ 'i' := by
    rintro rfl
    revert hc
    decide
  have e2 : "i =".toList ++ ws ++ strNat n ++ [',', c] ++ tail = 'i' :: ((" =".toList ++ ws ++ strNat n ++ [',', c]) ++ tail) := by simp
  have hskip : xyzRe s ((" =".toList ++ ws ++ strNat n ++ [',', c]) ++ tail) = false := by
    rw [xyzRe_skip, xyzRe_infix s tail ht]
    have := blank_noI ws hws
    have := nat_noI n
    simp [*, Ne.symm hci]
  have e3 : xyzRe s ("i =".toList ++ ws ++ strNat n ++ [',', c] ++ tail) = xyzReAt s ("i =".toList ++ ws ++ strNat n ++ [',', c] ++ tail) := by
    conv_lhs => rw [e2]
    unfold xyzRe at hskip ⊢
    rw [List.tails_cons, List.any_cons, hskip, Bool.or_false, ← e2]
  rw [e3, xyzReAt_iff s n ws hws c hc]

theorem countRe_count (na : Nat) (l : Text) (h : CountLine na l) : countRe (strNat na) l = true := by
  obtain ⟨j, k, rfl⟩ := h
  unfold countRe
  rw [List.any_eq_true]
  refine ⟨_, (List.mem_tails _ _).2 (List.suffix_refl _), ?_⟩
  obtain ⟨d, ds, e, hd⟩ := head_digit na
  have hne : d ≠ ' ' := by
    rintro rfl
    revert hd
    decide
  have hdrop : (List.replicate (j + 1) ' ' ++ strNat na ++ List.replicate k ' ').dropWhile (fun x => decide (x = ' ')) =
      strNat na ++ List.replicate k ' ' := by
    rw [List.append_assoc, List.dropWhile_append_of_pos (by simp), e, List.cons_append, List.dropWhile_cons_of_neg (by simpa using hne)]
  rw [hdrop, List.drop_left]
  simp only [Bool.and_eq_true]
  refine ⟨⟨by simp [List.replicate_succ], List.isPrefixOf_iff_prefix.2 ⟨_, rfl⟩⟩, by simp⟩

theorem count_noI (na : Nat) (l : Text) (h : CountLine na l) : isInfix "i =".toList l = false := by
  obtain ⟨j, k, rfl⟩ := h
  rw [Bool.eq_false_iff, Ne, isInfix_iff_append]
  rintro ⟨a, b, e⟩
  have : 'i' ∈ List.replicate (j + 1) ' ' ++ strNat na ++ List.replicate k ' ' := by rw [e]; simp
  simp only [List.mem_append, List.mem_replicate] at this
  rcases this with (h | h) | h
  · exact absurd h.2 (by decide)
  · exact nat_noI na h
  · exact absurd h.2 (by decide)

theorem cp2kBlock_other (na n s : Nat) (ls : List Text) (h : Cp2kBlock na n ls) (hne : s ≠ n) : ∀ l ∈ ls, xyzRe s l = false := by
  obtain ⟨c, m, rest, rfl, hc, hm, hr⟩ := h
  intro l hl
  simp only [List.mem_cons] at hl
  rcases hl with h | h | h
  · rw [h]; exact xyzRe_infix s c (count_noI na c hc)
  · rw [h, Bool.eq_false_iff, Ne, xyzRe_comment s n m hm]; exact hne
  · exact xyzRe_infix s l (hr l h)

/-- **C100** (where it holds) CP2K `xyz` files: if the step is in the file, exactly the earlier steps are kept; the line with the number of atoms
of the deleted step is deleted too. -/
theorem C100_cp2k_xyz_partial (na : Nat) (steps : List (Nat × List Text)) (s : Nat) (hasc : Ascending steps)
    (hs : s ∈ steps.map Prod.fst) (hblk : ∀ b ∈ steps, Cp2kBlock na b.1 b.2) :
    cp2kXyz (strNat na) s (stepFile [] steps) = stepFileBefore s [] steps := by
  obtain ⟨ls, hls, h⟩ := cut_present (xyzRe s) [] steps s hasc hs (by simp)
    (fun b hb hlt => cp2kBlock_other na b.1 s b.2 (hblk b hb) hlt.ne') (fun ls => ls.take 1) (by
      intro ls hls
      obtain ⟨c, m, rest, e, hc, hm, -⟩ := hblk _ hls
      simp only at e
      subst e
      refine ⟨m, rest, rfl, ?_, (xyzRe_comment s s m hm).2 rfl⟩
      intro l hl
      simp only [List.take_succ_cons, List.take_zero, List.mem_singleton] at hl
      rw [hl]
      exact xyzRe_infix s c (count_noI na c hc))
  obtain ⟨c, m, rest, e, hc, -⟩ := hblk _ hls
  simp only at e
  subst e
  unfold cp2kXyz
  simp only
  rw [h]
  simp only [List.take_succ_cons, List.take_zero, List.getLast?_append, List.getLast?_singleton, Option.some_or]
  rw [if_pos (countRe_count na c hc), List.dropLast_concat]

/-- The number of atoms is taken from the first line. -/
theorem C100_natoms (na : Nat) (l : Text) (rest : List Text) (h : CountLine na l) : natomsText (l :: rest) = strNat na := by
  obtain ⟨j, k, rfl⟩ := h
  have hr : ∀ k, (List.replicate k ' ').filter (fun x => decide (x ≠ ' ')) = [] := by
    intro k
    simp
  unfold natomsText
  rw [List.headD_cons, List.filter_append, List.filter_append, hr, hr, List.filter_eq_self.2]
  · simp
  · intro c hc
    have := strNat_digits na c hc
    simp only [ne_eq, decide_not, Bool.not_eq_eq_eq_not, Bool.not_true, decide_eq_false_iff_not]
    rintro rfl
    revert this
    decide

/-! ## CPMD TRAJEC.xyz -/

theorem stepRe_infix (s : Nat) (l : Text) (h : isInfix "STEP:".toList l = false) : stepRe s l = false := by
  rw [Bool.eq_false_iff]
  intro hc
  unfold stepRe at hc
  simp only [Bool.and_eq_true] at hc
  obtain ⟨r, hr⟩ := List.isPrefixOf_iff_prefix.1 hc.1.1.2
  rw [Bool.eq_false_iff, Ne, isInfix_iff_append] at h
  exact h ⟨l.takeWhile isPySpace, r, by rw [List.append_assoc, hr, List.takeWhile_append_dropWhile]⟩

theorem stepRe_comment (s n : Nat) (l : Text) (h : StepComment n l) : stepRe s l = true ↔ strNat s <+: strNat n := by
  obtain ⟨ws, ws', tail, hws, hws', ht, rfl⟩ := h
  have e1 : (ws ++ "STEP:".toList ++ ws' ++ strNat n ++ tail).dropWhile isPySpace = "STEP:".toList ++ (ws' ++ strNat n ++ tail) := by
    have : ws ++ "STEP:".toList ++ ws' ++ strNat n ++ tail = ws ++ ('S' :: ("TEP:".toList ++ ws' ++ strNat n ++ tail)) := by simp
    rw [this, List.dropWhile_append_of_pos hws.2, List.dropWhile_cons_of_neg (by decide)]
    simp
  have e2 : (ws ++ "STEP:".toList ++ ws' ++ strNat n ++ tail).takeWhile isPySpace = ws := by
    have : ws ++ "STEP:".toList ++ ws' ++ strNat n ++ tail = ws ++ ('S' :: ("TEP:".toList ++ ws' ++ strNat n ++ tail)) := by simp
    rw [this, List.takeWhile_append_of_pos hws.2, List.takeWhile_cons_of_neg (by decide), List.append_nil]
  have e3 : ("STEP:".toList ++ (ws' ++ strNat n ++ tail)).drop 5 = ws' ++ strNat n ++ tail := rfl
  unfold stepRe
  simp only [Bool.and_eq_true]
  rw [e1, e2, e3, drop_blank ws' hws', take_blank ws' hws', List.isPrefixOf_iff_prefix (l₁ := strNat s)]
  constructor
  · rintro ⟨-, r, hr⟩
    have h2 := congrArg (List.takeWhile Char.isDigit) hr
    rw [List.takeWhile_append_of_pos (strNat_digits s), List.takeWhile_append_of_pos (strNat_digits n)] at h2
    have ht' : tail.takeWhile Char.isDigit = [] := by
      cases tail with
      | nil => rfl
      | cons c t => rw [List.takeWhile_cons_of_neg]; simp [ht c (by simp)]
    rw [ht', List.append_nil] at h2
    exact ⟨_, h2⟩
  · rintro ⟨r, hr⟩
    refine ⟨⟨⟨by simpa using hws.1, List.isPrefixOf_iff_prefix.2 ⟨_, rfl⟩⟩, by simpa using hws'.1⟩, r ++ tail, ?_⟩
    rw [← List.append_assoc, hr]

theorem cpmdBlock_other (n s : Nat) (ls : List Text) (h : CpmdBlock n ls) (hne : ¬ strNat s <+: strNat n) : ∀ l ∈ ls, stepRe s l = false := by
  obtain ⟨c, m, rest, rfl, hm, hc, hr⟩ := h
  intro l hl
  simp only [List.mem_cons] at hl
  rcases hl with h | h | h
  · rw [h]; exact stepRe_infix s c hc
  · rw [h, Bool.eq_false_iff, Ne, stepRe_comment s n m hm]; exact hne
  · exact stepRe_infix s l (hr l h)

/-- **C100** (where it holds) CPMD `TRAJEC.xyz`: if the step is in the file, exactly the earlier steps are kept. -/
theorem C100_cpmd_xyz_partial (steps : List (Nat × List Text)) (s : Nat) (hasc : Ascending steps)
    (hs : s ∈ steps.map Prod.fst) (hblk : ∀ b ∈ steps, CpmdBlock b.1 b.2) :
    cpmdXyz s (stepFile [] steps) = stepFileBefore s [] steps := by
  obtain ⟨ls, hls, h⟩ := cut_present (stepRe s) [] steps s hasc hs (by simp)
    (fun b hb hlt => cpmdBlock_other b.1 s b.2 (hblk b hb) fun hp => by
      have := infix_le s b.1 hp.isInfix
      omega) (fun ls => ls.take 1) (by
      intro ls hls
      obtain ⟨c, m, rest, e, hm, hc, -⟩ := hblk _ hls
      simp only at e
      subst e
      refine ⟨m, rest, rfl, ?_, (stepRe_comment s s m hm).2 (List.prefix_refl _)⟩
      intro l hl
      simp only [List.take_succ_cons, List.take_zero, List.mem_singleton] at hl
      rw [hl]
      exact stepRe_infix s c hc)
  obtain ⟨c, m, rest, e, hm, hc, -⟩ := hblk _ hls
  simp only at e
  subst e
  unfold cpmdXyz
  rw [h]
  simp only [List.take_succ_cons, List.take_zero]
  rw [List.dropLast_concat]

/-- **C100** is false for `TRAJEC.xyz` if the step is not in the file (and no step begins with its digits): no step is deleted, but the last line
of the file is, so that the last step is damaged. -/
theorem C100_cpmd_xyz_absent (steps : List (Nat × List Text)) (s : Nat) (hs : ∀ b ∈ steps, ¬ strNat s <+: strNat b.1)
    (hblk : ∀ b ∈ steps, CpmdBlock b.1 b.2) : cpmdXyz s (stepFile [] steps) = (stepFile [] steps).dropLast := by
  unfold cpmdXyz
  rw [cut_absent]
  intro l hl
  unfold stepFile at hl
  rw [List.nil_append, List.mem_flatMap] at hl
  obtain ⟨b, hb, hl⟩ := hl
  exact cpmdBlock_other b.1 s b.2 (hblk b hb) (hs b hb) l hl

/-! ## examples -/

/-- A file written every 10 steps. -/
def exSteps : List (Nat × List Text) := [(10, ["  10  a".toList]), (20, ["  20  b".toList]), (30, ["  30  c".toList])]

/-- Cut at 20: step 10 is kept; cut at 15: nothing is deleted. -/
theorem C100_absent_counterexample :
    cp2kLines 20 (stepFile ["# Step".toList] exSteps) = ["# Step".toList, "  10  a".toList] ∧
    cp2kLines 15 (stepFile ["# Step".toList] exSteps) = stepFile ["# Step".toList] exSteps := by
  decide +kernel

example : Ascending exSteps ∧ 20 ∈ exSteps.map Prod.fst ∧ ∀ b ∈ exSteps, LineBlock b.1 b.2 := by
  refine ⟨by unfold Ascending; decide +kernel, by decide +kernel, ?_⟩
  have hb : ∀ (n : Nat) (l : Text), lineRe n l = true → LineBlock n [l] := fun n l h => ⟨l, [], rfl, (lineRe_iff n l).1 h, by simp⟩
  intro b h
  simp only [exSteps, List.mem_cons, List.not_mem_nil, or_false] at h
  rcases h with h | h | h
  · rw [h]; exact hb _ _ (by decide +kernel)
  · rw [h]; exact hb _ _ (by decide +kernel)
  · rw [h]; exact hb _ _ (by decide +kernel)

/-- Blocks of the other kinds. -/
example : HeadBlock "CELL PARAMETERS".toList 8401 ["  CELL PARAMETERS at Step: 8401".toList, " 1 0 0".toList] := by
  refine ⟨"  ".toList, " at ".toList, ": ".toList, [], [" 1 0 0".toList], by decide +kernel, ?_⟩
  unfold NoDigit
  decide +kernel

example : Cp2kBlock 1 8401 ["      1".toList, " i =     8401, time = 4".toList, "H 0.5 0.0 0.0".toList] := by
  refine ⟨_, _, _, rfl, ⟨5, 0, by decide +kernel⟩, ⟨"     ".toList, ' ', "time = 4".toList, ⟨by decide +kernel, by decide +kernel⟩, by decide, ?_⟩, ?_⟩
  · decide +kernel
  · decide +kernel

example : CpmdBlock 8401 ["      1".toList, "  STEP:     8401".toList, "H 0.5 0.0 0.0".toList] := by
  refine ⟨_, _, _, rfl, ⟨"  ".toList, "     ".toList, [], ⟨by decide +kernel, by decide +kernel⟩, ⟨by decide +kernel, by decide +kernel⟩, ?_⟩, ?_⟩
  · unfold NoDigit; decide +kernel
  · decide +kernel

end Pwtools.Cut
