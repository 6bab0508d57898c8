import Verif.Model.Fqha
import Verif.Spec.Fqha
import Verif.Spec.Cp2k
import Verif.Props.Cp2k
import Verif.Props.Cell2
import Verif.Props.Cif2any
/-!
# C142: `bin/matdyn2fqha.py`
-/
namespace Pwtools.Fqha
open Spec Cry Gr Cp2k Sg Cif2any

theorem linesOf_cons (a b : Text) (ha : '\n' ∉ a) : linesOf (a ++ '\n' :: b) = a :: linesOf b := by
  unfold linesOf
  have : ∀ cur, splitSepAux '\n' [] cur (a ++ '\n' :: b) = (cur ++ a) :: splitSepAux '\n' [] [] b := by
    induction a with
    | nil =>
      intro cur
      rw [List.nil_append, splitSepAux]
      simp
    | cons x a ih =>
      intro cur
      have hx : x ≠ '\n' := fun e => ha (e ▸ List.mem_cons_self)
      rw [List.cons_append, splitSepAux, if_neg (by simp [List.isPrefixOf, hx.symm]), ih (fun h => ha (List.mem_cons_of_mem _ h))]
      simp
  simpa using this []

theorem linesOf_snoc (b : Text) : linesOf (b ++ ['\n']) = linesOf b ++ [[]] := by
  unfold linesOf
  have : ∀ cur, splitSepAux '\n' [] cur (b ++ ['\n']) = splitSepAux '\n' [] cur b ++ [[]] := by
    induction b with
    | nil =>
      intro cur
      rw [List.nil_append, splitSepAux, splitSepAux]
      simp [splitSepAux]
    | cons x b ih =>
      intro cur
      rw [List.cons_append, splitSepAux, splitSepAux]
      by_cases hx : x = '\n'
      · subst hx
        simp [ih]
      · have : ¬ (['\n'].isPrefixOf (x :: (b ++ ['\n'])) = true) := by simp [List.isPrefixOf, Ne.symm hx]
        have h2 : ¬ (['\n'].isPrefixOf (x :: b) = true) := by simp [List.isPrefixOf, Ne.symm hx]
        rw [if_neg this, if_neg h2, ih]
  exact this []

theorem strInt_word (i : Int) : WordText (strInt i) := by
  cases i with
  | ofNat n => exact (nat_word n).1
  | negSucc n =>
    refine ⟨by simp [strInt], fun c hc => ?_⟩
    rcases List.mem_cons.1 hc with rfl | hc
    · decide
    · exact (nat_word _).1.2 c hc

theorem header2_words (fmt : ℝ → Text) (hf : ∀ x, WordText (fmt x)) (i : Int) (n : Nat) (e d : ℝ) : splitWs (header2 fmt i n e d) = [strInt i, strNat n, fmt e, fmt d] := by
  unfold header2
  have h2 : ∀ t : Text, splitWs (' ' :: t) = splitWs t := fun t => by
    have := words_sep [] t ' ' (by decide)
    exact this
  have e1 : strInt i ++ "  ".toList ++ strNat n ++ "  ".toList ++ fmt e ++ "  ".toList ++ fmt d =
      strInt i ++ ' ' :: ' ' :: (strNat n ++ ' ' :: ' ' :: (fmt e ++ ' ' :: ' ' :: fmt d)) := by simp
  rw [e1, words_sep _ _ ' ' (by decide), h2, words_sep _ _ ' ' (by decide), h2, words_sep _ _ ' ' (by decide), h2, word_self _ (strInt_word i), word_self _ (nat_word n).1, word_self _ (hf e),
    word_self _ (hf d)]
  rfl

theorem out_lines (fmt : ℝ → Text) (hf : ∀ x, WordText (fmt x)) (i : Int) (n : Nat) (e d : ℝ) (content : Text) :
    linesOf (strInt i ++ ['\n'] ++ header2 fmt i n e d ++ ['\n'] ++ content ++ ['\n']) = strInt i :: header2 fmt i n e d :: (linesOf content ++ [[]]) := by
  rw [List.append_assoc, List.append_assoc, List.append_assoc, List.append_assoc, List.singleton_append, linesOf_cons _ _ (word_nl (strInt_word _)), List.singleton_append, linesOf_cons,
    linesOf_snoc]
  unfold header2
  simp only [List.mem_append, not_or]
  exact ⟨⟨⟨⟨⟨⟨word_nl (strInt_word _), by decide⟩, word_nl (nat_word _).1⟩, by decide⟩, word_nl (hf _)⟩, by decide⟩, word_nl (hf _)⟩

theorem rows_read (num : Text → Option ℝ) (ls : List Text) (rows : List (List ℝ)) (ht : List.Forall₂ (fun l v => (splitWs l).map num = v.map some) ls rows) (m : Nat)
    (hm : 2 ≤ m) (hr : ∀ v ∈ rows, v.length = m) :
    List.Forall₂ (fun l r => ∃ x y t, splitWs l = x :: y :: t ∧ num x = some r.1 ∧ num y = some r.2) ls (rows.map fun v => (v.getD 0 0, v.getD 1 0)) := by
  rw [List.forall₂_map_right_iff]
  induction ht with
  | nil => exact .nil
  | @cons l v ls rows h1 _ ih =>
    refine .cons ?_ (ih fun v hv => hr v (List.mem_cons_of_mem _ hv))
    have hv := hr v List.mem_cons_self
    match v, hv with
    | x :: y :: t, _ =>
      match hw : splitWs l, h1 with
      | [], h1 => simp at h1
      | [_], h1 => simp at h1
      | p :: q :: r, h1 =>
        simp only [List.map_cons, List.cons.injEq] at h1
        exact ⟨p, q, r, rfl, h1.1, h1.2.1⟩
    | [x], hv => simp at hv; omega
    | [], hv => simp at hv; omega

/-- **C142** Below the two lines of the header the file is printed as it is, line by line, whatever is in it. -/
theorem C142_lines (fmt : ℝ → Text) (hf : ∀ x, WordText (fmt x)) (num : Text → Option ℝ) (integ : List ℝ → List ℝ → ℝ) (content out : Text) (h : fqha fmt num integ content = .ok out) :
    ∃ l1 l2 natom nstep emax de, linesOf out = l1 :: l2 :: (linesOf content ++ [[]]) ∧ splitWs l1 = [natom] ∧ splitWs l2 = [natom, nstep, emax, de] := by
  unfold fqha at h
  split at h
  · cases h
  · split at h
    · rename_i freq dos _ _
      cases h
      exact ⟨strInt (npRound (integ dos freq / 3)), _, strInt (npRound (integ dos freq / 3)), strNat freq.length, _, _, out_lines fmt hf _ _ _ _ _, word_self _ (strInt_word _),
        header2_words fmt hf _ _ _ _⟩
    · cases h
    · cases h

/-- **C142** For a DOS file without comments, with at least two lines of at least two columns (and blank lines at the end): the program reads from the output the number of atoms, which is the nearest
integer to a third of the integral, the number of lines, the last frequency and the spacing as printed, and exactly the frequencies and densities of the file. -/
theorem C142_output_partial (fmt : ℝ → Text) (hf : ∀ x, WordText (fmt x)) (num : Text → Option ℝ) (rnd : ℝ → ℝ) (hn : ∀ x, num (fmt x) = some (rnd x)) (integ : List ℝ → List ℝ → ℝ)
    (ls : List Text) (k : Nat) (rows : List (List ℝ)) (hl : ∀ l ∈ ls, '\n' ∉ l) (hc : ∀ l ∈ ls, '#' ∉ l) (ht : List.Forall₂ (fun l v => (splitWs l).map num = v.map some) ls rows) (m : Nat)
    (hm : 2 ≤ m) (hr : ∀ v ∈ rows, v.length = m) (h2 : 2 ≤ rows.length) :
    ∃ out, fqha fmt num integ (joinSep ['\n'] (ls ++ List.replicate k [])) = .ok out ∧
      FqhaReads num out (npRound (integ (rows.map fun v => v.getD 1 0) (rows.map fun v => v.getD 0 0) / 3)) rows.length (rnd ((rows.getLastD []).getD 0 0))
        (rnd ((rows.getD 1 []).getD 0 0 - (rows.getD 0 []).getD 0 0)) (rows.map fun v => (v.getD 0 0, v.getD 1 0)) := by
  have hne : ls ≠ [] := by
    rintro rfl
    cases ht
    simp at h2
  have hlines : fileLines (joinSep ['\n'] (ls ++ List.replicate k [])) = ls ++ List.replicate k [] := by
    refine splitSepAux_join '\n' [] _ (by simp [hne]) ?_
    intro l hl'
    rcases List.mem_append.1 hl' with h | h
    · exact hl l h
    · rw [(List.mem_replicate.1 h).2]
      simp
  have htab : IsTable num ls rows := by
    clear hne hlines h2 hr
    induction ht with
    | nil => exact .nil
    | cons h1 _ ih => exact .row (hc _ List.mem_cons_self) h1 (ih (fun l hl' => hl l (List.mem_cons_of_mem _ hl')) fun l hl' => hc l (List.mem_cons_of_mem _ hl'))
  have hload : loadtxt num (fileLines (joinSep ['\n'] (ls ++ List.replicate k []))) = .ok rows := by
    rw [hlines, ← loadtxt_eq htab m (by omega) hr]
    unfold loadtxt
    rw [← loadRows_filter, ← loadRows_filter num (ls.map _), List.map_append, List.filter_append, List.map_replicate]
    congr 1
    have : (List.replicate k (splitWs (noComment []))).filter (· ≠ []) = [] := by
      rw [List.filter_eq_nil_iff]
      intro x hx
      rw [(List.mem_replicate.1 hx).2]
      simp [noComment, splitWs, splitWsAux]
    rw [this, List.append_nil]
  have hcol : ∀ i < 2, column 0 rows i = .ok (rows.map fun v => v.getD i 0) := by
    intro i hi
    unfold column
    rw [is2d_eq rows m hr hm, if_pos]
    have : (rows.headD []).length = m := by
      cases rows with
      | nil => simp at h2
      | cons v rows => exact hr v List.mem_cons_self
    rw [this]
    simp [h2]
    omega
  have hout : ∃ out, fqha fmt num integ (joinSep ['\n'] (ls ++ List.replicate k [])) = .ok out := by
    unfold fqha
    rw [hload]
    simp only [hcol 0 (by omega), hcol 1 (by omega)]
    exact ⟨_, rfl⟩
  obtain ⟨out, ho⟩ := hout
  refine ⟨out, ho, ?_⟩
  unfold fqha at ho
  rw [hload] at ho
  simp only [hcol 0 (by omega), hcol 1 (by omega)] at ho
  cases ho
  have e1 : (rows.map fun v => v.getD 0 0).getLastD 0 = (rows.getLastD []).getD 0 0 := by
    rw [List.getLastD_eq_getLast?, List.getLastD_eq_getLast?, List.getLast?_map]
    cases rows.getLast? <;> rfl
  have e2 : ∀ i, (rows.map fun v => v.getD 0 0).getD i 0 = (rows.getD i []).getD 0 0 := by
    intro i
    simp only [List.getD_eq_getElem?_getD, List.getElem?_map]
    cases rows[i]? <;> rfl
  rw [e1, e2, e2, List.length_map]
  refine ⟨_, _, ls, List.replicate k [] ++ [[]], _, _, _, _, ?_, word_self _ (strInt_word _), header2_words fmt hf _ _ _ _, parseInt_strInt _, parseInt_strInt (Int.ofNat rows.length), hn _, hn _,
    ht.length_eq, ?_⟩
  · have hl' : linesOf (joinSep ['\n'] (ls ++ List.replicate k [])) = ls ++ List.replicate k [] := hlines
    rw [out_lines fmt hf, hl', List.append_assoc]
  · exact rows_read num ls rows ht m hm hr

/-- **C142** The number of atoms is right if the integral is 3 times this number with an error below 3/2. -/
theorem C142_natoms (x : ℝ) (n : Int) (h : |x - 3 * n| < 3 / 2) : npRound (x / 3) = n := by
  have h1 := npRound_spec (x / 3)
  have h2 : |(npRound (x / 3) : ℝ) - n| < 1 := by
    rw [abs_lt] at h ⊢
    rw [abs_le] at h1
    constructor <;> linarith
  have h3 : |npRound (x / 3) - n| < 1 := by exact_mod_cast h2
  rw [Int.abs_lt_one_iff] at h3
  omega

/-- Numbers of the examples: integers. -/
def exNum (w : Text) : Option ℝ := (parseInt w).map fun i => (i : ℝ)

/-- **C142** is false for a file with a comment line, as newer versions of `matdyn.x` write it: the comment is not counted, but printed, so that the program finds no number in the third line. -/
theorem C142_comment_counterexample (fmt : ℝ → Text) (hf : ∀ x, WordText (fmt x)) (integ : List ℝ → List ℝ → ℝ) :
    ∃ out, fqha fmt exNum integ "# f dos\n0 0\n1 3".toList = .ok out ∧ ¬ ∃ natom nstep emax de rows, nstep ≠ 0 ∧ FqhaReads exNum out natom nstep emax de rows := by
  have hlines : linesOf "# f dos\n0 0\n1 3".toList = ["# f dos".toList, "0 0".toList, "1 3".toList] := by decide +kernel
  have e0 : exNum "0".toList = some 0 := by
    have : parseInt ['0'] = some 0 := by decide +kernel
    simp [exNum, this]
  have e1 : exNum "1".toList = some 1 := by
    have : parseInt ['1'] = some 1 := by decide +kernel
    simp [exNum, this]
  have e3 : exNum "3".toList = some 3 := by
    have : parseInt ['3'] = some 3 := by decide +kernel
    simp [exNum, this]
  have htab : IsTable exNum ["# f dos".toList, "0 0".toList, "1 3".toList] [[0, 0], [1, 3]] := by
    have w1 : splitWs "0 0".toList = ["0".toList, "0".toList] := by decide +kernel
    have w2 : splitWs "1 3".toList = ["1".toList, "3".toList] := by decide +kernel
    refine .comment (l := " f dos".toList) (.row (by decide) ?_ (.row (by decide) ?_ .nil))
    · rw [w1, List.map_cons, List.map_cons, e0]; rfl
    · rw [w2, List.map_cons, List.map_cons, e1, e3]; rfl
  have hload : loadtxt exNum (fileLines "# f dos\n0 0\n1 3".toList) = .ok [[0, 0], [1, 3]] := by
    rw [show fileLines "# f dos\n0 0\n1 3".toList = _ from hlines]
    exact loadtxt_eq htab 2 (by omega) (by simp)
  have ho : ∃ out, fqha fmt exNum integ "# f dos\n0 0\n1 3".toList = .ok out := by
    unfold fqha
    rw [hload]
    exact ⟨_, rfl⟩
  obtain ⟨out, ho⟩ := ho
  refine ⟨out, ho, ?_⟩
  rintro ⟨natom, nstep, emax, de, rows, hne, l1, l2, ls, rest, a, b, c, d, h1, -, -, -, -, -, -, h2, h3⟩
  obtain ⟨k1, k2, _, _, _, _, g1, -, -⟩ := C142_lines fmt hf exNum integ _ out ho
  rw [h1, hlines] at g1
  simp only [List.cons.injEq] at g1
  obtain ⟨-, -, g1⟩ := g1
  cases ls with
  | nil => exact hne h2.symm
  | cons l ls =>
    cases h3 with
    | cons h3 _ =>
      obtain ⟨x, y, t, h4, h5, -⟩ := h3
      simp only [List.cons_append, List.cons.injEq] at g1
      rw [g1.1, show splitWs "# f dos".toList = ["#".toList, "f".toList, "dos".toList] by decide +kernel] at h4
      simp only [List.cons.injEq] at h4
      rw [← h4.1] at h5
      have : parseInt ['#'] = none := by decide +kernel
      simp [exNum, this] at h5

/-- Hypotheses of `C142_output_partial`: two lines, numbers printed as `0` or `1`. -/
example : ∃ (ls : List Text) (rows : List (List ℝ)), (∀ l ∈ ls, '\n' ∉ l) ∧ (∀ l ∈ ls, '#' ∉ l) ∧ List.Forall₂ (fun l v => (splitWs l).map exNum = v.map some) ls rows ∧
    (∀ v ∈ rows, v.length = 2) ∧ 2 ≤ rows.length := by
  refine ⟨["0 0".toList, " 1  3".toList], [[0, 0], [1, 3]], by decide, by decide, ?_, by simp, by simp⟩
  have w1 : splitWs "0 0".toList = ["0".toList, "0".toList] := by decide +kernel
  have w2 : splitWs " 1  3".toList = ["1".toList, "3".toList] := by decide +kernel
  have p0 : parseInt ['0'] = some 0 := by decide +kernel
  have p1 : parseInt ['1'] = some 1 := by decide +kernel
  have p3 : parseInt ['3'] = some 3 := by decide +kernel
  refine .cons ?_ (.cons ?_ .nil)
  · rw [w1]; simp [exNum, p0]
  · rw [w2]; simp [exNum, p1, p3]

/-- A formatter which meets the hypotheses: it prints the integer part. -/
example : ∃ (fmt : ℝ → Text) (rnd : ℝ → ℝ), (∀ x, WordText (fmt x)) ∧ ∀ x, exNum (fmt x) = some (rnd x) :=
  ⟨fun x => strInt ⌊x⌋, fun x => (⌊x⌋ : ℝ), fun _ => strInt_word _, fun x => by simp [exNum, parseInt_strInt]⟩

end Pwtools.Fqha
