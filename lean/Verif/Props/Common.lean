import Verif.Spec.Common
import Mathlib.Data.List.Basic
import Mathlib.Data.List.Nodup
import Mathlib.Data.List.Perm.Subperm
import Mathlib.Tactic.Linarith
import Mathlib.Tactic.Push
import Mathlib.Tactic.IntervalCases
/-!
# C03, C04, C05, C08: `common.py`
-/
namespace Pwtools
open Spec

/-! ## C05 seq2str / str2seq -/
section strings

theorem splitWsAux_tok (tok : Text) (h : ∀ c ∈ tok, isPySpace c = false) (cur rest : Text) :
    splitWsAux cur (tok ++ rest) = splitWsAux (cur ++ tok) rest := by
  induction tok generalizing cur with
  | nil => simp
  | cons c tok ih =>
    have hc : isPySpace c = false := h c (by simp)
    rw [List.cons_append, splitWsAux, hc]
    simp only [Bool.false_eq_true, if_false]
    rw [ih (fun c hc => h c (by simp [hc]))]
    simp

theorem splitWsAux_sep (sep : Text) (h : ∀ c ∈ sep, isPySpace c = true) (rest : Text) :
    splitWsAux [] (sep ++ rest) = splitWsAux [] rest := by
  induction sep with
  | nil => simp
  | cons c sep ih =>
    have hc : isPySpace c = true := h c (by simp)
    rw [List.cons_append, splitWsAux, hc]
    simp only [if_true]
    exact ih (fun c hc => h c (by simp [hc]))

theorem splitWs_join (sep : Text) (hsep : sep ≠ []) (hs : ∀ c ∈ sep, isPySpace c = true)
    (toks : List Text) (ht : ∀ t ∈ toks, t ≠ [] ∧ ∀ c ∈ t, isPySpace c = false) :
    splitWs (joinSep sep toks) = toks := by
  unfold splitWs
  induction toks with
  | nil => simp [joinSep, splitWsAux]
  | cons p ps ih =>
    obtain ⟨hp1, hp2⟩ := ht p (by simp)
    cases ps with
    | nil =>
      simp only [joinSep]
      have := splitWsAux_tok p hp2 [] []
      simp only [List.append_nil, List.nil_append] at this
      rw [this]; simp [splitWsAux, hp1]
    | cons q ps =>
      simp only [joinSep, List.append_assoc]
      rw [splitWsAux_tok p hp2]
      cases sep with
      | nil => exact absurd rfl hsep
      | cons s ss =>
        have hs1 : isPySpace s = true := hs s (by simp)
        rw [List.cons_append, splitWsAux, hs1]
        simp only [if_true, List.nil_append, if_neg hp1]
        rw [splitWsAux_sep ss (fun c hc => hs c (by simp [hc]))]
        rw [ih (fun t h => ht t (by simp [h]))]

theorem splitSepAux_tok (s : Char) (ss tok : Text) (h : s ∉ tok) (cur rest : Text) :
    splitSepAux s ss cur (tok ++ rest) = splitSepAux s ss (cur ++ tok) rest := by
  induction tok generalizing cur with
  | nil => simp
  | cons c tok ih =>
    have hc : s ≠ c := fun e => h (by simp [e])
    rw [List.cons_append, splitSepAux]
    have : (s :: ss).isPrefixOf (c :: (tok ++ rest)) = false := by
      simp [List.isPrefixOf, hc]
    rw [this]
    simp only [Bool.false_eq_true, if_false]
    rw [ih (fun hm => h (by simp [hm]))]
    simp

theorem splitSepAux_join (s : Char) (ss : Text) (toks : List Text) (hne : toks ≠ [])
    (h : ∀ t ∈ toks, s ∉ t) : splitSepAux s ss [] (joinSep (s :: ss) toks) = toks := by
  induction toks with
  | nil => exact absurd rfl hne
  | cons p ps ih =>
    have hp := h p (by simp)
    cases ps with
    | nil =>
      simp only [joinSep]
      have := splitSepAux_tok s ss p hp [] []
      simp only [List.append_nil, List.nil_append] at this
      rw [this, splitSepAux]
    | cons q ps =>
      simp only [joinSep, List.append_assoc]
      rw [splitSepAux_tok s ss p hp, List.cons_append, splitSepAux]
      have : (s :: ss).isPrefixOf (s :: (ss ++ joinSep (s :: ss) (q :: ps))) = true := by
        rw [List.isPrefixOf_iff_prefix]
        exact ⟨joinSep (s :: ss) (q :: ps), by simp⟩
      rw [this]
      simp only [if_true, List.nil_append, List.drop_left]
      rw [ih (by simp) (fun t ht => h t (by simp [ht]))]

theorem mapE_map {α : Type} (func : Text → Option α) (str : α → Text) (seq : List α)
    (h : ∀ a ∈ seq, func (str a) = some a) : mapE func (seq.map str) = some seq := by
  induction seq with
  | nil => rfl
  | cons a as ih =>
    simp only [List.map_cons, mapE, h a (by simp), ih (fun b hb => h b (by simp [hb]))]

/-- **C05** (default separators). If `func` undoes `str` on the elements and the element
texts are non-empty and free of white space, `str2seq(seq2str(seq), func)` is `seq`; any
non-empty white space `sep` may be used for joining. -/
theorem C05_roundtrip_ws {α : Type} (str : α → Text) (func : Text → Option α) (sep : Text)
    (hsep : sep ≠ []) (hs : ∀ c ∈ sep, isPySpace c = true) (seq : List α)
    (hinv : ∀ a ∈ seq, func (str a) = some a)
    (htok : ∀ a ∈ seq, str a ≠ [] ∧ ∀ c ∈ str a, isPySpace c = false) :
    str2seq (seq2str seq str sep) func none = some seq := by
  simp only [str2seq, seq2str]
  rw [splitWs_join sep hsep hs _ (by
    intro t ht
    obtain ⟨a, ha, rfl⟩ := List.mem_map.1 ht
    exact htok a ha)]
  exact mapE_map func str seq hinv

/-- **C05** (custom separator). With the same non-empty separator on both sides the round
trip holds for every non-empty sequence whose element texts do not contain the first
character of the separator. -/
theorem C05_roundtrip_sep {α : Type} (str : α → Text) (func : Text → Option α) (s : Char) (ss : Text)
    (seq : List α) (hne : seq ≠ [])
    (hinv : ∀ a ∈ seq, func (str a) = some a) (htok : ∀ a ∈ seq, s ∉ str a) :
    str2seq (seq2str seq str (s :: ss)) func (some (s :: ss)) = some seq := by
  simp only [str2seq, seq2str]
  rw [splitSepAux_join s ss _ (by simpa using hne) (by
    intro t ht
    obtain ⟨a, ha, rfl⟩ := List.mem_map.1 ht
    exact htok a ha)]
  exact mapE_map func str seq hinv

theorem strNat_digits (n : Nat) : ∀ c ∈ strNat n, c.isDigit = true :=
  fun _ hc => Nat.isDigit_of_mem_toDigits (by decide) (by decide) hc

theorem strNat_ne_nil (n : Nat) : strNat n ≠ [] := Nat.toDigits_ne_nil

theorem strNat_inj {m n : Nat} (h : strNat m = strNat n) : m = n := by
  have := congrArg (fun l => Nat.ofDigitChars 10 l 0) h
  simpa [strNat] using this

theorem isPySpace_digit (c : Char) (h : c.isDigit = true) : isPySpace c = false := by
  have h1 : 48 ≤ c.toNat ∧ c.toNat ≤ 57 := by
    simp only [Char.isDigit, Bool.and_eq_true, decide_eq_true_eq] at h
    exact ⟨h.1, h.2⟩
  simp only [isPySpace]
  generalize c.toNat = n at h1
  simp only [Bool.or_eq_false_iff, Bool.and_eq_false_iff, decide_eq_false_iff_not,
    beq_eq_false_iff_ne]
  omega

theorem parseInt_strNat (n : Nat) : parseInt (strNat n) = some (n : Int) := by
  have hd := strNat_digits n
  have hv : Nat.ofDigitChars 10 (strNat n) 0 = n := by simp [strNat]
  cases hc : strNat n with
  | nil => exact absurd hc (strNat_ne_nil n)
  | cons c cs =>
    rw [hc] at hd hv
    have h1 : c ≠ '-' := by
      rintro rfl; have := hd '-' (by simp); simp [Char.isDigit] at this
    have h2 : c ≠ '+' := by
      rintro rfl; have := hd '+' (by simp); simp [Char.isDigit] at this
    unfold parseInt
    split
    · simp at *
    · rename_i h; simp only [List.cons.injEq] at h; exact absurd h.1 h1
    · rename_i h; simp only [List.cons.injEq] at h; exact absurd h.1 h2
    · rw [if_pos (by simpa using hd), hv]

theorem parseInt_strInt (i : Int) : parseInt (strInt i) = some i := by
  cases i with
  | ofNat n => exact parseInt_strNat n
  | negSucc n =>
    simp only [strInt, parseInt]
    rw [if_pos ⟨strNat_ne_nil _, by simpa using strNat_digits (n + 1)⟩]
    simp [strNat, Int.negSucc_eq]

/-- **C05** (integers). For every list of ints, the empty one included, the default calls
`str2seq(seq2str(seq))` give the list back. -/
theorem C05_roundtrip_int (seq : List Int) :
    str2seq (seq2str seq strInt) parseInt none = some seq := by
  apply C05_roundtrip_ws strInt parseInt [' '] (by simp) (by decide) seq
  · intro a _; exact parseInt_strInt a
  · intro a _
    cases a with
    | ofNat n =>
      exact ⟨strNat_ne_nil n, fun c hc => isPySpace_digit c (strNat_digits n c hc)⟩
    | negSucc n =>
      refine ⟨by simp [strInt], fun c hc => ?_⟩
      simp only [strInt, List.mem_cons] at hc
      rcases hc with rfl | hc
      · decide
      · exact isPySpace_digit c (strNat_digits (n+1) c hc)

/-- The hypothesis on the separator is needed: a separator which does not occur in any
element text but can overlap one breaks the round trip. -/
theorem C05_sep_overlap_counterexample :
    str2seq (seq2str ["ba".toList, "b".toList] id "aa".toList) some (some "aa".toList)
      = some ["b".toList, "ab".toList] := by
  simp [seq2str, joinSep, str2seq, splitSepAux, mapE, List.isPrefixOf]

/-- The empty sequence does not survive a custom separator: `''.split(',') == ['']`. -/
theorem C05_empty_sep_counterexample :
    str2seq (seq2str ([] : List Text) id [',']) some (some [',']) = some [[]] := by
  simp [seq2str, joinSep, str2seq, splitSepAux, mapE]

example : seq2str [1, -20, 3] strInt = "1 -20 3".toList := by decide
example : ∃ t : List Text, t ≠ [] ∧ ∀ a ∈ t, ',' ∉ a := ⟨["ab".toList], by simp, by simp⟩

end strings

/-! ## C03 backup -/
section backup
variable {C : Type}

theorem lookup_filter_ne (fs : Fs C) (n m : Text) :
    List.lookup m (fs.filter (fun e => e.1 ≠ n)) = if m = n then none else List.lookup m fs := by
  induction fs with
  | nil => simp
  | cons e fs ih =>
    obtain ⟨a, x⟩ := e
    by_cases ha : a = n
    · subst ha
      rw [List.filter_cons_of_neg (by simp), ih]
      by_cases hm : m = a
      · simp [hm]
      · have : (m == a) = false := by simpa using hm
        simp [hm, List.lookup, this]
    · rw [List.filter_cons_of_pos (by simpa using ha)]
      by_cases hm : m = a
      · subst hm; simp [List.lookup, ha]
      · have : (m == a) = false := by simpa using hm
        simp only [List.lookup, this]; exact ih

theorem Fs.get_set (fs : Fs C) (n m : Text) (x : FNode C) :
    (fs.set n x).get m = if m = n then some x else fs.get m := by
  unfold Fs.get Fs.set
  by_cases hm : m = n
  · subst hm; simp [List.lookup]
  · have : (m == n) = false := by simpa using hm
    simp only [List.lookup, this, lookup_filter_ne, hm, if_false]

theorem Fs.get_del (fs : Fs C) (n m : Text) :
    (fs.del n).get m = if m = n then none else fs.get m := lookup_filter_ne fs n m

theorem backupName_inj {src pre : Text} {i j : Nat} (h : backupName src pre i = backupName src pre j) :
    i = j := by
  unfold backupName at h
  exact strNat_inj (List.append_cancel_left h)

theorem backupName_ne_src (src pre : Text) (i : Nat) : src ≠ backupName src pre i := by
  intro h
  have := congrArg List.length h
  simp only [backupName, List.length_append] at this
  have : 0 < (strNat i).length := List.length_pos_iff.2 (strNat_ne_nil i)
  omega

theorem Fs.mem_of_get {fs : Fs C} {n : Text} (h : (fs.get n).isSome) : n ∈ fs.map Prod.fst := by
  unfold Fs.get at h
  induction fs with
  | nil => simp at h
  | cons e fs ih =>
    obtain ⟨a, x⟩ := e
    by_cases hn : n = a
    · simp [hn]
    · have : (n == a) = false := by simpa using hn
      simp only [List.lookup, this] at h
      simp [ih h]

theorem backupIdx_some {fs : Fs C} {src pre : Text} {fuel idx N : Nat}
    (h : backupIdx fs src pre fuel idx = some N) :
    idx ≤ N ∧ fs.get (backupName src pre N) = none ∧
      ∀ m, idx ≤ m → m < N → (fs.get (backupName src pre m)).isSome := by
  induction fuel generalizing idx with
  | zero => simp [backupIdx] at h
  | succ fuel ih =>
    unfold backupIdx at h
    by_cases ht : (fs.get (backupName src pre idx)).isSome
    · rw [if_pos ht] at h
      obtain ⟨h1, h2, h3⟩ := ih h
      refine ⟨by omega, h2, fun m hm hN => ?_⟩
      by_cases hmi : m = idx
      · rw [hmi]; exact ht
      · exact h3 m (by omega) hN
    · rw [if_neg ht] at h
      simp only [Option.some.injEq] at h
      subst h
      exact ⟨le_refl _, by simpa using ht, fun m h1 h2 => by omega⟩

theorem backupIdx_none {fs : Fs C} {src pre : Text} {fuel idx : Nat}
    (h : backupIdx fs src pre fuel idx = none) :
    ∀ m, idx ≤ m → m < idx + fuel → (fs.get (backupName src pre m)).isSome := by
  induction fuel generalizing idx with
  | zero => intro m h1 h2; omega
  | succ fuel ih =>
    unfold backupIdx at h
    by_cases ht : (fs.get (backupName src pre idx)).isSome
    · rw [if_pos ht] at h
      intro m h1 h2
      by_cases hmi : m = idx
      · rw [hmi]; exact ht
      · exact ih h m (by omega) (by omega)
    · rw [if_neg ht] at h; simp at h

theorem backupIdx_terminates (fs : Fs C) (src pre : Text) :
    ∃ N, backupIdx fs src pre (fs.length + 1) 0 = some N := by
  cases h : backupIdx fs src pre (fs.length + 1) 0 with
  | some N => exact ⟨N, rfl⟩
  | none =>
    exfalso
    have h1 := backupIdx_none h
    let names := (List.range (fs.length + 1)).map (backupName src pre)
    have hnd : names.Nodup := by
      apply List.Nodup.map
      · intro i j hij; exact backupName_inj hij
      · exact List.nodup_range
    have hsub : names ⊆ fs.map Prod.fst := by
      intro n hn
      obtain ⟨i, hi, rfl⟩ := List.mem_map.1 hn
      exact Fs.mem_of_get (h1 i (by omega) (by simpa using hi))
    have := (List.Nodup.subperm hnd hsub).length_le
    simp [names] at this

/-- **C03** (one call). For every directory content: a missing `src` changes nothing, a
special file is rejected, and otherwise the loop terminates and `src` is copied to the name
with the smallest free number `N`; every other name keeps exactly what it held. -/
theorem C03_backup (fs : Fs C) (src pre : Text) :
    (fs.get src = none → backup fs src pre = .ok fs) ∧
    (fs.get src = some .special → backup fs src pre = .error .notFileOrDir) ∧
    (∀ node, fs.get src = some node → node ≠ .special →
      ∃ N fs', backup fs src pre = .ok fs' ∧
        fs.get (src ++ pre ++ strNat N) = none ∧
        (∀ m, m < N → (fs.get (src ++ pre ++ strNat m)).isSome) ∧
        ∀ name, fs'.get name = if name = src ++ pre ++ strNat N then some node else fs.get name) := by
  refine ⟨?_, ?_, ?_⟩
  · intro h; simp [backup, h]
  · intro h; simp [backup, h]
  · intro node h hs
    obtain ⟨N, hN⟩ := backupIdx_terminates fs src pre
    obtain ⟨_, h2, h3⟩ := backupIdx_some hN
    refine ⟨N, fs.set (backupName src pre N) node, ?_, h2, fun m hm => h3 m (by omega) hm, ?_⟩
    · unfold backup
      rw [h]
      cases node with
      | special => exact absurd rfl hs
      | file c => simp only [hN]
      | dir c => simp only [hN]
    · intro name
      rw [Fs.get_set]; rfl

/-- One step of a history; an exception in `backup` leaves the directory as it is. -/
def stepF (src pre : Text) (fs : Fs C) : FOp C → Fs C
  | .write n x => fs.set n x
  | .remove n => fs.del n
  | .backup => match backup fs src pre with
    | .ok fs' => fs'
    | .error _ => fs

/-- The other writes of a history do not use names of the form `src<prefix><number>`. -/
def Foreign (src pre : Text) : FOp C → Prop
  | .write n _ => ∀ i, n ≠ src ++ pre ++ strNat i
  | .remove n => ∀ i, n ≠ src ++ pre ++ strNat i
  | .backup => True

theorem history_inv (src pre : Text) (ops : List (FOp C)) (fs : Fs C) (done : List (FNode C))
    (hops : ∀ o ∈ ops, Foreign src pre o)
    (hinv : ∀ k, fs.get (backupName src pre k) = done[k]?) :
    ∀ k, (ops.foldl (stepF src pre) fs).get (backupName src pre k)
      = (done ++ versions src (fs.get src) ops)[k]? := by
  induction ops generalizing fs done with
  | nil => simpa [versions] using hinv
  | cons o ops ih =>
    have hrest : ∀ o ∈ ops, Foreign src pre o := fun o h => hops o (by simp [h])
    have ho := hops o (by simp)
    rw [List.foldl_cons]
    cases o with
    | write n x =>
      have := ih (fs.set n x) done hrest (by
        intro k; rw [Fs.get_set, if_neg (fun e => ho k e.symm)]; exact hinv k)
      simp only [stepF, versions]
      rw [Fs.get_set] at this
      by_cases hn : n = src
      · simpa [hn] using this
      · have hn' : ¬ src = n := fun e => hn e.symm
        simpa [hn, hn'] using this
    | remove n =>
      have := ih (fs.del n) done hrest (by
        intro k; rw [Fs.get_del, if_neg (fun e => ho k e.symm)]; exact hinv k)
      simp only [stepF, versions]
      rw [Fs.get_del] at this
      by_cases hn : n = src
      · simpa [hn] using this
      · have hn' : ¬ src = n := fun e => hn e.symm
        simpa [hn, hn'] using this
    | backup =>
      obtain ⟨c1, c2, c3⟩ := C03_backup fs src pre
      simp only [stepF, versions]
      cases hsrc : fs.get src with
      | none =>
        rw [c1 hsrc]; simp only
        rw [← hsrc]; exact ih fs done hrest hinv
      | some node =>
        by_cases hsp : node = .special
        · subst hsp
          rw [c2 hsrc]; simp only
          rw [← hsrc]; exact ih fs done hrest hinv
        · obtain ⟨N, fs', e1, e2, e3, e4⟩ := c3 node hsrc hsp
          have hN : N = done.length := by
            have a1 : done[N]? = none := by rw [← hinv N]; exact e2
            have a2 := List.getElem?_eq_none_iff.1 a1
            by_contra hne
            have hlt : done.length < N := by omega
            have := e3 done.length hlt
            rw [show src ++ pre ++ strNat done.length = backupName src pre done.length from rfl,
              hinv] at this
            simp at this
          have hstep : ∀ k, fs'.get (backupName src pre k) = (done ++ [node])[k]? := by
            intro k
            rw [e4, show src ++ pre ++ strNat N = backupName src pre N from rfl]
            by_cases hk : k = N
            · subst hk
              rw [if_pos rfl, hN]; simp
            · rw [if_neg (fun e => hk (backupName_inj e)), hinv k]
              rcases lt_or_gt_of_ne hk with h | h
              · rw [List.getElem?_append_left (by omega)]
              · rw [List.getElem?_eq_none (by omega), List.getElem?_eq_none (by simp; omega)]
          have hs' : fs'.get src = some node := by
            rw [e4, show src ++ pre ++ strNat N = backupName src pre N from rfl,
              if_neg (backupName_ne_src src pre N), hsrc]
          have := ih fs' (done ++ [node]) hrest hstep
          rw [hs'] at this
          rw [e1]
          cases node with
          | special => exact absurd rfl hsp
          | file c => simpa using this
          | dir c => simpa using this

/-- **C03** (histories). Start with a directory without any `src<prefix><number>` and run
any sequence of writes, removals (of `src` or other files) and backups. Then for every `k`
the path `src<prefix>k` holds exactly the `k`-th version of `src` that was backed up, and
does not exist if there were at most `k` backups: no version is lost or changed. -/
theorem C03_history (src pre : Text) (fs : Fs C) (ops : List (FOp C))
    (hfree : ∀ k, fs.get (src ++ pre ++ strNat k) = none)
    (hops : ∀ o ∈ ops, Foreign src pre o) (k : Nat) :
    (ops.foldl (stepF src pre) fs).get (src ++ pre ++ strNat k)
      = (versions src (fs.get src) ops)[k]? := by
  have := history_inv src pre ops fs [] hops (by intro k; rw [backupName, hfree k]; simp) k
  rw [backupName] at this
  rw [this]; simp

/-- Non-vacuity: two versions written and backed up. -/
example : versions "a".toList none
    [.write "a".toList (.file 1), .backup, .write "a".toList (.file 2), FOp.backup]
    = [.file 1, .file 2] := by decide

example : ∀ k, Fs.get ([("a".toList, .file 1)] : Fs Nat) ("a".toList ++ ['.'] ++ strNat k) = none := by
  intro k
  have h := backupName_ne_src "a".toList ['.'] k
  have : (("a".toList ++ ['.'] ++ strNat k) == "a".toList) = false := by
    simpa using fun e => h (by simpa [backupName] using e.symm)
  simp only [Fs.get, List.lookup, this]

end backup

/-! ## C04 template_replace -/
section template

/-- Simultaneous substitution as a function (proof device). -/
def scan (rules : List (Text × Text)) : Nat → Text → Text
  | 0, _ => []
  | _, [] => []
  | fuel + 1, c :: cs =>
    match rules.find? (fun r => r.1.isPrefixOf (c :: cs)) with
    | some r => r.2 ++ scan rules fuel ((c :: cs).drop r.1.length)
    | none => c :: scan rules fuel cs

theorem isInfix_iff (key txt : Text) : isInfix key txt = true ↔ ∃ i, OccursAt key txt i := by
  induction txt with
  | nil =>
    constructor
    · intro h
      simp only [isInfix, List.isEmpty_iff] at h
      exact ⟨0, by simp [OccursAt, h]⟩
    · rintro ⟨i, h⟩
      simpa [isInfix, OccursAt] using h
  | cons c cs ih =>
    simp only [isInfix, Bool.or_eq_true, List.isPrefixOf_iff_prefix, ih]
    constructor
    · rintro (h | ⟨i, h⟩)
      · exact ⟨0, by simpa [OccursAt] using h⟩
      · exact ⟨i + 1, by simpa [OccursAt] using h⟩
    · rintro ⟨i, h⟩
      cases i with
      | zero => left; simpa [OccursAt] using h
      | succ i => right; exact ⟨i, by simpa [OccursAt] using h⟩

/-- Hypotheses restricted to a suffix of the text. -/
theorem Spec.Unambiguous.drop {rules : List (Text × Text)} {txt : Text} (h : Unambiguous rules txt) (n : Nat) :
    Unambiguous rules (txt.drop n) where
  keyNe := h.keyNe
  valNe := h.valNe
  nodup := h.nodup
  noVal := h.noVal
  noKey := by
    intro k v k' v' i j h1 h2 hne hi hj
    have := h.noKey k v k' v' (n + i) (n + j) h1 h2 hne
      (by simpa [OccursAt, List.drop_drop] using hi) (by simpa [OccursAt, List.drop_drop] using hj)
    omega

/-- Text with no key standing at any of its first `n` positions is copied. -/
theorem scan_copy (rules : List (Text × Text)) (pre rest : Text) (fuel : Nat)
    (hf : (pre ++ rest).length ≤ fuel)
    (h : ∀ i, i < pre.length → ∀ r ∈ rules, ¬ OccursAt r.1 (pre ++ rest) i) :
    scan rules fuel (pre ++ rest) = pre ++ scan rules (fuel - pre.length) rest := by
  induction pre generalizing fuel with
  | nil => simp
  | cons c pre ih =>
    cases fuel with
    | zero => simp at hf
    | succ fuel =>
      rw [List.cons_append, scan]
      have hn : rules.find? (fun r => r.1.isPrefixOf (c :: (pre ++ rest))) = none := by
        rw [List.find?_eq_none]
        intro r hr hp
        exact h 0 (by simp) r hr (by simpa [OccursAt, List.isPrefixOf_iff_prefix] using hp)
      rw [hn]
      simp only
      rw [ih fuel (by simpa using hf)]
      · simp
      · intro i hi r hr hoc
        exact h (i + 1) (by simpa using hi) r hr (by simpa [OccursAt] using hoc)

/-- With enough fuel the result does not depend on it. -/
theorem scan_fuel (rules : List (Text × Text)) (hk : ∀ r ∈ rules, r.1 ≠ []) (f g : Nat) (t : Text)
    (hf : t.length ≤ f) (hg : t.length ≤ g) : scan rules f t = scan rules g t := by
  induction f generalizing g t with
  | zero =>
    have : t = [] := List.length_eq_zero_iff.1 (by omega)
    subst this
    cases g <;> rfl
  | succ f ih =>
    cases t with
    | nil => cases g <;> rfl
    | cons c cs =>
      cases g with
      | zero => simp at hg
      | succ g =>
        rw [scan, scan]
        cases hfd : rules.find? (fun r => r.1.isPrefixOf (c :: cs)) with
        | none =>
          simp only
          rw [ih g cs (by simpa using hf) (by simpa using hg)]
        | some r =>
          simp only
          have hr := hk r (List.mem_of_find?_eq_some hfd)
          have : 0 < r.1.length := List.length_pos_iff.2 hr
          rw [ih g _ (by simp at hf ⊢; omega) (by simp at hg ⊢; omega)]

/-- `replaceNE` skips a stretch in which the key does not start. -/
theorem replaceNE_copy (k : Char) (ks v pre rest : Text)
    (h : ∀ i, i < pre.length → ¬ OccursAt (k :: ks) (pre ++ rest) i) :
    replaceNE k ks v (pre ++ rest) = pre ++ replaceNE k ks v rest := by
  induction pre with
  | nil => simp
  | cons c pre ih =>
    rw [List.cons_append, replaceNE]
    have hn : (k :: ks).isPrefixOf (c :: (pre ++ rest)) = false := by
      rw [Bool.eq_false_iff]
      intro hp
      exact h 0 (by simp) (by simpa [OccursAt, List.isPrefixOf_iff_prefix] using hp)
    rw [hn]
    simp only [Bool.false_eq_true, if_false, List.cons_append, List.cons.injEq, true_and]
    apply ih
    intro i hi hoc
    exact h (i + 1) (by simpa using hi) (by simpa [OccursAt] using hoc)

theorem replaceNE_hit (k : Char) (ks v rest : Text) :
    replaceNE k ks v ((k :: ks) ++ rest) = v ++ replaceNE k ks v rest := by
  rw [List.cons_append, replaceNE]
  have : (k :: ks).isPrefixOf (k :: (ks ++ rest)) = true := by
    rw [List.isPrefixOf_iff_prefix]; exact ⟨rest, by simp⟩
  rw [this]; simp

/-- Structure of a scanned text: a copied stretch, then the end or a written value. -/
theorem scan_shape (rules : List (Text × Text)) (hk : ∀ r ∈ rules, r.1 ≠ []) (t : Text) (f : Nat)
    (hf : t.length ≤ f) :
    ∃ pre, pre <+: t ∧ (∀ i, i < pre.length → ∀ r ∈ rules, ¬ OccursAt r.1 t i) ∧
      ((pre = t ∧ scan rules f t = pre) ∨
       ∃ r ∈ rules, ∃ out, scan rules f t = pre ++ (r.2 ++ out)) := by
  induction f generalizing t with
  | zero =>
    have : t = [] := List.length_eq_zero_iff.1 (by omega)
    subst this
    exact ⟨[], by simp, by simp, .inl ⟨rfl, rfl⟩⟩
  | succ f ih =>
    cases t with
    | nil => exact ⟨[], by simp, by simp, .inl ⟨rfl, rfl⟩⟩
    | cons c cs =>
      rw [scan]
      cases hfd : rules.find? (fun r => r.1.isPrefixOf (c :: cs)) with
      | some r =>
        refine ⟨[], by simp, by simp, .inr ⟨r, List.mem_of_find?_eq_some hfd, _, rfl⟩⟩
      | none =>
        obtain ⟨pre, h1, h2, h3⟩ := ih cs (by simpa using hf)
        refine ⟨c :: pre, by simpa using h1, ?_, ?_⟩
        · intro i hi r hr hoc
          cases i with
          | zero =>
            have := List.find?_eq_none.1 hfd r hr
            exact this (by simpa [OccursAt, List.isPrefixOf_iff_prefix] using hoc)
          | succ i => exact h2 i (by simpa using hi) r hr (by simpa [OccursAt] using hoc)
        · rcases h3 with ⟨e1, e2⟩ | ⟨r, hr, out, e⟩
          · left; subst e1; simp [e2]
          · right; exact ⟨r, hr, out, by simp [e]⟩

theorem prefix_of_prefix_append {a b c : Text} (h : a <+: b ++ c) (hl : a.length ≤ b.length) : a <+: b :=
  List.prefix_of_prefix_length_le h (List.prefix_append b c) hl

/-- Key step: replacing one more key after a simultaneous substitution is the simultaneous
substitution with one more rule. -/
theorem replace_scan (done : List (Text × Text)) (k : Char) (ks v : Text) (n : Nat) :
    ∀ (t : Text), t.length ≤ n → ∀ (f g : Nat), t.length ≤ f → t.length ≤ g →
    Unambiguous (done ++ [(k :: ks, v)]) t →
    replaceNE k ks v (scan done f t) = scan (done ++ [(k :: ks, v)]) g t := by
  induction n with
  | zero =>
    intro t ht f g _ _ _
    have : t = [] := List.length_eq_zero_iff.1 (by omega)
    subst this
    cases f <;> cases g <;> simp [scan, replaceNE]
  | succ n ih =>
    intro t ht f g hf hg hu
    cases t with
    | nil => cases f <;> cases g <;> simp [scan, replaceNE]
    | cons c cs =>
      have hmemk : (k :: ks, v) ∈ done ++ [(k :: ks, v)] := by simp
      have hkd : ∀ r ∈ done, r.1 ≠ [] := fun r hr => hu.keyNe r.1 r.2 (by simp [hr])
      have hka : ∀ r ∈ done ++ [(k :: ks, v)], r.1 ≠ [] := fun r hr => hu.keyNe r.1 r.2 hr
      cases f with
      | zero => simp at hf
      | succ f =>
      cases g with
      | zero => simp at hg
      | succ g =>
      cases hfd : done.find? (fun r => r.1.isPrefixOf (c :: cs)) with
      | some r =>
        have hr : r ∈ done := List.mem_of_find?_eq_some hfd
        have hrl : 0 < r.1.length := List.length_pos_iff.2 (hkd r hr)
        have e1 : scan done (f+1) (c :: cs) = r.2 ++ scan done f ((c :: cs).drop r.1.length) := by
          rw [scan, hfd]
        have e2 : scan (done ++ [(k :: ks, v)]) (g+1) (c :: cs)
            = r.2 ++ scan (done ++ [(k :: ks, v)]) g ((c :: cs).drop r.1.length) := by
          rw [scan, List.find?_append, hfd]; rfl
        rw [e1, e2, replaceNE_copy]
        · congr 1
          apply ih
          · simp at ht ⊢; omega
          · simp at hf ⊢; omega
          · simp at hg ⊢; omega
          · exact hu.drop _
        · intro i hi hoc
          refine hu.noVal (k :: ks) v r.1 r.2 hmemk (by simp [hr]) ⟨_, i, 0, hoc, ?_, ?_, ?_⟩
          · simp [OccursAt]
          · omega
          · simp
      | none =>
        by_cases hp : (k :: ks) <+: (c :: cs)
        · obtain ⟨rest, hrest⟩ := hp
          have hcopy : scan done (f+1) (c :: cs) = (k :: ks) ++ scan done (f + 1 - (k :: ks).length) rest := by
            rw [← hrest]
            apply scan_copy
            · rw [hrest]; exact hf
            · intro i hi r hr hoc
              rw [hrest] at hoc
              have hne : r.1 ≠ k :: ks := by
                intro e
                have hnd := hu.nodup
                rw [List.map_append, List.nodup_append] at hnd
                exact hnd.2.2 r.1 (List.mem_map.2 ⟨r, hr, rfl⟩) (k :: ks) (by simp) e
              have := hu.noKey r.1 r.2 (k :: ks) v i 0 (by simp [hr]) hmemk hne hoc
                (by simp only [OccursAt, List.drop_zero]; exact ⟨rest, hrest⟩)
              have hrl : 0 < r.1.length := List.length_pos_iff.2 (hkd r hr)
              omega
          have e2 : scan (done ++ [(k :: ks, v)]) (g+1) (c :: cs)
            = v ++ scan (done ++ [(k :: ks, v)]) g rest := by
            rw [scan, List.find?_append, hfd]
            have : (k :: ks).isPrefixOf (c :: cs) = true := by
              rw [List.isPrefixOf_iff_prefix]; exact ⟨rest, hrest⟩
            simp only [Option.none_or, List.find?_cons, this]
            congr 2
            rw [← hrest]; simp
          rw [hcopy, replaceNE_hit, e2]
          congr 1
          have hlen : (k :: ks).length + rest.length = (c :: cs).length := by
            rw [← hrest]; simp; omega
          have hrest2 : rest = (c :: cs).drop (k :: ks).length := by rw [← hrest]; simp
          simp only [List.length_cons] at hlen ht hf hg
          apply ih
          · omega
          · simp only [List.length_cons]; omega
          · omega
          · rw [hrest2]; exact hu.drop _
        · have e1 : scan done (f+1) (c :: cs) = c :: scan done f cs := by
            rw [scan, hfd]
          have e2 : scan (done ++ [(k :: ks, v)]) (g+1) (c :: cs)
              = c :: scan (done ++ [(k :: ks, v)]) g cs := by
            rw [scan, List.find?_append, hfd]
            have : (k :: ks).isPrefixOf (c :: cs) = false := by
              rw [Bool.eq_false_iff, ne_eq, List.isPrefixOf_iff_prefix]; exact hp
            simp only [Option.none_or, List.find?_cons, this, List.find?_nil]
          have hnp : ¬ (k :: ks) <+: (c :: scan done f cs) := by
            intro hpre
            rw [← e1] at hpre
            obtain ⟨pre, h1, _, h3⟩ := scan_shape done hkd (c :: cs) (f+1) hf
            rcases h3 with ⟨a1, a2⟩ | ⟨r, hr, out, a⟩
            · rw [a2, a1] at hpre; exact hp hpre
            · rw [a] at hpre
              by_cases hl : (k :: ks).length ≤ pre.length
              · exact hp ((prefix_of_prefix_append hpre hl).trans h1)
              · refine hu.noVal (k :: ks) v r.1 r.2 hmemk (by simp [hr])
                  ⟨pre ++ (r.2 ++ out), 0, pre.length, ?_, ?_, ?_, ?_⟩
                · simpa [OccursAt] using hpre
                · simp [OccursAt]
                · have : 0 < r.2.length := List.length_pos_iff.2 (hu.valNe r.1 r.2 (by simp [hr]))
                  omega
                · omega
          rw [e1, e2, replaceNE]
          have : (k :: ks).isPrefixOf (c :: scan done f cs) = false := by
            rw [Bool.eq_false_iff, ne_eq, List.isPrefixOf_iff_prefix]; exact hnp
          rw [this]
          simp only [Bool.false_eq_true, if_false, List.cons.injEq, true_and]
          apply ih cs (by simpa using ht) f g (by simpa using hf) (by simpa using hg)
          have := hu.drop 1
          simpa using this

/-- Scanning is the specification relation. -/
theorem scan_subst (rules : List (Text × Text)) (hk : ∀ r ∈ rules, r.1 ≠ []) (f : Nat) (t : Text)
    (hf : t.length ≤ f) : Subst rules t (scan rules f t) := by
  induction f generalizing t with
  | zero =>
    have : t = [] := List.length_eq_zero_iff.1 (by omega)
    subst this; exact .nil
  | succ f ih =>
    cases t with
    | nil => exact .nil
    | cons c cs =>
      rw [scan]
      cases hfd : rules.find? (fun r => r.1.isPrefixOf (c :: cs)) with
      | none =>
        refine .miss ?_ (ih cs (by simpa using hf))
        intro k v hm hp
        exact List.find?_eq_none.1 hfd (k, v) hm (by simpa [List.isPrefixOf_iff_prefix] using hp)
      | some r =>
        have hr := List.mem_of_find?_eq_some hfd
        have hp := List.find?_some hfd
        simp only [List.isPrefixOf_iff_prefix] at hp
        obtain ⟨rest, hrest⟩ := hp
        have hrl : 0 < r.1.length := List.length_pos_iff.2 (hk r hr)
        simp only
        have hd : (c :: cs).drop r.1.length = rest := by rw [← hrest]; simp
        rw [hd, ← hrest]
        have hlen : r.1.length + rest.length = (c :: cs).length := by rw [← hrest]; simp
        simp only [List.length_cons] at hlen hf
        exact .hit (k := r.1) (v := r.2) hr (ih rest (by omega))

theorem scan_nil (f : Nat) (t : Text) (hf : t.length ≤ f) : scan [] f t = t := by
  induction f generalizing t with
  | zero =>
    have : t = [] := List.length_eq_zero_iff.1 (by omega)
    subst this; rfl
  | succ f ih =>
    cases t with
    | nil => rfl
    | cons c cs => simp [scan, ih cs (by simpa using hf)]

/-- A key that does not stand in the text contributes nothing. -/
theorem scan_absent (done : List (Text × Text)) (r : Text × Text) (f : Nat) (t : Text)
    (h : ∀ i, ¬ OccursAt r.1 t i) (hk : ∀ q ∈ done, q.1 ≠ []) (hf : t.length ≤ f) :
    scan (done ++ [r]) f t = scan done f t := by
  induction f generalizing t with
  | zero => simp [scan]
  | succ f ih =>
    cases t with
    | nil => simp [scan]
    | cons c cs =>
      have h0 : r.1.isPrefixOf (c :: cs) = false := by
        rw [Bool.eq_false_iff, ne_eq, List.isPrefixOf_iff_prefix]
        intro hp; exact h 0 (by simpa [OccursAt] using hp)
      rw [scan, scan, List.find?_append]
      cases hfd : done.find? (fun r => r.1.isPrefixOf (c :: cs)) with
      | none =>
        simp only [Option.none_or, List.find?_cons, h0, List.find?_nil]
        rw [ih cs (fun i hi => h (i+1) (by simpa [OccursAt] using hi)) (by simpa using hf)]
      | some q =>
        simp only [Option.some_or]
        have hq := hk q (List.mem_of_find?_eq_some hfd)
        have : 0 < q.1.length := List.length_pos_iff.2 hq
        rw [ih _ (fun i hi => h (q.1.length + i) (by
          simpa [OccursAt, List.drop_drop] using hi)) (by simp at hf ⊢; omega)]

/-- The dict as text rules after the conversion of the values. -/
def textRules (dct : List (Text × TVal)) : List (Text × Text) := dct.map (fun e => (e.1, frepr e.2))

theorem templateLoop_spec (txt : Text) (conv : Bool) (dct : List (Text × TVal))
    (hconv : conv = true ∨ ∀ e ∈ dct, ∃ s, e.2 = .str s)
    (done : List (Text × Text)) (hu : Unambiguous (done ++ textRules dct) txt) :
    templateLoop txt conv (scan done txt.length txt) dct
      = some (scan (done ++ textRules dct) txt.length txt) := by
  induction dct generalizing done with
  | nil => simp [templateLoop, textRules]
  | cons e dct ih =>
    obtain ⟨key, val⟩ := e
    have happ : done ++ textRules ((key, val) :: dct) = (done ++ [(key, frepr val)]) ++ textRules dct := by
      simp [textRules]
    rw [happ] at hu ⊢
    have hu1 : Unambiguous (done ++ [(key, frepr val)]) txt := by
      have sub : ∀ k v, (k, v) ∈ done ++ [(key, frepr val)] →
          (k, v) ∈ (done ++ [(key, frepr val)]) ++ textRules dct :=
        fun k v h => List.mem_append_left _ h
      refine ⟨fun k v h => hu.keyNe k v (sub _ _ h), fun k v h => hu.valNe k v (sub _ _ h), ?_,
        fun k v k' v' h h' => hu.noVal k v k' v' (sub _ _ h) (sub _ _ h'),
        fun k v k' v' i j h h' => hu.noKey k v k' v' i j (sub _ _ h) (sub _ _ h')⟩
      have := hu.nodup
      rw [List.map_append, List.nodup_append] at this
      exact this.1
    have hconv' : conv = true ∨ ∀ e ∈ dct, ∃ s, e.2 = .str s := by
      rcases hconv with h | h
      · exact .inl h
      · exact .inr fun e he => h e (by simp [he])
    have hkd : ∀ q ∈ done, q.1 ≠ [] := fun q hq => hu1.keyNe q.1 q.2 (by simp [hq])
    unfold templateLoop
    by_cases hin : isInfix key txt = true
    · rw [if_pos hin]
      have hrep : pyReplace (scan done txt.length txt) key (frepr val)
          = scan (done ++ [(key, frepr val)]) txt.length txt := by
        cases key with
        | nil => exact absurd rfl (hu1.keyNe [] (frepr val) (by simp))
        | cons k ks =>
          exact replace_scan done k ks (frepr val) txt.length txt (le_refl _) _ _ (le_refl _) (le_refl _) hu1
      rcases hconv with hc | hc
      · rw [if_pos hc, hrep]; exact ih hconv' _ hu
      · obtain ⟨s, hs⟩ := hc (key, val) (by simp)
        simp only at hs
        subst hs
        simp only [frepr] at hrep hu ⊢
        split
        · rw [hrep]; exact ih hconv' _ hu
        · rw [hrep]; exact ih hconv' _ hu
    · rw [if_neg hin]
      have hab : ∀ i, ¬ OccursAt key txt i := fun i hi => hin ((isInfix_iff key txt).2 ⟨i, hi⟩)
      rw [← scan_absent done (key, frepr val) txt.length txt hab hkd (le_refl _)]
      exact ih hconv' _ hu

/-- **C04.** For every text and every dict that is unambiguous for it (with values that are
strings, or converted with `conv=True`), `template_replace(txt, dct, mode='txt')` succeeds
and its result is the simultaneous left-to-right substitution. `Subst` does not refer to the
order of the dict. -/
theorem C04_template_replace_partial (txt : Text) (dct : List (Text × TVal)) (conv : Bool)
    (hconv : conv = true ∨ ∀ e ∈ dct, ∃ s, e.2 = .str s)
    (hu : Unambiguous (textRules dct) txt) :
    ∃ out, templateReplace txt dct conv = some out ∧ Subst (textRules dct) txt out := by
  have h := templateLoop_spec txt conv dct hconv [] (by simpa using hu)
  rw [scan_nil _ _ (le_refl _)] at h
  refine ⟨_, h, ?_⟩
  simpa using scan_subst (textRules dct) (fun r hr => hu.keyNe r.1 r.2 hr) txt.length txt (le_refl _)

/-- For an unambiguous rule set the specification has only one solution. -/
theorem subst_unique {rules : List (Text × Text)} {txt o1 o2 : Text} (hu : Unambiguous rules txt)
    (h1 : Subst rules txt o1) (h2 : Subst rules txt o2) : o1 = o2 := by
  induction h1 generalizing o2 with
  | nil =>
    generalize ht : ([] : Text) = t at h2
    cases h2 with
    | nil => rfl
    | @hit k v rest out hm _ =>
      have := hu.keyNe k v hm
      simp at ht; exact absurd ht.1 this
    | miss _ _ => simp at ht
  | @hit k v rest out hm hs ih =>
    have hk := hu.keyNe k v hm
    have hu' : Unambiguous rules rest := by
      have := hu.drop k.length
      simpa using this
    generalize ht : k ++ rest = t at h2
    cases h2 with
    | nil => simp at ht; exact absurd ht.1 hk
    | @hit k2 v2 rest2 out2 hm2 hs2 =>
      by_cases hkk : k = k2
      · subst hkk
        have hr : rest = rest2 := List.append_cancel_left ht
        subst hr
        have hv : v = v2 := by
          have hinj := List.inj_on_of_nodup_map hu.nodup hm hm2 rfl
          simpa using hinj
        subst hv
        rw [ih hu' hs2]
      · have := hu.noKey k v k2 v2 0 0 hm hm2 hkk (by simp [OccursAt]) (by
          rw [ht]; simp [OccursAt])
        have h1 : 0 < k.length := List.length_pos_iff.2 hk
        have h2 : 0 < k2.length := List.length_pos_iff.2 (hu.keyNe k2 v2 hm2)
        omega
    | @miss c cs out2 hn _ =>
      exact absurd ⟨rest, ht⟩ (hn k v hm)
  | @miss c cs out hn hs ih =>
    have hu' : Unambiguous rules cs := by
      have := hu.drop 1
      simpa using this
    generalize ht : c :: cs = t at h2
    cases h2 with
    | nil => simp at ht
    | @hit k v rest out2 hm _ => exact absurd ⟨rest, ht.symm⟩ (hn k v hm)
    | @miss c2 cs2 out2 _ hs2 =>
      simp only [List.cons.injEq] at ht
      obtain ⟨rfl, rfl⟩ := ht
      rw [ih hu' hs2]

/-- Permuted rules are unambiguous for the same texts. -/
theorem Spec.Unambiguous.perm {r1 r2 : List (Text × Text)} {txt : Text} (hp : r1.Perm r2)
    (h : Unambiguous r1 txt) : Unambiguous r2 txt :=
  ⟨fun k v hm => h.keyNe k v (hp.mem_iff.2 hm), fun k v hm => h.valNe k v (hp.mem_iff.2 hm),
   (hp.map Prod.fst).nodup_iff.1 h.nodup,
   fun k v k' v' hm hm' => h.noVal k v k' v' (hp.mem_iff.2 hm) (hp.mem_iff.2 hm'),
   fun k v k' v' i j hm hm' => h.noKey k v k' v' i j (hp.mem_iff.2 hm) (hp.mem_iff.2 hm')⟩

theorem Spec.Subst.perm {r1 r2 : List (Text × Text)} {txt out : Text} (hp : r1.Perm r2)
    (h : Subst r1 txt out) : Subst r2 txt out := by
  induction h with
  | nil => exact .nil
  | hit hm _ ih => exact .hit (hp.mem_iff.1 hm) ih
  | miss hn _ ih => exact .miss (fun k v hm => hn k v (hp.mem_iff.2 hm)) ih

/-- **C04** (order). The iteration order of the dict does not matter. -/
theorem C04_order_independent_partial (txt : Text) (d1 d2 : List (Text × TVal)) (conv : Bool)
    (hp : d1.Perm d2) (hconv : conv = true ∨ ∀ e ∈ d1, ∃ s, e.2 = .str s)
    (hu : Unambiguous (textRules d1) txt) :
    templateReplace txt d1 conv = templateReplace txt d2 conv := by
  have hp' : (textRules d1).Perm (textRules d2) := hp.map _
  have hu2 := hu.perm hp'
  have hconv2 : conv = true ∨ ∀ e ∈ d2, ∃ s, e.2 = .str s := by
    rcases hconv with h | h
    · exact .inl h
    · exact .inr fun e he => h e (hp.mem_iff.2 he)
  obtain ⟨o1, e1, s1⟩ := C04_template_replace_partial txt d1 conv hconv hu
  obtain ⟨o2, e2, s2⟩ := C04_template_replace_partial txt d2 conv hconv2 hu2
  rw [e1, e2, subst_unique hu2 (s1.perm hp') s2]

/-- **C04** (absent keys). Whatever the dict, keys which do not stand in the text change
nothing and raise nothing. -/
theorem C04_absent_key (txt : Text) (dct : List (Text × TVal)) (conv : Bool)
    (h : ∀ e ∈ dct, ∀ i, ¬ OccursAt e.1 txt i) : templateReplace txt dct conv = some txt := by
  unfold templateReplace
  have : ∀ new, templateLoop txt conv new dct = some new := by
    intro new
    induction dct with
    | nil => rfl
    | cons e dct ih =>
      obtain ⟨k, v⟩ := e
      unfold templateLoop
      rw [if_neg]
      · exact ih (fun e he => h e (by simp [he]))
      · intro hin
        obtain ⟨i, hi⟩ := (isInfix_iff k txt).1 hin
        exact h (k, v) (by simp) i hi
  exact this txt

/-- **C04** (type errors). With `conv=False` a non-string value raises exactly when its key
stands in the text (shown for a dict with one entry). -/
theorem C04_nonstring_raises (txt key : Text) (val : TVal) (hval : ∀ s, val ≠ .str s) :
    (templateReplace txt [(key, val)] false = none) ↔ ∃ i, OccursAt key txt i := by
  rw [← isInfix_iff]
  unfold templateReplace templateLoop
  by_cases h : isInfix key txt = true
  · cases val with
    | str s => exact absurd rfl (hval s)
    | flt e => simp [h]
    | other r => simp [h]
  · simp [h, templateLoop]

/-- The unrestricted claim is false: with a value that contains another key the result
depends on the order of the dict. -/
theorem C04_order_counterexample :
    templateReplace "A B".toList [("A".toList, .str "B".toList), ("B".toList, .str "x".toList)] false
      = some "x x".toList ∧
    templateReplace "A B".toList [("B".toList, .str "x".toList), ("A".toList, .str "B".toList)] false
      = some "B x".toList := by
  constructor <;> simp [templateReplace, templateLoop, isInfix, pyReplace, replaceNE]

/-- Likewise if one key is a prefix of another. -/
theorem C04_prefix_counterexample :
    templateReplace "XA XAB".toList [("XA".toList, .str "1".toList), ("XAB".toList, .str "2".toList)] false
      = some "1 1B".toList ∧
    templateReplace "XA XAB".toList [("XAB".toList, .str "2".toList), ("XA".toList, .str "1".toList)] false
      = some "1 2".toList := by
  constructor <;> simp [templateReplace, templateLoop, isInfix, pyReplace, replaceNE]

/-- Texts without common characters cannot overlap. -/
theorem not_canOverlap_of_disjoint {a b : Text} (ha0 : a ≠ []) (hb0 : b ≠ [])
    (h : ∀ c ∈ a, c ∉ b) : ¬ CanOverlap a b := by
  rintro ⟨w, i, j, ⟨ra, ha⟩, ⟨rb, hb⟩, h1, h2⟩
  have la : 0 < a.length := List.length_pos_iff.2 ha0
  have lb : 0 < b.length := List.length_pos_iff.2 hb0
  have ga : ∀ p, p < a.length → w[i + p]? = a[p]? := by
    intro p hp
    have := congrArg (fun l => l[p]?) ha
    simp only [List.getElem?_drop] at this
    rw [← this, List.getElem?_append_left hp]
  have gb : ∀ p, p < b.length → w[j + p]? = b[p]? := by
    intro p hp
    have := congrArg (fun l => l[p]?) hb
    simp only [List.getElem?_drop] at this
    rw [← this, List.getElem?_append_left hp]
  rcases le_total i j with hij | hij
  · have e1 := ga (j - i) (by omega)
    have e2 := gb 0 (by omega)
    rw [show i + (j - i) = j + 0 by omega, e2] at e1
    have hb0' : b[0]? = some b[0] := List.getElem?_eq_getElem lb
    rw [hb0', eq_comm, List.getElem?_eq_some_iff] at e1
    obtain ⟨hl, e1⟩ := e1
    exact h _ (List.getElem_mem hl) (e1 ▸ List.getElem_mem _)
  · have e1 := gb (i - j) (by omega)
    have e2 := ga 0 (by omega)
    rw [show j + (i - j) = i + 0 by omega, e2] at e1
    have ha0' : a[0]? = some a[0] := List.getElem?_eq_getElem la
    rw [ha0', eq_comm, List.getElem?_eq_some_iff] at e1
    obtain ⟨hl, e1⟩ := e1
    exact h _ (List.getElem_mem la) (e1 ▸ List.getElem_mem hl)

/-- Non-vacuity: the usual kind of template. -/
example : Unambiguous [("XA".toList, "1".toList), ("XB".toList, "2.5".toList)] "e=XB; f=XA XB".toList where
  keyNe := by rintro k v h; simp at h; rcases h with ⟨rfl, rfl⟩ | ⟨rfl, rfl⟩ <;> simp
  valNe := by rintro k v h; simp at h; rcases h with ⟨rfl, rfl⟩ | ⟨rfl, rfl⟩ <;> simp
  nodup := by decide
  noVal := by
    intro k v k' v' h h'
    simp only [List.mem_cons, Prod.mk.injEq, List.not_mem_nil, or_false] at h h'
    rcases h with ⟨rfl, rfl⟩ | ⟨rfl, rfl⟩ <;> rcases h' with ⟨rfl, rfl⟩ | ⟨rfl, rfl⟩ <;>
      exact not_canOverlap_of_disjoint (by simp) (by simp) (by decide)
  noKey := by
    have occ : ∀ (c : Char) i, OccursAt ['X', c] "e=XB; f=XA XB".toList i → c = 'A' ∧ i = 8 ∨ c = 'B' ∧ (i = 2 ∨ i = 11) := by
      intro c i h
      have hlt : i < 13 := by
        by_contra hge
        have : "e=XB; f=XA XB".toList.drop i = [] := List.drop_eq_nil_of_le (by simp; omega)
        rw [OccursAt, this] at h
        simp at h
      interval_cases i <;> simp_all [OccursAt]
    intro k v k' v' i j h h' hne hi hj
    simp only [List.mem_cons, Prod.mk.injEq, List.not_mem_nil, or_false] at h h'
    rcases h with ⟨rfl, rfl⟩ | ⟨rfl, rfl⟩ <;> rcases h' with ⟨rfl, rfl⟩ | ⟨rfl, rfl⟩
    · exact absurd rfl hne
    · have a : i = 8 := by simpa using occ 'A' i hi
      have b : j = 2 ∨ j = 11 := by simpa using occ 'B' j hj
      show i + 2 ≤ j ∨ j + 2 ≤ i; omega
    · have a : i = 2 ∨ i = 11 := by simpa using occ 'B' i hi
      have b : j = 8 := by simpa using occ 'A' j hj
      show i + 2 ≤ j ∨ j + 2 ≤ i; omega
    · exact absurd rfl hne

end template

/-! ## C08 converters -/

/-- **C08** (what works): booleans and integers are converted to their truth value. -/
theorem C08_tobool_partial (b : Bool) (i : Int) :
    tobool (.bool b) = .ok b ∧ (tobool (.int i) = .ok true ↔ i ≠ 0) ∧
    (tobool (.int i) = .ok false ↔ i = 0) := by
  refine ⟨rfl, ?_, ?_⟩ <;> by_cases h : i = 0 <;> simp [tobool, h]

/-- **C08** is false of the code: every text input, the documented ones included, is
rejected by all three converters, and so is every `bytes` input. -/
theorem C08_strings_rejected (s : Text) (R : Type) :
    tobool (.str s) = .error .exception ∧ tobool (.bytes s) = .error .exception ∧
    toslice R (.str s) = .error .assertionError ∧ toslice R (.bytes s) = .error .typeError ∧
    ffloat R (.str s) = .error .assertionError ∧ ffloat R (.bytes s) = .error .typeError :=
  ⟨rfl, rfl, rfl, rfl, rfl, rfl⟩

/-- **C05** White space, here and in all parsers, is exactly Python's. -/
theorem C05_white_space (c : Char) : isPySpace c = true ↔ c.toNat ∈ Spec.pySpaceCodes := by
  simp only [isPySpace, Spec.pySpaceCodes, Bool.or_eq_true, Bool.and_eq_true, decide_eq_true_eq, beq_iff_eq, List.mem_cons, List.not_mem_nil, or_false]
  omega

end Pwtools
