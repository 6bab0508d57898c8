import Verif.Spec.ArrHeader
import Verif.Props.Common
/-!
# C117: the header of array files
-/
namespace Pwtools.Hdr
open Spec

theorem lstrip_eq (t : Text) (h : ∀ c ∈ t.head?, isPySpace c = false) : lstrip t = t := by
  cases t with
  | nil => rfl
  | cons c t =>
    unfold lstrip
    rw [List.dropWhile_cons_of_neg]
    rw [h c rfl]; decide

theorem rstrip_eq (t : Text) (h : ∀ c ∈ t.getLast?, isPySpace c = false) : rstrip t = t := by
  have := lstrip_eq t.reverse (by rw [List.head?_reverse]; exact h)
  unfold lstrip at this
  unfold rstrip
  rw [this, List.reverse_reverse]

theorem strip_eq (t : Text) (h : Trimmed t) : strip t = t := by
  unfold strip
  rw [lstrip_eq t h.1, rstrip_eq t h.2]

theorem rstrip_blank (t : Text) (c : Char) (hc : isPySpace c = true) : rstrip (t ++ [c]) = rstrip t := by
  unfold rstrip
  rw [List.reverse_append, List.reverse_singleton, List.singleton_append, List.dropWhile_cons_of_pos hc]

theorem rstrip_cons (c : Char) (t : Text) (h : rstrip t ≠ []) : rstrip (c :: t) = c :: rstrip t := by
  unfold rstrip at *
  rw [List.reverse_cons, List.dropWhile_append]
  have : t.reverse.dropWhile isPySpace ≠ [] := fun e => h (by rw [e]; rfl)
  cases hd : t.reverse.dropWhile isPySpace with
  | nil => exact absurd hd this
  | cons a b =>
    simp

theorem rstrip_cons_nil (c : Char) (t : Text) (h : rstrip t = []) (hc : isPySpace c = false) : rstrip (c :: t) = [c] := by
  unfold rstrip at *
  rw [List.reverse_cons, List.dropWhile_append]
  have : t.reverse.dropWhile isPySpace = [] := by
    have := congrArg List.reverse h
    simpa using this
  rw [this]
  simp [List.dropWhile, hc]

theorem mem_rstrip (t : Text) (c : Char) (h : c ∈ rstrip t) : c ∈ t := by
  unfold rstrip at h
  rw [List.mem_reverse] at h
  exact List.mem_reverse.1 ((List.dropWhile_suffix _).subset h)

theorem strip_space (t : Text) : strip (' ' :: t) = strip t := by
  unfold strip lstrip
  rw [List.dropWhile_cons_of_pos (by decide)]

/-- What is left of a line of the header. -/
theorem headLine_eq (com : Char) (hc : isPySpace com = false) (line : Text) (hl : com ∉ line) (h0 : ∀ c ∈ line.head?, isPySpace c = false) :
    headLine com (com :: ' ' :: line) = some (strip line) := by
  unfold headLine
  have e : strip (com :: ' ' :: line) = rstrip (com :: ' ' :: line) := by
    unfold strip
    rw [lstrip_eq _ (by simpa using hc)]
  rw [e]
  have hfil : ∀ t : Text, com ∉ t → t.filter (· ≠ com) = t := by
    intro t ht
    rw [List.filter_eq_self]
    intro c hm
    simp only [ne_eq, decide_not, Bool.not_eq_eq_eq_not, Bool.not_true, decide_eq_false_iff_not]
    rintro rfl
    exact ht hm
  have hsp : com ≠ ' ' := by rintro rfl; revert hc; decide
  by_cases hb : rstrip line = []
  · have h1 : rstrip (' ' :: line) = [] := by
      unfold rstrip at *
      rw [List.reverse_cons, List.dropWhile_append]
      have : line.reverse.dropWhile isPySpace = [] := by simpa using congrArg List.reverse hb
      rw [this]
      decide
    rw [rstrip_cons_nil _ _ h1 hc]
    have h2 : strip line = [] := by
      unfold strip
      rw [lstrip_eq _ h0, hb]
    have h3 : [com].filter (· ≠ com) = [] := by simp
    rw [h2, h3]
    exact if_pos rfl
  · have h1 : rstrip (' ' :: line) = ' ' :: rstrip line := rstrip_cons _ _ hb
    rw [rstrip_cons _ _ (by rw [h1]; simp), h1]
    have h3 : com ∉ rstrip line := fun h => hl (mem_rstrip _ _ h)
    have h4 : (com :: ' ' :: rstrip line).filter (· ≠ com) = ' ' :: rstrip line := by
      rw [List.filter_cons_of_neg (by simp), hfil _ (by simp [h3, hsp])]
    rw [h4, strip_space, List.head?_cons, if_pos rfl]
    congr 1
    unfold strip
    rw [lstrip_eq line h0]
    have h5 : lstrip (rstrip line) = rstrip line := by
      apply lstrip_eq
      intro c hcm
      cases line with
      | nil => simp [rstrip] at hb
      | cons a t =>
        have ha : isPySpace a = false := h0 a rfl
        by_cases ht : rstrip t = []
        · rw [rstrip_cons_nil a t ht ha] at hcm
          simp only [List.head?_cons, Option.mem_def, Option.some.injEq] at hcm
          rw [← hcm]; exact ha
        · rw [rstrip_cons a t ht] at hcm
          simp only [List.head?_cons, Option.mem_def, Option.some.injEq] at hcm
          rw [← hcm]; exact ha
    rw [h5]
    unfold rstrip
    rw [List.reverse_reverse]
    congr 1
    generalize line.reverse = t
    induction t with
    | nil => rfl
    | cons a t ih =>
      by_cases ha : isPySpace a = true
      · rw [List.dropWhile_cons_of_pos ha, ih]
      · rw [List.dropWhile_cons_of_neg ha, List.dropWhile_cons_of_neg ha]

theorem sectName_eq (s : Text) (h : s ≠ []) : sectName ('[' :: s ++ [']']) = some s := by
  simp only [sectName, List.cons_append, List.reverse_append, List.reverse_singleton, List.singleton_append]
  rw [List.dropWhile_cons_of_neg (by simp)]
  simp [h]

/-- The line of an option without blanks at its end. -/
theorem strip_opt (k v : Text) (hk : k ≠ []) (hkt : Trimmed k) (hv : Trimmed v) :
    strip (k ++ " = ".toList ++ v) = if v = [] then k ++ " =".toList else k ++ " = ".toList ++ v := by
  have hh : ∀ r, ∀ c ∈ (k ++ r).head?, isPySpace c = false := by
    intro r c hc
    cases k with
    | nil => exact absurd rfl hk
    | cons a k => exact hkt.1 c hc
  unfold strip
  rw [List.append_assoc, lstrip_eq _ (hh _)]
  by_cases h0 : v = []
  · rw [if_pos h0, h0]
    have e : k ++ (" = ".toList ++ []) = (k ++ " =".toList) ++ [' '] := by
      rw [List.append_assoc]; rfl
    rw [e, rstrip_blank _ _ (by decide), rstrip_eq]
    intro c hc
    have : (k ++ " =".toList).getLast? = some '=' := by
      rw [List.getLast?_append]; rfl
    rw [this] at hc
    simp only [Option.mem_def, Option.some.injEq] at hc
    rw [← hc]; decide
  · rw [if_neg h0, rstrip_eq]
    intro c hc
    apply hv.2
    rw [← List.append_assoc, List.getLast?_append, Option.mem_def] at hc
    cases hg : v.getLast? with
    | none => exact absurd (List.getLast?_eq_none_iff.1 hg) h0
    | some x => rw [hg] at hc; simpa using hc

theorem optOf_eq (k v : Text) (hk : k ≠ []) (hkt : Trimmed k) (hkc : ∀ c ∈ k, c ≠ '=' ∧ c ≠ ':' ∧ c.toLower = c) (hv : Trimmed v) :
    optOf (if v = [] then k ++ " =".toList else k ++ " = ".toList ++ v) = some (k, v) := by
  have e : ∃ r, (if v = [] then k ++ " =".toList else k ++ " = ".toList ++ v) = (k ++ [' ']) ++ '=' :: r ∧ strip r = v := by
    by_cases h0 : v = []
    · exact ⟨[], by rw [if_pos h0, List.append_assoc]; rfl, by rw [h0]; rfl⟩
    · refine ⟨' ' :: v, by rw [if_neg h0, List.append_assoc, List.append_assoc]; rfl, ?_⟩
      rw [strip_space, strip_eq v hv]
  obtain ⟨r, e1, e2⟩ := e
  rw [e1]
  unfold optOf
  have hall : ∀ c ∈ k ++ [' '], (!(c == '=' || c == ':')) = true := by
    intro c hc
    rw [List.mem_append] at hc
    rcases hc with hc | hc
    · have := hkc c hc
      simp [this.1, this.2.1]
    · simp only [List.mem_singleton] at hc
      rw [hc]; decide
  have htake : ((k ++ [' ']) ++ '=' :: r).takeWhile (fun c => !(c == '=' || c == ':')) = k ++ [' '] := by
    rw [List.takeWhile_append_of_pos hall, List.takeWhile_cons_of_neg (by decide), List.append_nil]
  have hdrop : ((k ++ [' ']) ++ '=' :: r).dropWhile (fun c => !(c == '=' || c == ':')) = '=' :: r := by
    rw [List.dropWhile_append_of_pos hall, List.dropWhile_cons_of_neg (by decide)]
  simp only [htake, hdrop]
  rw [rstrip_blank _ _ (by decide), rstrip_eq k hkt.2]
  have hm : k.map Char.toLower = k := by
    conv => rhs; rw [← List.map_id k]
    apply List.map_congr_left
    intro c hc
    exact (hkc c hc).2.2
  rw [hm, if_neg hk, e2]

theorem readLine_blank (st : Cfg) : readLine st [] = .ok st := rfl

theorem readLine_sec (st : Cfg) (s : Text) (h : s ≠ []) (hn : s ∉ st.map Prod.fst) : readLine st ('[' :: s ++ [']']) = .ok (st ++ [(s, [])]) := by
  rw [List.cons_append, readLine, if_neg (by decide), ← List.cons_append, sectName_eq s h]
  exact if_neg hn

theorem readLine_opt (st : Cfg) (s k v : Text) (opts : List (Text × Text)) (hk : k ≠ []) (hkt : Trimmed k) (hkc : ∀ c ∈ k, c ≠ '=' ∧ c ≠ ':' ∧ c.toLower = c)
    (hh : ∀ c ∈ k.head?, c ≠ '[' ∧ c ≠ ';' ∧ c ≠ '#') (hv : Trimmed v) (hn : k ∉ opts.map Prod.fst) :
    readLine (st ++ [(s, opts)]) (if v = [] then k ++ " =".toList else k ++ " = ".toList ++ v) = .ok (st ++ [(s, opts ++ [(k, v)])]) := by
  have ho := optOf_eq k v hk hkt hkc hv
  obtain ⟨a, r, e, ha⟩ : ∃ a r, (if v = [] then k ++ " =".toList else k ++ " = ".toList ++ v) = a :: r ∧ a ≠ '[' ∧ a ≠ ';' ∧ a ≠ '#' := by
    cases k with
    | nil => exact absurd rfl hk
    | cons a k =>
      by_cases h0 : v = []
      · exact ⟨a, _, by rw [if_pos h0]; rfl, hh a rfl⟩
      · exact ⟨a, _, by rw [if_neg h0]; rfl, hh a rfl⟩
  rw [e] at ho ⊢
  rw [readLine, if_neg (by simp [ha.2.1, ha.2.2])]
  have hs : sectName (a :: r) = none := by
    unfold sectName
    split
    · next h => exact absurd (List.cons.inj h).1 ha.1
    · rfl
  rw [hs]
  simp only [List.getLast?_concat, ho, List.dropLast_concat]
  exact if_neg hn

theorem parse_opts (com : Char) (s : Text) (os : List (Text × Text)) : ∀ (st : Cfg) (opts : List (Text × Text)),
    ((opts ++ os).map Prod.fst).Nodup →
    (∀ o ∈ os, o.1 ≠ [] ∧ Trimmed o.1 ∧ (∀ c ∈ o.1, c ≠ '=' ∧ c ≠ ':' ∧ c.toLower = c) ∧ (∀ c ∈ o.1.head?, c ≠ '[' ∧ c ≠ ';' ∧ c ≠ '#') ∧ com ∉ o.1 ∧
      Trimmed o.2 ∧ com ∉ o.2) →
    (os.map fun o => strip (o.1 ++ " = ".toList ++ o.2)).foldlM readLine (st ++ [(s, opts)]) = .ok (st ++ [(s, opts ++ os)]) := by
  induction os with
  | nil => intro st opts _ _; simp; rfl
  | cons o os ih =>
    intro st opts hnd h
    obtain ⟨h1, h2, h3, h4, -, h6, -⟩ := h o (by simp)
    rw [List.map_cons, List.foldlM_cons, strip_opt _ _ h1 h2 h6, readLine_opt st s o.1 o.2 opts h1 h2 h3 h4 h6]
    · have := ih st (opts ++ [(o.1, o.2)]) (by simpa using hnd) fun o' ho' => h o' (by simp [ho'])
      rw [List.append_assoc, List.singleton_append] at this
      exact this
    · rw [List.map_append, List.map_cons, List.nodup_append] at hnd
      intro hm
      exact hnd.2.2 _ hm _ (by simp) rfl

theorem strip_sec (s : Text) : strip ('[' :: s ++ [']']) = '[' :: s ++ [']'] := by
  apply strip_eq
  constructor
  · intro c hc
    simp only [List.cons_append, List.head?_cons, Option.mem_def, Option.some.injEq] at hc
    rw [← hc]; decide
  · intro c hc
    rw [List.getLast?_concat] at hc
    simp only [Option.mem_def, Option.some.injEq] at hc
    rw [← hc]; decide

theorem foldlM_bind (l1 l2 : List Text) (st st' : Cfg) (h : l1.foldlM readLine st = .ok st') : (l1 ++ l2).foldlM readLine st = l2.foldlM readLine st' := by
  rw [List.foldlM_append, h]; rfl

theorem parse_cfg (com : Char) (cfg : Cfg) : ∀ st : Cfg, GoodCfg com cfg → (∀ s ∈ cfg, s.1 ∉ st.map Prod.fst) →
    ((configLines cfg).map strip).foldlM readLine st = .ok (st ++ cfg) := by
  induction cfg with
  | nil => intro st _ _; simp [configLines]; rfl
  | cons s cfg ih =>
    intro st hg hn
    obtain ⟨hs, -⟩ := hg.sec s (by simp)
    have hnd := hg.secs
    rw [List.map_cons, List.nodup_cons] at hnd
    unfold configLines
    rw [List.flatMap_cons, List.map_append, sectionLines, List.cons_append, List.map_cons, List.map_append, List.map_map]
    have hopts := parse_opts com s.1 s.2 st [] (by simpa using hg.opts s (by simp)) (hg.opt s (by simp))
    have h1 : (strip ('[' :: s.1 ++ [']']) :: (s.2.map (strip ∘ fun o => o.1 ++ " = ".toList ++ o.2) ++ List.map strip [[]])).foldlM readLine st = .ok (st ++ [s]) := by
      rw [List.foldlM_cons, strip_sec, readLine_sec st s.1 hs (hn s (by simp))]
      have e : (s.2.map (strip ∘ fun o => o.1 ++ " = ".toList ++ o.2) ++ List.map strip [[]]).foldlM readLine (st ++ [(s.1, [])]) = .ok (st ++ [s]) := by
        exact (foldlM_bind _ (List.map strip [[]]) _ _ hopts).trans rfl
      exact e
    rw [foldlM_bind _ _ _ _ h1]
    have h2 := ih (st ++ [s]) ⟨hnd.2, fun x hx => hg.sec x (by simp [hx]), fun x hx => hg.opts x (by simp [hx]), fun x hx => hg.opt x (by simp [hx])⟩ (by
      intro x hx
      rw [List.map_append, List.mem_append, not_or]
      refine ⟨hn x (by simp [hx]), ?_⟩
      simp only [List.map_cons, List.map_nil, List.mem_singleton]
      intro e
      exact hnd.1 (by rw [← e]; exact List.mem_map_of_mem hx))
    rw [List.append_assoc, List.singleton_append] at h2
    exact h2

theorem cfg_lines (com : Char) (hcs : isPySpace com = false) (hce : com ≠ '=' ∧ com ≠ '[' ∧ com ≠ ']') (cfg : Cfg) (hg : GoodCfg com cfg) :
    ((configLines cfg).map fun l => com :: ' ' :: l).filterMap (headLine com) = (configLines cfg).map strip := by
  rw [List.filterMap_map]
  have hsp : com ≠ ' ' := by rintro rfl; revert hcs; decide
  have key : ∀ l ∈ configLines cfg, (headLine com ∘ fun l => com :: ' ' :: l) l = some (strip l) := by
    intro l hl
    unfold configLines at hl
    obtain ⟨s, hs, hl⟩ := List.mem_flatMap.1 hl
    unfold sectionLines at hl
    rw [List.cons_append, List.mem_cons, List.mem_append] at hl
    apply headLine_eq com hcs
    · rcases hl with h | h | h
      · rw [h]
        simp only [List.cons_append, List.mem_cons, List.mem_append, List.not_mem_nil, or_false, not_or]
        exact ⟨hce.2.1, (hg.sec s hs).2.1, hce.2.2⟩
      · obtain ⟨o, ho, rfl⟩ := List.mem_map.1 h
        have := hg.opt s hs o ho
        have e : " = ".toList = [' ', '=', ' '] := rfl
        simp only [List.mem_append, not_or, e, List.mem_cons, List.not_mem_nil, or_false]
        exact ⟨⟨this.2.2.2.2.1, hsp, hce.1, hsp⟩, this.2.2.2.2.2.2⟩
      · simp only [List.mem_singleton] at h
        rw [h]; simp
    · rcases hl with h | h | h
      · rw [h]
        intro c hc
        simp only [List.cons_append, List.head?_cons, Option.mem_def, Option.some.injEq] at hc
        rw [← hc]; decide
      · obtain ⟨o, ho, rfl⟩ := List.mem_map.1 h
        have := hg.opt s hs o ho
        intro c hc
        apply this.2.1.1
        revert hc
        have h0 := this.1
        cases h1 : o.1 with
        | nil => exact absurd h1 h0
        | cons a k => simp
      · simp only [List.mem_singleton] at h
        rw [h]; simp
  generalize configLines cfg = L at key
  induction L with
  | nil => rfl
  | cons l L ih =>
    rw [List.filterMap_cons, key l (by simp), List.map_cons, ih fun x hx => key x (by simp [hx])]

/-- **C117** For every config which an ini file can hold, and which is not longer than the allowed number of lines: what is written as a header,
followed by data lines of any kind which do not begin with the comment sign, is read back, the same. A longer one is refused. -/
theorem C117_roundtrip (maxl : Nat) (com : Char) (hcs : isPySpace com = false) (hce : com ≠ '=' ∧ com ≠ '[' ∧ com ≠ ']') (cfg : Cfg) (hg : GoodCfg com cfg)
    (data : List Text) (hd : ∀ l ∈ data, (strip l).head? ≠ some com) :
    (∀ hdr, writeHeader maxl com cfg = .ok hdr → readHeader maxl com (hdr ++ data) = .ok cfg) ∧
    (maxl < (configLines cfg).length → writeHeader maxl com cfg = .error .maxlines) := by
  constructor
  · intro hdr hw
    unfold writeHeader at hw
    by_cases hl : (configLines cfg).length ≤ maxl
    · rw [if_pos hl] at hw
      simp only [Except.ok.injEq] at hw
      rw [← hw]
      unfold readHeader
      rw [if_neg]
      · rw [List.take_append, List.take_of_length_le (by simpa using hl), List.filterMap_append, cfg_lines com hcs hce cfg hg]
        have h2 : ∀ n, (data.take n).filterMap (headLine com) = [] := by
          intro n
          rw [List.filterMap_eq_nil_iff]
          intro l hlm
          unfold headLine
          rw [if_neg (hd l (List.mem_of_mem_take hlm))]
        rw [h2, List.append_nil]
        exact parse_cfg com cfg [] hg (by simp)
      · rw [List.getElem?_append_right (by simpa using hl)]
        intro hc
        rw [Option.any_eq_true_iff_get] at hc
        obtain ⟨h3, h4⟩ := hc
        exact hd _ (List.mem_of_getElem? (Option.some_get h3).symm) (by simpa using h4)
    · rw [if_neg hl] at hw; cases hw
  · intro hl
    unfold writeHeader
    rw [if_neg (by omega)]

theorem trimmed_seq (seq : List Int) : Trimmed (seq2str seq strInt) ∧ '#' ∉ seq2str seq strInt := by
  have hint : ∀ i, strInt i ≠ [] ∧ ∀ c ∈ strInt i, isPySpace c = false ∧ c ≠ '#' := by
    intro i
    cases i with
    | ofNat n =>
      refine ⟨strNat_ne_nil n, fun c hc => ?_⟩
      have := strNat_digits n c hc
      refine ⟨isPySpace_digit c this, ?_⟩
      rintro rfl
      revert this; decide
    | negSucc n =>
      refine ⟨by simp [strInt], fun c hc => ?_⟩
      simp only [strInt, List.mem_cons] at hc
      rcases hc with rfl | hc
      · decide
      · have := strNat_digits _ c hc
        refine ⟨isPySpace_digit c this, ?_⟩
        rintro rfl
        revert this; decide
  unfold seq2str
  induction seq with
  | nil => exact ⟨⟨by simp [joinSep], by simp [joinSep]⟩, by simp [joinSep]⟩
  | cons i seq ih =>
    obtain ⟨hne, hc⟩ := hint i
    cases seq with
    | nil =>
      simp only [List.map_cons, List.map_nil, joinSep]
      exact ⟨⟨fun c h => (hc c (List.mem_of_head? h)).1, fun c h => (hc c (List.mem_of_getLast? h)).1⟩, fun h => (hc _ h).2 rfl⟩
    | cons j seq =>
      simp only [List.map_cons, joinSep] at ih ⊢
      refine ⟨⟨fun c h => ?_, fun c h => ?_⟩, ?_⟩
      · cases hi : strInt i with
        | nil => exact absurd hi hne
        | cons a b =>
          rw [hi] at h
          simp only [List.cons_append, List.head?_cons, Option.mem_def, Option.some.injEq] at h
          exact (hc c (by rw [hi, h]; simp)).1
      · rw [List.getLast?_append] at h
        set rest := joinSep [' '] (strInt j :: List.map strInt seq) with hrest
        have hr : rest ≠ [] := by
          rw [hrest]
          cases seq <;> simp [joinSep, (hint j).1]
        cases hg : rest.getLast? with
        | none => exact absurd (List.getLast?_eq_none_iff.1 hg) hr
        | some x =>
          rw [hg] at h
          exact ih.1.2 c (by rw [hg]; simpa using h)
      · simp only [List.mem_append, not_or]
        refine ⟨⟨fun h => (hc _ h).2 rfl, by decide⟩, ih.2⟩

theorem strInt_seq (i : Int) : strInt i = seq2str [i] strInt := rfl

/-- **C117** (what `writetxt` and `readtxt` do) For every shape and axis, and every data: they are read back from the header. -/
theorem C117_shape_axis (shape : List Int) (axis : Int) (data : List Text) (hd : ∀ l ∈ data, (strip l).head? ≠ some '#') (hdr : List Text)
    (hw : writeHeader 20 '#' (arrayCfg shape axis) = .ok hdr) : readShapeAxis (hdr ++ data) = .ok (shape, axis) := by
  have hgood : GoodCfg '#' (arrayCfg shape axis) := by
    have hs := trimmed_seq shape
    have ha := trimmed_seq [axis]
    rw [← strInt_seq] at ha
    constructor
    · simp [arrayCfg]
    · intro s h
      simp only [arrayCfg, List.mem_singleton] at h
      rw [h]; exact (by decide : "array".toList ≠ [] ∧ '#' ∉ "array".toList ∧ ']' ∉ "array".toList)
    · intro s h
      simp only [arrayCfg, List.mem_singleton] at h
      rw [h]; exact (by decide : ["shape".toList, "axis".toList].Nodup)
    · intro s h o ho
      simp only [arrayCfg, List.mem_singleton] at h
      rw [h] at ho
      simp only [List.mem_cons, List.not_mem_nil, or_false] at ho
      rcases ho with ho | ho
      · rw [ho]
        exact ⟨(by decide : "shape".toList ≠ []), (⟨by decide, by decide⟩ : Trimmed "shape".toList), (by decide : ∀ c ∈ "shape".toList, c ≠ '=' ∧ c ≠ ':' ∧ c.toLower = c),
          (by decide : ∀ c ∈ "shape".toList.head?, c ≠ '[' ∧ c ≠ ';' ∧ c ≠ '#'), (by decide : '#' ∉ "shape".toList), hs⟩
      · rw [ho]
        exact ⟨(by decide : "axis".toList ≠ []), (⟨by decide, by decide⟩ : Trimmed "axis".toList), (by decide : ∀ c ∈ "axis".toList, c ≠ '=' ∧ c ≠ ':' ∧ c.toLower = c),
          (by decide : ∀ c ∈ "axis".toList.head?, c ≠ '[' ∧ c ≠ ';' ∧ c ≠ '#'), (by decide : '#' ∉ "axis".toList), ha⟩
  have h := (C117_roundtrip 20 '#' (by decide) (by decide) _ hgood data hd).1 hdr hw
  unfold readShapeAxis
  rw [h]
  have h1 : getOpt (arrayCfg shape axis) "array".toList "shape".toList = .ok (seq2str shape strInt) := rfl
  have h2 : getOpt (arrayCfg shape axis) "array".toList "axis".toList = .ok (strInt axis) := rfl
  simp only [h1, h2]
  rw [C05_roundtrip_int shape]
  simp only
  have h3 : Trimmed (strInt axis) := by rw [strInt_seq]; exact (trimmed_seq [axis]).1
  rw [strip_eq _ h3, parseInt_strInt]

/-- **C117** (a header which is longer than what is read is noticed.) -/
theorem C117_long (maxl : Nat) (com : Char) (lines : List Text) (l : Text) (h : lines[maxl]? = some l) (hl : (strip l).head? = some com) :
    readHeader maxl com lines = .error .maxlines := by
  unfold readHeader
  rw [h, if_pos (by simp [hl])]

/-- **C117** is false for values with the comment sign: they are written and lose it. -/
theorem C117_counterexample : ((writeHeader 20 '#' [("a".toList, [("k".toList, "1#2".toList)])]).toOption.bind fun h => (readHeader 20 '#' h).toOption) =
    some [("a".toList, [("k".toList, "12".toList)])] := by
  decide +kernel

/-- Non-vacuity. -/
example : writeHeader 20 '#' (arrayCfg [3, 4, 5] (-1)) = .ok ["# [array]".toList, "# shape = 3 4 5".toList, "# axis = -1".toList, "# ".toList] := by
  rfl

end Pwtools.Hdr
