import Verif.Spec.Shell
import Mathlib.Tactic.Tauto
import Mathlib.Tactic.SplitIfs
/-!
# C180: names of files and directories in shell commands
-/
namespace Pwtools.Sh
open Pwtools.Spec

theorem mem_shell (c : Char) : c ∈ shellChars ↔ c = '\'' ∨ c = '"' ∨ c = '\\' ∨ isBlank c = true ∨ isOp c = true ∨ isActive false c = true := by
  have : shellChars = [' ', '\t', '\n', ';', '|', '&', '<', '>', '(', ')', '\'', '"', '\\', '$', '`', '*', '?', '['] := by decide
  rw [this]
  simp only [List.mem_cons, List.not_mem_nil, or_false, isBlank, isOp, isActive, Bool.or_eq_true, beq_iff_eq, Bool.false_and, Bool.false_eq_true]
  tauto

theorem lex_blank (pre s : List Char) (m : Mode) (acc : Option Word) (ts : List Tok) (h : lex m acc pre = some ts) (c : Char)
    (hc : isBlank c = true) : lex m acc (pre ++ c :: s) = (lex .plain none s).map (ts ++ ·) := by
  have h1 : c ≠ '\'' ∧ c ≠ '"' ∧ c ≠ '\\' := by
    unfold isBlank at hc
    simp only [Bool.or_eq_true, beq_iff_eq] at hc
    rcases hc with rfl | rfl <;> decide
  induction pre generalizing m acc ts with
  | nil =>
    cases m <;> simp [lex] at h
    subst h
    simp [lex, h1, hc]
  | cons b pre ih =>
    rw [List.cons_append]
    generalize lex .plain none s = L at ih ⊢
    unfold lex at h ⊢
    cases m <;> dsimp only at h ⊢ <;> split_ifs at h ⊢ <;> first
      | exact ih _ _ _ h
      | (rw [Option.map_eq_some_iff] at h
         obtain ⟨us, h2, rfl⟩ := h
         rw [ih _ _ _ h2, Option.map_map]
         congr 1
         funext x
         simp)

theorem lex_op (pre s : List Char) (m : Mode) (acc : Option Word) (ts : List Tok) (h : lex m acc pre = some ts) (c : Char)
    (hc : isOp c = true) : lex m acc (pre ++ c :: s) = (lex .plain none s).map (ts ++ [.op c] ++ ·) := by
  have h1 : c ≠ '\'' ∧ c ≠ '"' ∧ c ≠ '\\' ∧ isBlank c = false := by
    unfold isOp at hc
    simp only [Bool.or_eq_true, beq_iff_eq] at hc
    rcases hc with ((((((rfl | rfl) | rfl) | rfl) | rfl) | rfl) | rfl) | rfl <;> decide
  induction pre generalizing m acc ts with
  | nil =>
    cases m <;> simp [lex] at h
    subst h
    simp [lex, h1, hc]
  | cons b pre ih =>
    rw [List.cons_append]
    generalize lex .plain none s = L at ih ⊢
    unfold lex at h ⊢
    cases m <;> dsimp only at h ⊢ <;> split_ifs at h ⊢ <;> first
      | exact ih _ _ _ h
      | (rw [Option.map_eq_some_iff] at h
         obtain ⟨us, h2, rfl⟩ := h
         rw [ih _ _ _ h2, Option.map_map]
         congr 1
         funext x
         simp)

/-- The rest of a safe word. -/
theorem lex_rest (s : List Char) (hs : ∀ c ∈ s, c ∉ shellChars) (w : Word) :
    lex .plain (some w) s = some [.word (w ++ s.map (fun c => (c, false)))] := by
  induction s generalizing w with
  | nil => simp [lex, flush]
  | cons c s ih =>
    have hc := hs c (by simp)
    rw [mem_shell] at hc
    simp only [not_or, Bool.not_eq_true] at hc
    obtain ⟨a1, a2, a3, a4, a5, a6⟩ := hc
    unfold lex
    simp only [a1, a2, a3, a4, a5, if_false, Bool.false_eq_true, Option.isNone_some, a6, push, Option.getD_some]
    rw [ih (fun x hx => hs x (by simp [hx]))]
    simp

theorem active_first (c : Char) (h : isActive false c = false) (h1 : c ≠ '~') (h2 : c ≠ '#') : isActive true c = false := by
  unfold isActive at *
  simpa [h1, h2] using h

theorem lex_safe (s : List Char) (hs : ShellSafe s) : tokens s = some [litWord s] := by
  obtain ⟨h0, h1, h2, h3⟩ := hs
  rcases s with _ | ⟨c, s⟩
  · exact absurd rfl h0
  · have hc := h1 c (by simp)
    rw [mem_shell] at hc
    simp only [not_or, Bool.not_eq_true] at hc
    obtain ⟨a1, a2, a3, a4, a5, a6⟩ := hc
    have e := active_first c a6 (by simpa using h2) (by simpa using h3)
    unfold tokens lex
    simp only [a1, a2, a3, a4, a5, if_false, Bool.false_eq_true, Option.isNone_none, e, push, Option.getD_none, List.nil_append]
    rw [lex_rest s (fun x hx => h1 x (by simp [hx]))]
    rfl

/-- **C180** (commands). A safe name which is put into a command after a blank, and before a blank, an operator or the end, is one word,
and everything else in the command is as without it. -/
theorem C180_words (pre post fn : List Char) (ts us : List Tok) (hpre : tokens pre = some ts) (hpost : tokens post = some us)
    (hend : EndsWord post) (hfn : ShellSafe fn) : tokens (pre ++ ' ' :: (fn ++ post)) = some (ts ++ [litWord fn] ++ us) := by
  unfold tokens
  rw [lex_blank pre (fn ++ post) .plain none ts hpre ' ' (by decide)]
  have hf := lex_safe fn hfn
  unfold tokens at hf
  have : lex .plain none (fn ++ post) = some ([litWord fn] ++ us) := by
    rcases hend with rfl | ⟨c, t, rfl, hc⟩
    · have : us = [] := by simpa [tokens, lex, flush] using hpost.symm
      subst this
      simpa using hf
    · by_cases hb : isBlank c = true
      · rw [lex_blank fn t .plain none _ hf c hb]
        unfold tokens at hpost
        rw [show c :: t = [] ++ c :: t from rfl, lex_blank [] t .plain none [] rfl c hb] at hpost
        rw [Option.map_eq_some_iff] at hpost ⊢
        obtain ⟨x, h1, rfl⟩ := hpost
        exact ⟨x, h1, by simp⟩
      · have ho : isOp c = true := by
          have : " \t\n;|&<>()".toList = [' ', '\t', '\n', ';', '|', '&', '<', '>', '(', ')'] := by decide
          rw [this] at hc
          simp only [List.mem_cons, List.not_mem_nil, or_false] at hc
          unfold isBlank at hb
          unfold isOp
          simp only [Bool.or_eq_true, beq_iff_eq] at hb ⊢
          tauto
        rw [lex_op fn t .plain none _ hf c ho]
        unfold tokens at hpost
        rw [show c :: t = [] ++ c :: t from rfl, lex_op [] t .plain none [] rfl c ho] at hpost
        rw [Option.map_eq_some_iff] at hpost ⊢
        obtain ⟨x, h1, rfl⟩ := hpost
        exact ⟨x, h1, by simp⟩
  rw [this]
  simp

/-- Number of characters in the words. -/
def size : List Tok → Nat
  | [] => 0
  | .word w :: l => w.length + size l
  | .op _ :: l => size l

theorem size_append (a b : List Tok) : size (a ++ b) = size a + size b := by
  induction a with
  | nil => simp [size]
  | cons x a ih => cases x <;> simp [size, ih, Nat.add_assoc]

theorem size_flush (acc : Option Word) : size (flush acc) = (acc.getD []).length := by cases acc <;> simp [flush, size]

theorem push_len (acc : Option Word) (x : Char × Bool) : ((push acc x).getD []).length = (acc.getD []).length + 1 := by simp [push]

theorem size_le (s : List Char) (m : Mode) (acc : Option Word) (ts : List Tok) (h : lex m acc s = some ts) :
    size ts ≤ (acc.getD []).length + s.length + (if m = .desc then 1 else 0) := by
  induction s generalizing m acc ts with
  | nil =>
    cases m <;> simp [lex] at h
    subst h
    simp [size_flush]
  | cons c s ih =>
    unfold lex at h
    rw [List.length_cons]
    have fin : ∀ m' acc', lex m' acc' s = some ts → (acc'.getD []).length + (if m' = .desc then 1 else 0) ≤
        (acc.getD []).length + 1 + (if m = .desc then 1 else 0) → size ts ≤ (acc.getD []).length + (s.length + 1) + (if m = .desc then 1 else 0) := by
      intro m' acc' h1 h2
      have := ih m' acc' ts h1
      omega
    cases m <;> dsimp only at h <;> split_ifs at h <;> first
      | (refine fin _ _ h ?_; simp [push_len] <;> omega)
      | (rw [Option.map_eq_some_iff] at h
         obtain ⟨us, h1, rfl⟩ := h
         have := ih _ _ _ h1
         simp [size_append, size_flush, size] at this ⊢
         omega)

/-- A text which loses no characters has no quotes, blanks or operators. -/
theorem plain_of_size (s : List Char) (acc : Option Word) (ts : List Tok) (h : lex .plain acc s = some ts)
    (hsz : size ts = (acc.getD []).length + s.length) :
    ∀ c ∈ s, c ≠ '\'' ∧ c ≠ '"' ∧ c ≠ '\\' ∧ isBlank c = false ∧ isOp c = false := by
  induction s generalizing acc ts with
  | nil => simp
  | cons c s ih =>
    unfold lex at h
    rw [List.length_cons] at hsz
    dsimp only at h
    split_ifs at h with h1 h2 h3 h4 h5
    · have := size_le _ _ _ _ h; simp at this; omega
    · have := size_le _ _ _ _ h; simp at this; omega
    · have := size_le _ _ _ _ h; simp at this; omega
    · rw [Option.map_eq_some_iff] at h
      obtain ⟨us, h6, rfl⟩ := h
      have := size_le _ _ _ _ h6
      simp [size_append, size_flush] at this hsz
      omega
    · rw [Option.map_eq_some_iff] at h
      obtain ⟨us, h6, rfl⟩ := h
      have := size_le _ _ _ _ h6
      simp [size_append, size_flush, size] at this hsz
      omega
    · intro x hx
      rcases List.mem_cons.1 hx with rfl | hx
      · exact ⟨h1, h2, h3, by simpa using h4, by simpa using h5⟩
      · refine ih _ _ h ?_ x hx
        rw [push_len]
        omega

theorem lex_plain (s : List Char) (hs : ∀ c ∈ s, c ≠ '\'' ∧ c ≠ '"' ∧ c ≠ '\\' ∧ isBlank c = false ∧ isOp c = false) (w : Word) :
    lex .plain (some w) s = some [.word (w ++ s.map (fun c => (c, isActive false c)))] := by
  induction s generalizing w with
  | nil => simp [lex, flush]
  | cons c s ih =>
    obtain ⟨a1, a2, a3, a4, a5⟩ := hs c (by simp)
    unfold lex
    simp only [a1, a2, a3, a4, a5, if_false, Bool.false_eq_true, Option.isNone_some, push, Option.getD_some]
    rw [ih (fun x hx => hs x (by simp [hx]))]
    simp

/-- **C180** (which names). The names which the shell takes as one unchanged word are exactly the safe ones. -/
theorem C180_exact (fn : List Char) : tokens fn = some [litWord fn] ↔ ShellSafe fn := by
  refine ⟨fun h => ?_, lex_safe fn⟩
  have h0 : fn ≠ [] := by rintro rfl; simp [tokens, lex, flush] at h
  have hp := plain_of_size fn none _ h (by simp [size, litWord])
  rcases fn with _ | ⟨c, s⟩
  · exact absurd rfl h0
  · obtain ⟨a1, a2, a3, a4, a5⟩ := hp c (by simp)
    unfold tokens lex at h
    simp only [a1, a2, a3, a4, a5, if_false, Bool.false_eq_true, Option.isNone_none, push, Option.getD_none, List.nil_append] at h
    rw [lex_plain s (fun x hx => hp x (by simp [hx]))] at h
    simp only [litWord, Option.some.injEq, List.cons.injEq, Tok.word.injEq, and_true, List.map_cons, List.cons_append, List.nil_append, Prod.mk.injEq,
      true_and] at h
    obtain ⟨e1, e2⟩ := h
    have e3 : ∀ x ∈ s, isActive false x = false := by
      intro x hx
      have := List.map_inj_left.1 e2 x hx
      simpa using this
    have e4 : isActive false c = false ∧ c ≠ '~' ∧ c ≠ '#' := by
      unfold isActive at e1 ⊢
      simp only [Bool.true_and, Bool.or_eq_false_iff, beq_eq_false_iff_ne, Bool.false_and] at e1 ⊢
      tauto
    refine ⟨h0, fun x hx => ?_, by simpa using e4.2.1, by simpa using e4.2.2⟩
    rw [mem_shell]
    obtain ⟨b1, b2, b3, b4, b5⟩ := hp x hx
    have b6 : isActive false x = false := by
      rcases List.mem_cons.1 hx with rfl | hx
      · exact e4.1
      · exact e3 x hx
    simp [b1, b2, b3, b4, b5, b6]

/-- **C180** (blanks). A name with a blank becomes two names. -/
theorem C180_split (pre post a b : List Char) (ts us : List Tok) (hpre : tokens pre = some ts) (hpost : tokens post = some us)
    (hend : EndsWord post) (ha : ShellSafe a) (hb : ShellSafe b) :
    tokens (pre ++ ' ' :: ((a ++ ' ' :: b) ++ post)) = some (ts ++ [litWord a, litWord b] ++ us) := by
  have h1 : tokens (pre ++ ' ' :: (a ++ [])) = some (ts ++ [litWord a] ++ []) := C180_words pre [] a ts [] hpre rfl (.inl rfl) ha
  simp only [List.append_nil] at h1
  have := C180_words (pre ++ ' ' :: a) post b (ts ++ [litWord a]) us h1 hpost hend hb
  simpa using this

/-- **C180** (operators). What is after a `;` in a name is run as a command. -/
theorem C180_inject (pre post a b : List Char) (ts us : List Tok) (hpre : tokens pre = some ts) (hpost : tokens post = some us)
    (hend : EndsWord post) (ha : ShellSafe a) (hb : ShellSafe b) :
    tokens (pre ++ ' ' :: ((a ++ "; ".toList ++ b) ++ post)) = some (ts ++ [litWord a, .op ';', litWord b] ++ us) := by
  have h1 : tokens (pre ++ ' ' :: (a ++ [])) = some (ts ++ [litWord a] ++ []) := C180_words pre [] a ts [] hpre rfl (.inl rfl) ha
  simp only [List.append_nil] at h1
  have h2 : tokens ((pre ++ ' ' :: a) ++ ';' :: []) = some (ts ++ [litWord a] ++ [.op ';']) := by
    unfold tokens at h1 ⊢
    rw [lex_op _ [] .plain none _ h1 ';' (by decide)]
    simp [lex, flush]
  have := C180_words ((pre ++ ' ' :: a) ++ ';' :: []) post b _ us h2 hpost hend hb
  have e : "; ".toList = [';', ' '] := by decide
  rw [e]
  simpa using this

theorem literal_lit (s : List Char) : literal (s.map (fun c => (c, false))) = some s := by
  unfold literal
  rw [if_pos (by simp)]
  simp [Function.comp_def]

theorem args_lit (l : List (List Char)) : args (l.map litWord) = some l := by
  induction l with
  | nil => rfl
  | cons a l ih =>
    show (match literal (a.map (fun c => (c, false))), args (l.map litWord) with
      | some a, some as => some (a :: as)
      | _, _ => none) = _
    rw [literal_lit, ih]

theorem atOrBelow_iff (a f : List Char) : atOrBelow a f = true ↔ InTree a f := by
  unfold atOrBelow InTree
  rw [Bool.or_eq_true, beq_iff_eq, List.isPrefixOf_iff_prefix]
  constructor
  · rintro (h | ⟨t, h⟩)
    · exact .inl h
    · exact .inr ⟨t, by rw [← h]; simp⟩
  · rintro (h | ⟨t, h⟩)
    · exact .inl h
    · exact .inr ⟨t, by rw [h]; simp⟩

theorem rm_tokens : tokens "rm -r".toList = some [litWord "rm".toList, litWord "-r".toList] := by decide

theorem systemRm_safe (dir : List Char) (hs : ShellSafe dir) (hm : dir.head? ≠ some '-') (d : Disk) : systemRm dir d = some (rm [dir] d) := by
  have h := C180_words "rm -r".toList [] dir _ [] rm_tokens rfl (.inl rfl) hs
  have e : "rm -r ".toList ++ dir = "rm -r".toList ++ ' ' :: (dir ++ []) := by
    have : "rm -r ".toList = "rm -r".toList ++ [' '] := by decide
    rw [this]; simp
  unfold systemRm
  rw [e, h]
  show (match args (["rm".toList, "-r".toList, dir].map litWord) with
    | some (p :: o :: as) => if p = "rm".toList ∧ o = "-r".toList ∧ as.all (fun a => a.head? != some '-') then some (rm as d) else none
    | _ => none) = _
  rw [args_lit]
  exact if_pos ⟨rfl, rfl, by simpa using hm⟩

theorem systemRm_two (a b : List Char) (ha : ShellSafe a) (hb : ShellSafe b) (hma : a.head? ≠ some '-') (hmb : b.head? ≠ some '-') (d : Disk) : systemRm (a ++ ' ' :: b) d = some (rm [a, b] d) := by
  have h := C180_split "rm -r".toList [] a b _ [] rm_tokens rfl (.inl rfl) ha hb
  have e : "rm -r ".toList ++ (a ++ ' ' :: b) = "rm -r".toList ++ ' ' :: ((a ++ ' ' :: b) ++ []) := by
    have : "rm -r ".toList = "rm -r".toList ++ [' '] := by decide
    rw [this]; simp
  unfold systemRm
  rw [e, h]
  show (match args (["rm".toList, "-r".toList, a, b].map litWord) with
    | some (p :: o :: as) => if p = "rm".toList ∧ o = "-r".toList ∧ as.all (fun a => a.head? != some '-') then some (rm as d) else none
    | _ => none) = _
  rw [args_lit]
  exact if_pos ⟨rfl, rfl, by simpa using ⟨hma, hmb⟩⟩

/-- **C180** (removal of old calculations; the full claim is for all names of directories). `write_input(mode='w')` on a study whose directory has a safe name (which does not begin with `-`) removes exactly what is
in this directory, and raises nothing. -/
theorem C180_clear_partial (dir : List Char) (hs : ShellSafe dir) (hm : dir.head? ≠ some '-') (d : Disk) (hd : d dir = true) :
    ∃ d', clearCalcDir dir d = some (true, d') ∧ ∀ f, d' f = true ↔ (d f = true ∧ ¬ InTree dir f) := by
  unfold clearCalcDir
  rw [if_pos hd, systemRm_safe dir hs hm]
  refine ⟨_, by simp only [rm, hd, Bool.and_true]; rfl, fun f => ?_⟩
  simp only [Bool.and_eq_true, Bool.not_eq_true', ← atOrBelow_iff, Bool.not_eq_true]

/-- **C180** (counterexample). If there is a blank in the name of the directory, `write_input(mode='w')` removes the directory whose name is the part
before the blank, with everything in it; the study itself stays if it is in neither of the two parts. -/
theorem C180_clear_counterexample (a b : List Char) (ha : ShellSafe a) (hb : ShellSafe b) (hma : a.head? ≠ some '-') (hmb : b.head? ≠ some '-') (d : Disk) (hd : d (a ++ ' ' :: b) = true) :
    ∃ ok d', clearCalcDir (a ++ ' ' :: b) d = some (ok, d') ∧ (∀ f, InTree a f → d' f = false) ∧
      (∀ f, ¬ InTree a f → ¬ InTree b f → d' f = d f) ∧ (ok = true ↔ d a = true ∧ d b = true ∧ ¬ InTree a b) := by
  unfold clearCalcDir
  rw [if_pos hd, systemRm_two a b ha hb hma hmb]
  refine ⟨_, _, rfl, fun f hf => ?_, fun f h1 h2 => ?_, ?_⟩
  · simp [rm, (atOrBelow_iff a f).2 hf]
  · rw [← atOrBelow_iff, Bool.not_eq_true] at h1 h2
    simp [rm, h1, h2]
  · simp [rm, ← atOrBelow_iff]

/-- **C180** (no directory). Nothing is removed if the directory does not exist. -/
theorem C180_clear_none (dir : List Char) (d : Disk) (hd : d dir = false) : clearCalcDir dir d = some (true, d) := by
  unfold clearCalcDir; simp [hd]

/-- **C180** (reading). The commands of the parsers read the named file, and only this one: energies of pw.x outputs, counts of steps. -/
theorem C180_parse_partial (fn awk key : List Char) (hf : ShellSafe fn) (ha : ShellSafe awk) (hk : ShellSafe key) :
    tokens (etotCmd fn awk) = some [litWord "grep".toList, litWord "^!".toList, litWord fn, .op '|', litWord awk, litWord "{print $5}".toList] ∧
    tokens (countCmd key fn) = some [litWord "grep".toList, litWord "-c".toList, litWord key, litWord fn] := by
  constructor
  · have h1 := C180_words "grep '^!'".toList " |".toList fn [litWord "grep".toList, litWord "^!".toList] [.op '|'] (by decide) (by decide)
      (.inr ⟨' ', "|".toList, by decide, by decide⟩) hf
    have h2 := C180_words ("grep '^!'".toList ++ ' ' :: (fn ++ " |".toList)) " '{print $5}'".toList awk _ [litWord "{print $5}".toList] h1 (by decide)
      (.inr ⟨' ', "'{print $5}'".toList, by decide, by decide⟩) ha
    unfold etotCmd
    have e1 : "grep '^!' ".toList = "grep '^!'".toList ++ [' '] := by decide
    have e2 : " | ".toList = " |".toList ++ [' '] := by decide
    rw [e1, e2]
    simpa using h2
  · have h1 := C180_words "grep -c".toList [] key [litWord "grep".toList, litWord "-c".toList] [] (by decide) rfl (.inl rfl) hk
    have h2 := C180_words ("grep -c".toList ++ ' ' :: (key ++ [])) [] fn _ [] h1 rfl (.inl rfl) hf
    unfold countCmd
    have e1 : "grep -c ".toList = "grep -c".toList ++ [' '] := by decide
    have e2 : " ".toList = [' '] := by decide
    rw [e1, e2]
    simpa using h2

/-- **C180** (viewers). The viewer is started with the file of the structure and writes to the log file. -/
theorem C180_view_partial (cmd struct log : List Char) (hc : ShellSafe cmd) (hs : ShellSafe struct) (hl : ShellSafe log) :
    tokens (viewCmd cmd struct log) = some [litWord cmd, litWord struct, .op '>', litWord log, litWord "2".toList, .op '>', .op '&', litWord "1".toList] := by
  have h0 : tokens (cmd ++ ' ' :: []) = some [litWord cmd] := by
    have := lex_safe cmd hc
    unfold tokens at this ⊢
    rw [lex_blank cmd [] .plain none _ this ' ' (by decide)]
    simp [lex, flush]
  have h1 := C180_words (cmd ++ ' ' :: []) " >".toList struct _ [.op '>'] h0 (by decide) (.inr ⟨' ', ">".toList, by decide, by decide⟩) hs
  have h2 := C180_words _ " 2>&1".toList log _ [litWord "2".toList, .op '>', .op '&', litWord "1".toList] h1 (by decide)
    (.inr ⟨' ', "2>&1".toList, by decide, by decide⟩) hl
  unfold viewCmd
  have e1 : "  ".toList = [' ', ' '] := by decide
  have e2 : " > ".toList = " >".toList ++ [' '] := by decide
  rw [e1, e2]
  simpa using h2

/-- **C180** (results of commands). `backtick` returns what the command writes if and only if it writes no error message; the exit status
does not matter. -/
theorem C180_backtick (out err : List Char) (code : Nat) : (backtick out err code = some out ↔ ∀ c ∈ err, c.isWhitespace = true) ∧
    (backtick out err code = none ↔ ∃ c ∈ err, c.isWhitespace = false) := by
  unfold backtick
  constructor <;> split_ifs with h <;> simp at h ⊢ <;> simpa using h

/-! ## Cases -/

/-- Non-vacuity: names which occur are safe. -/
example : ShellSafe "/home/me/study-1/calc_host0".toList ∧ ShellSafe "pw.out.gz".toList ∧ ShellSafe "P=".toList ∧ ¬ ShellSafe "my file".toList := by
  refine ⟨⟨by decide, by decide, by decide, by decide⟩, ⟨by decide, by decide, by decide, by decide⟩, ⟨by decide, by decide, by decide, by decide⟩,
    fun h => h.2.1 ' ' (by decide) (by decide)⟩

/-- `/data/my study/calc_host` : the directory `/data/my` is lost. -/
example : ∃ d : Disk, d "/data/my study/calc_host".toList = true ∧ d "/data/my/thesis.tex".toList = true ∧
    ∃ ok d', clearCalcDir "/data/my study/calc_host".toList d = some (ok, d') ∧ ok = false ∧ d' "/data/my/thesis.tex".toList = false ∧
      d' "/data/my study/calc_host".toList = true :=
  ⟨fun f => f == "/data/my study/calc_host".toList || f == "/data/my/thesis.tex".toList, by decide, by decide, _, _, rfl, by decide, by decide, by decide⟩

/-- `x; rm y` as the name of a file. -/
example : tokens (countCmd "P=".toList "x; rm".toList) =
    some [litWord "grep".toList, litWord "-c".toList, litWord "P=".toList, litWord "x".toList, .op ';', litWord "rm".toList] := by decide

end Pwtools.Sh
