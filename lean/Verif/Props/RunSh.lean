import Verif.Spec.RunSh
import Verif.Props.Shell
import Verif.Props.Common
import Mathlib.Tactic.SplitIfs
/-!
# C181: which jobs the start script submits
-/
namespace Pwtools.Sh
open Pwtools.Spec

theorem nat_safe (n : Nat) : ShellSafe (strNat n) := by
  have hd := strNat_digits n
  refine ⟨strNat_ne_nil n, fun c hc hm => ?_, fun h => ?_, fun h => ?_⟩
  · have h1 := hd c hc
    have : ∀ x ∈ shellChars, x.isDigit = false := by decide
    rw [this c hm] at h1
    cases h1
  · have := hd '~' (List.mem_of_mem_head? h)
    exact absurd this (by decide)
  · have := hd '#' (List.mem_of_mem_head? h)
    exact absurd this (by decide)

/-- The tokens of one line without the newline. -/
def lineToks (sub job : List Char) (sleep i : Nat) : List Tok :=
  [litWord "cd".toList, litWord (strNat i), .op '&', .op '&', litWord sub, litWord job, .op '&', .op '&', litWord "cd".toList, .word hereWord,
    .op '&', .op '&', litWord "sleep".toList, litWord (strNat sleep)]

theorem line_tokens (sub job : List Char) (hs : JobWords sub job) (sleep i : Nat) (rest : List Char) :
    tokens (runLine sub job sleep i ++ rest) = (tokens rest).map (lineToks sub job sleep i ++ [.op '\n'] ++ ·) := by
  obtain ⟨h1, h2, -, -⟩ := hs
  have e1 := C180_words "cd".toList " &&".toList (strNat i) [litWord "cd".toList] [.op '&', .op '&'] (by decide +kernel) (by decide +kernel)
    (.inr ⟨' ', "&&".toList, rfl, by decide⟩) (nat_safe i)
  have e2 := C180_words _ [] sub _ [] e1 rfl (.inl rfl) h1
  have e3 := C180_words _ " && cd $here && sleep".toList job _
    [.op '&', .op '&', litWord "cd".toList, .word hereWord, .op '&', .op '&', litWord "sleep".toList] e2 (by decide +kernel)
    (.inr ⟨' ', "&& cd $here && sleep".toList, rfl, by decide⟩) h2
  have e4 := C180_words _ [] (strNat sleep) _ [] e3 rfl (.inl rfl) (nat_safe sleep)
  have e5 := lex_op _ rest .plain none _ e4 '\n' (by decide)
  have ht : runLine sub job sleep i ++ rest = ("cd".toList ++ ' ' :: (strNat i ++ " &&".toList) ++ ' ' :: (sub ++ []) ++
      ' ' :: (job ++ " && cd $here && sleep".toList) ++ ' ' :: (strNat sleep ++ [])) ++ '\n' :: rest := by
    unfold runLine
    have a1 : "cd ".toList = "cd".toList ++ [' '] := by decide
    have a2 : " && ".toList = " &&".toList ++ [' '] := by decide
    have a3 : " && cd $here && sleep ".toList = " && cd $here && sleep".toList ++ [' '] := by decide
    have a4 : " ".toList = [' '] := by decide
    have a5 : "\n".toList = ['\n'] := by decide
    rw [a1, a2, a3, a4, a5]
    simp only [List.append_assoc, List.cons_append, List.nil_append]
  unfold tokens
  rw [ht, e5]
  rfl

theorem script_tokens (sub job : List Char) (hs : JobWords sub job) (sleep : Nat) (idxs : List Nat) :
    tokens ((idxs.map (runLine sub job sleep)).flatten) = some ((idxs.map (fun i => lineToks sub job sleep i ++ [.op '\n'])).flatten) := by
  induction idxs with
  | nil => rfl
  | cons i l ih =>
    rw [List.map_cons, List.flatten_cons, line_tokens sub job hs, ih]
    rfl

theorem split_line (ts rest : List Tok) (h : Tok.op '\n' ∉ ts) : splitLines (ts ++ .op '\n' :: rest) = ts :: splitLines rest := by
  induction ts with
  | nil => simp [splitLines]
  | cons t l ih =>
    have hl := ih (fun hm => h (by simp [hm]))
    rw [List.cons_append]
    generalize splitLines rest = R at hl ⊢
    unfold splitLines
    split
    · exact absurd (by simp_all) h
    · simp_all
    · simp_all [consHead]

theorem script_lines (sub job : List Char) (sleep : Nat) (idxs : List Nat) :
    splitLines ((idxs.map (fun i => lineToks sub job sleep i ++ [.op '\n'])).flatten) = idxs.map (lineToks sub job sleep) ++ [[]] := by
  induction idxs with
  | nil => rfl
  | cons i l ih =>
    rw [List.map_cons, List.flatten_cons, List.append_assoc, List.singleton_append, split_line _ _ (by simp [lineToks, litWord]), ih]
    rfl

/-- The commands of one line. -/
def lineCmds (sub job : List Char) (sleep i : Nat) : List (List Word) :=
  [["cd".toList, strNat i], [sub, job]].map (·.map (fun s => s.map (fun c => (c, false)))) ++
    [["cd".toList.map (fun c => (c, false)), hereWord]] ++ [["sleep".toList, strNat sleep].map (fun s => s.map (fun c => (c, false)))]

theorem line_and (sub job : List Char) (sleep i : Nat) : andList (lineToks sub job sleep i) = some (lineCmds sub job sleep i) := by
  simp [lineToks, litWord, andList, lineCmds, consHead]

theorem expand_lit (here s : List Char) (h : s.head? ≠ some '$') : expand here (s.map (fun c => (c, false))) = [s] := by
  unfold expand
  rw [if_neg]
  · simp [Function.comp_def]
  · intro hc
    rcases s with _ | ⟨c, s⟩
    · cases hc
    · simp [hereWord] at hc

theorem fields_safe (h : List Char) (h0 : h ≠ []) (hs : ∀ c ∈ h, c ≠ ' ' ∧ c ≠ '\t' ∧ c ≠ '\n') : fields h = [h] := by
  induction h with
  | nil => exact absurd rfl h0
  | cons c s ih =>
    have hb : ∀ x ∈ c :: s, (isBlank x || x == '\n') = false := fun x hx => by
      obtain ⟨a, b, d⟩ := hs x hx
      simp [isBlank, a, b, d]
    unfold fields
    rw [hb c (by simp)]
    rcases s with _ | ⟨d, t⟩
    · rfl
    · simp only [hb d (by simp)]
      rw [ih (by simp) (fun x hx => hs x (by simp [hx]))]
      rfl

theorem safe_blank (h : List Char) (hs : ShellSafe h) : ∀ c ∈ h, c ≠ ' ' ∧ c ≠ '\t' ∧ c ≠ '\n' := fun c hc =>
  ⟨fun e => hs.2.1 c hc (by rw [e]; decide), fun e => hs.2.1 c hc (by rw [e]; decide), fun e => hs.2.1 c hc (by rw [e]; decide)⟩

theorem safe_head (h : List Char) (hs : ShellSafe h) : h.head? ≠ some '$' := fun e =>
  hs.2.1 '$' (List.mem_of_mem_head? e) (by decide)

theorem nat_noSlash (i : Nat) : (strNat i).head? ≠ some '/' := fun e => by
  have := strNat_digits i '/' (List.mem_of_mem_head? e)
  exact absurd this (by decide)

variable (ok : Nat → List Char → Bool) (dirs : Disk)

theorem simple_cd (here cwd : List Char) (i : Nat) (log : List Started) :
    simple ok dirs here ["cd".toList.map (fun c => (c, false)), (strNat i).map (fun c => (c, false))] ⟨cwd, log⟩ =
      if dirs (calcPath cwd i) then (true, ⟨calcPath cwd i, log⟩) else (false, ⟨cwd, log⟩) := by
  unfold simple
  rw [List.flatMap_cons, List.flatMap_cons, expand_lit _ _ (by decide), expand_lit _ _ (safe_head _ (nat_safe i))]
  simp only [List.flatMap_nil, List.append_nil, List.singleton_append, if_true]
  simp only [cdTo, if_neg (nat_noSlash i), calcPath]
  by_cases hd : dirs (cwd ++ '/' :: strNat i) = true <;> simp [hd]

theorem simple_sub (here sub job cwd : List Char) (hs : JobWords sub job) (log : List Started) :
    simple ok dirs here [sub.map (fun c => (c, false)), job.map (fun c => (c, false))] ⟨cwd, log⟩ =
      (ok log.length cwd, ⟨cwd, log ++ [⟨cwd, [sub, job], ok log.length cwd⟩]⟩) := by
  unfold simple
  rw [List.flatMap_cons, List.flatMap_cons, expand_lit _ _ (safe_head _ hs.1), expand_lit _ _ (safe_head _ hs.2.1)]
  simp only [List.flatMap_nil, List.append_nil, List.singleton_append, if_neg hs.2.2.1, if_neg hs.2.2.2]

theorem simple_here (here cwd : List Char) (log : List Started) :
    simple ok dirs here ["cd".toList.map (fun c => (c, false)), hereWord] ⟨cwd, log⟩ =
      match cdTo dirs cwd (fields here) with
      | some p => (true, ⟨p, log⟩)
      | none => (false, ⟨cwd, log⟩) := by
  unfold simple
  rw [List.flatMap_cons, List.flatMap_cons, expand_lit _ _ (by decide)]
  have : expand here hereWord = fields here := by unfold expand; rw [if_pos rfl]
  rw [this]
  simp only [List.flatMap_nil, List.append_nil, List.singleton_append, if_true]
  split <;> simp_all

theorem simple_sleep (here : List Char) (n : Nat) (s : Shell) :
    simple ok dirs here ["sleep".toList.map (fun c => (c, false)), (strNat n).map (fun c => (c, false))] s = (true, s) := by
  unfold simple
  rw [List.flatMap_cons, List.flatMap_cons, expand_lit _ _ (by decide), expand_lit _ _ (safe_head _ (nat_safe n))]
  simp only [List.flatMap_nil, List.append_nil, List.singleton_append]
  rw [if_neg (by decide)]
  simp

/-- What one line does. -/
theorem exec_line (here sub job : List Char) (hs : JobWords sub job) (sleep i : Nat) (cwd : List Char) (log : List Started) :
    execAnd ok dirs here (lineCmds sub job sleep i) ⟨cwd, log⟩ =
      if dirs (calcPath cwd i) then
        ⟨if ok log.length (calcPath cwd i) then (cdTo dirs (calcPath cwd i) (fields here)).getD (calcPath cwd i) else calcPath cwd i,
          log ++ [submitted cwd sub job (ok log.length (calcPath cwd i)) i]⟩
      else ⟨cwd, log⟩ := by
  unfold lineCmds
  simp only [List.map_cons, List.map_nil, List.cons_append, List.nil_append]
  unfold execAnd
  rw [simple_cd]
  by_cases hd : dirs (calcPath cwd i) = true
  · simp only [hd, if_true]
    unfold execAnd
    rw [simple_sub ok dirs here sub job _ hs]
    cases hk : ok log.length (calcPath cwd i)
    · simp [submitted]
    · simp only [if_true]
      unfold execAnd
      rw [simple_here]
      cases hc : cdTo dirs (calcPath cwd i) (fields here)
      · simp [submitted]
      · simp only [Option.getD_some]
        unfold execAnd
        rw [simple_sleep]
        simp [execAnd, submitted]
  · simp [hd]

/-- The lines, as a fold. -/
def steps (here sub job : List Char) (sleep : Nat) : List Nat → Shell → Shell
  | [], s => s
  | i :: l, s => steps here sub job sleep l (execAnd ok dirs here (lineCmds sub job sleep i) s)

theorem exec_steps (here sub job : List Char) (sleep : Nat) (idxs : List Nat) (s : Shell) :
    execLines ok dirs here (idxs.map (lineToks sub job sleep) ++ [[]]) s = some (steps ok dirs here sub job sleep idxs s) := by
  induction idxs generalizing s with
  | nil => simp [execLines, andList, steps, execAnd, simple]
  | cons i l ih =>
    rw [List.map_cons, List.cons_append]
    unfold execLines
    rw [line_and, Option.bind_some, ih]
    rfl

theorem run_steps (sub job : List Char) (hs : JobWords sub job) (sleep : Nat) (idxs : List Nat) (s : Shell) :
    runScript ok dirs (runTxt sub job sleep idxs) s = some (steps ok dirs s.cwd sub job sleep idxs s) := by
  unfold runScript runTxt
  rw [if_pos (by rw [List.isPrefixOf_iff_prefix]; exact List.prefix_append _ _), List.drop_left, script_tokens sub job hs, Option.bind_some,
    script_lines, exec_steps]

theorem cd_here (h cwd : List Char) (hp : PlainDir dirs h) : cdTo dirs cwd (fields h) = some h := by
  rw [fields_safe h hp.1.1 (safe_blank h hp.1)]
  simp [cdTo, hp.2.1, hp.2.2]

theorem steps_good (h sub job : List Char) (hp : PlainDir dirs h) (hs : JobWords sub job) (sleep : Nat) (idxs : List Nat)
    (hok : ∀ n, ∀ i ∈ idxs, ok n (calcPath h i) = true) (log : List Started) :
    steps ok dirs h sub job sleep idxs ⟨h, log⟩ =
      ⟨h, log ++ (idxs.filter (fun i => dirs (calcPath h i))).map (submitted h sub job true)⟩ := by
  induction idxs generalizing log with
  | nil => simp [steps]
  | cons i l ih =>
    unfold steps
    rw [exec_line ok dirs h sub job hs, hok _ i (by simp)]
    by_cases hd : dirs (calcPath h i) = true
    · rw [if_pos hd, if_pos rfl, cd_here dirs h _ hp, Option.getD_some, ih (fun n j hj => hok n j (by simp [hj]))]
      simp [hd]
    · rw [if_neg hd, ih (fun n j hj => hok n j (by simp [hj]))]
      simp [hd]

/-- C181, for calculation directories with plain absolute names, if no submission fails: `run.sh`, started in that directory, submits the job
file of each calculation of the call whose directory exists, once, in the order of the numbers, in the directory of that calculation, and
nothing else; it ends where it was started. -/
theorem C181_submit_partial (h sub job : List Char) (hp : PlainDir dirs h) (hs : JobWords sub job) (sleep : Nat) (idxs : List Nat)
    (hok : ∀ n, ∀ i ∈ idxs, ok n (calcPath h i) = true) (log : List Started) :
    runScript ok dirs (runTxt sub job sleep idxs) ⟨h, log⟩ =
      some ⟨h, log ++ (idxs.filter (fun i => dirs (calcPath h i))).map (submitted h sub job true)⟩ := by
  rw [run_steps ok dirs sub job hs, steps_good ok dirs h sub job hp hs sleep idxs hok]

/-- C181: started again it submits all jobs again. -/
theorem C181_again (h sub job : List Char) (hp : PlainDir dirs h) (hs : JobWords sub job) (sleep : Nat) (idxs : List Nat)
    (hok : ∀ n, ∀ i ∈ idxs, ok n (calcPath h i) = true) (hd : ∀ i ∈ idxs, dirs (calcPath h i) = true) :
    (runScript ok dirs (runTxt sub job sleep idxs) ⟨h, []⟩).bind (runScript ok dirs (runTxt sub job sleep idxs)) =
      some ⟨h, idxs.map (submitted h sub job true) ++ idxs.map (submitted h sub job true)⟩ := by
  have hf : idxs.filter (fun i => dirs (calcPath h i)) = idxs := List.filter_eq_self.2 hd
  rw [C181_submit_partial ok dirs h sub job hp hs sleep idxs hok, Option.bind_some,
    C181_submit_partial ok dirs h sub job hp hs sleep idxs hok, hf]
  rfl

theorem steps_lost (here sub job cwd : List Char) (hs : JobWords sub job) (sleep : Nat) (idxs : List Nat)
    (hd : ∀ i ∈ idxs, dirs (calcPath cwd i) = false) (log : List Started) :
    steps ok dirs here sub job sleep idxs ⟨cwd, log⟩ = ⟨cwd, log⟩ := by
  induction idxs with
  | nil => rfl
  | cons i l ih =>
    unfold steps
    rw [exec_line ok dirs here sub job hs, if_neg (by simp [hd i (by simp)])]
    exact ih (fun j hj => hd j (by simp [hj]))

theorem steps_append (here sub job : List Char) (sleep : Nat) (a b : List Nat) (s : Shell) :
    steps ok dirs here sub job sleep (a ++ b) s = steps ok dirs here sub job sleep b (steps ok dirs here sub job sleep a s) := by
  induction a generalizing s with
  | nil => rfl
  | cons i l ih => exact ih _

/-- C181 is false if a submission fails (`bash` as submission command: a calculation which fails): the jobs after the first failure are not
submitted, since the script stays in the directory of the failed job, and the shell ends there. (Unless there are numbered directories in it.) -/
theorem C181_failed_counterexample (h sub job : List Char) (hp : PlainDir dirs h) (hs : JobWords sub job) (sleep : Nat) (a b : List Nat) (k : Nat)
    (hok : ∀ n, ∀ i ∈ a, ok n (calcPath h i) = true) (hk : ∀ n, ok n (calcPath h k) = false)
    (hd : ∀ i ∈ a ++ [k], dirs (calcPath h i) = true) (hb : ∀ j ∈ b, dirs (calcPath (calcPath h k) j) = false) (log : List Started) :
    runScript ok dirs (runTxt sub job sleep (a ++ k :: b)) ⟨h, log⟩ =
      some ⟨calcPath h k, log ++ a.map (submitted h sub job true) ++ [submitted h sub job false k]⟩ := by
  rw [run_steps ok dirs sub job hs, steps_append, steps_good ok dirs h sub job hp hs sleep a hok]
  have hf : a.filter (fun i => dirs (calcPath h i)) = a := List.filter_eq_self.2 (fun i hi => hd i (by simp [hi]))
  rw [hf]
  unfold steps
  rw [exec_line ok dirs h sub job hs, if_pos (hd k (by simp)), hk, if_neg (by simp), steps_lost ok dirs h sub job _ hs sleep b hb]

theorem fields_blank (a b : List Char) (ha : ShellSafe a) (hb : ShellSafe b) : fields (a ++ ' ' :: b) = [a, b] := by
  have h1 := safe_blank a ha
  have h0 := ha.1
  clear ha
  induction a with
  | nil => exact absurd rfl h0
  | cons c s ih =>
    have hc : (isBlank c || c == '\n') = false := by
      obtain ⟨x, y, z⟩ := h1 c (by simp)
      simp [isBlank, x, y, z]
    rw [List.cons_append]
    unfold fields
    rw [hc]
    rcases s with _ | ⟨d, t⟩
    · simp only [List.nil_append]
      rw [if_neg (by simp), if_pos (by decide)]
      congr 1
      unfold fields
      rw [if_pos (by decide)]
      exact fields_safe b hb.1 (safe_blank b hb)
    · have hd : (isBlank d || d == '\n') = false := by
        obtain ⟨x, y, z⟩ := h1 d (by simp)
        simp [isBlank, x, y, z]
      simp only [List.cons_append, hd]
      rw [← List.cons_append, ih (fun x hx => h1 x (by simp [hx])) (by simp)]
      rfl

/-- C181 is false if the name of the directory has a blank (`$here` is not quoted): only the first job is submitted, even if no submission
fails. -/
theorem C181_blank_counterexample (a b sub job : List Char) (ha : ShellSafe a) (hb : ShellSafe b) (hs : JobWords sub job) (sleep k : Nat)
    (l : List Nat) (hk : dirs (calcPath (a ++ ' ' :: b) k) = true) (hl : ∀ j ∈ l, dirs (calcPath (calcPath (a ++ ' ' :: b) k) j) = false) :
    runScript ok dirs (runTxt sub job sleep (k :: l)) ⟨a ++ ' ' :: b, []⟩ =
      some ⟨calcPath (a ++ ' ' :: b) k,
        [submitted (a ++ ' ' :: b) sub job (ok 0 (calcPath (a ++ ' ' :: b) k)) k]⟩ := by
  rw [run_steps ok dirs sub job hs]
  unfold steps
  rw [exec_line ok dirs _ sub job hs, if_pos hk, fields_blank a b ha hb]
  have : ∀ x : List Char, (if ok ([] : List Started).length x = true then (cdTo dirs x [a, b]).getD x else x) = x := fun x => by
    simp [cdTo]
  rw [this]
  exact congrArg some (steps_lost ok dirs _ sub job _ hs sleep l hl _)

/-- C181: started in a directory without the numbered directories (for example one level above) nothing is submitted. -/
theorem C181_elsewhere (cwd sub job : List Char) (hs : JobWords sub job) (sleep : Nat) (idxs : List Nat)
    (hd : ∀ i ∈ idxs, dirs (calcPath cwd i) = false) (log : List Started) :
    runScript ok dirs (runTxt sub job sleep idxs) ⟨cwd, log⟩ = some ⟨cwd, log⟩ := by
  rw [run_steps ok dirs sub job hs, steps_lost ok dirs cwd sub job cwd hs sleep idxs hd]

/-- C181: the text has one line per calculation after the first line, and these begin with the number. -/
theorem C181_text (sub job : List Char) (sleep : Nat) :
    runTxt sub job sleep [] = "here=$(pwd)\n".toList ∧ ∀ idxs i, runTxt sub job sleep (idxs ++ [i]) = runTxt sub job sleep idxs ++
      "cd ".toList ++ strNat i ++ " && ".toList ++ sub ++ " ".toList ++ job ++ " && cd $here && sleep ".toList ++ strNat sleep ++ "\n".toList := by
  refine ⟨rfl, fun idxs i => ?_⟩
  unfold runTxt runLine
  simp only [List.map_append, List.map_cons, List.map_nil, List.flatten_append, List.flatten_cons, List.flatten_nil, List.append_nil,
    List.append_assoc]

/-- Three calculations (9, 10, 11) in `/c`. -/
example : JobWords "bash".toList "job.local".toList ∧ PlainDir (fun p => p = "/c".toList || p = "/c/9".toList || p = "/c/10".toList || p = "/c/11".toList) "/c".toList ∧
    runScript (fun _ _ => true) (fun p => p = "/c".toList || p = "/c/9".toList || p = "/c/10".toList || p = "/c/11".toList)
      (runTxt "bash".toList "job.local".toList 0 [9, 10, 11]) ⟨"/c".toList, []⟩ =
      some ⟨"/c".toList, [⟨"/c/9".toList, ["bash".toList, "job.local".toList], true⟩, ⟨"/c/10".toList, ["bash".toList, "job.local".toList], true⟩,
        ⟨"/c/11".toList, ["bash".toList, "job.local".toList], true⟩]⟩ ∧
    runScript (fun _ p => p ≠ "/c/10".toList) (fun p => p = "/c".toList || p = "/c/9".toList || p = "/c/10".toList || p = "/c/11".toList)
      (runTxt "bash".toList "job.local".toList 0 [9, 10, 11]) ⟨"/c".toList, []⟩ =
      some ⟨"/c/10".toList, [⟨"/c/9".toList, ["bash".toList, "job.local".toList], true⟩,
        ⟨"/c/10".toList, ["bash".toList, "job.local".toList], false⟩]⟩ := by
  refine ⟨⟨(C180_exact _).1 (by decide +kernel), (C180_exact _).1 (by decide +kernel), by decide, by decide⟩,
    ⟨(C180_exact _).1 (by decide +kernel), by decide, by decide⟩, by decide +kernel, by decide +kernel⟩

/-- The hypotheses of the counterexample with a blank: `/my calc`. -/
example : ShellSafe "/my".toList ∧ ShellSafe "calc".toList ∧
    runScript (fun _ _ => true) (fun p => p = "/my calc".toList || p = "/my calc/0".toList || p = "/my calc/1".toList)
      (runTxt "qsub".toList "job".toList 1 [0, 1]) ⟨"/my calc".toList, []⟩ =
      some ⟨"/my calc/0".toList, [⟨"/my calc/0".toList, ["qsub".toList, "job".toList], true⟩]⟩ := by
  refine ⟨(C180_exact _).1 (by decide +kernel), (C180_exact _).1 (by decide +kernel), by decide +kernel⟩

end Pwtools.Sh
