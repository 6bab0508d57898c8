import Verif.Model.FileRepl
import Verif.Props.Common
import Mathlib.Data.List.Infix
/-!
# C115: `file_template_replace` at every crash point
-/
namespace Pwtools.Repl
open Spec

theorem inits_eq (l : Text) : ∃ L, l.inits = L ++ [l] := by
  induction l with
  | nil => exact ⟨[], rfl⟩
  | cons a l ih =>
    obtain ⟨L, e⟩ := ih
    exact ⟨[] :: L.map (a :: ·), by simp [e]⟩

theorem run_append (fs : Files) (a b : List Step) : run fs (a ++ b) = run (run fs a) b := by
  unfold run
  rw [List.foldl_append]

theorem run_other (fs : Files) (steps : List Step) (name : Text) (h : ∀ s ∈ steps, s.1 ≠ name) : run fs steps name = fs name := by
  induction steps generalizing fs with
  | nil => rfl
  | cons s steps ih =>
    have : run fs (s :: steps) = run (Function.update fs s.1 (some s.2)) steps := rfl
    rw [this, ih _ fun x hx => h x (by simp [hx]), Function.update_of_ne (Ne.symm (h s (by simp)))]

theorem writeSteps_fst (name txt : Text) : ∀ s ∈ writeSteps name txt, s.1 = name := by
  intro s hs
  unfold writeSteps at hs
  obtain ⟨p, _, rfl⟩ := List.mem_map.1 hs
  rfl

theorem run_writeSteps (fs : Files) (name txt : Text) : run fs (writeSteps name txt) name = some txt := by
  unfold writeSteps
  obtain ⟨L, e⟩ := inits_eq txt
  rw [e, List.map_append, run_append]
  simp [run]

theorem ne_bak (fn bak : Text) (h : bak ≠ []) : fn ++ bak ≠ fn := by
  intro e
  have := congrArg List.length e
  rw [List.length_append] at this
  exact h (List.length_eq_zero_iff.1 (by omega))

/-- **C115** (result) If the call does not raise, the file has the text with the replacements, `fn + bak` has the old text, and no other file has
changed. -/
theorem C115_result (fs : Files) (fn bak old : Text) (dct : List (Text × TVal)) (conv : Bool) (ho : fs fn = some old) (steps : List Step)
    (h : fileReplace fs fn bak dct conv = some steps) :
    run fs steps fn = templateReplace old dct conv ∧ (bak ≠ [] → run fs steps (fn ++ bak) = some old) ∧
    ∀ name, name ≠ fn → (bak = [] ∨ name ≠ fn ++ bak) → run fs steps name = fs name := by
  unfold fileReplace at h
  rw [ho] at h
  simp only at h
  cases ht : templateReplace old dct conv with
  | none => rw [ht] at h; cases h
  | some txt =>
    rw [ht] at h
    simp only [Option.some.injEq] at h
    rw [← h, run_append]
    refine ⟨run_writeSteps _ _ _, fun hb => ?_, fun name h1 h2 => ?_⟩
    · rw [if_pos hb, run_other _ _ _ fun s hs => by rw [writeSteps_fst fn txt s hs]; exact Ne.symm (ne_bak fn bak hb), run_writeSteps]
    · rw [run_other _ _ _ fun s hs => by rw [writeSteps_fst fn txt s hs]; exact Ne.symm h1]
      by_cases hb : bak = []
      · rw [if_neg (by simp [hb])]; rfl
      · rw [if_pos hb]
        have h3 : name ≠ fn ++ bak := by
          rcases h2 with h2 | h2
          · exact absurd h2 hb
          · exact h2
        exact run_other _ _ _ fun s hs => by rw [writeSteps_fst _ _ s hs]; exact Ne.symm h3

/-- **C115** (exceptions) If a value is not a text, or the file does not exist, nothing is written. -/
theorem C115_exception (fs : Files) (fn bak : Text) (dct : List (Text × TVal)) (conv : Bool) :
    fileReplace fs fn bak dct conv = none ↔ fs fn = none ∨ ∃ old, fs fn = some old ∧ templateReplace old dct conv = none := by
  unfold fileReplace
  cases h : fs fn with
  | none => simp
  | some old =>
    simp only [reduceCtorEq, Option.some.injEq, exists_eq_left', false_or]
    cases templateReplace old dct conv <;> simp

/-- **C115** (crash points, with a backup) At every point of the call the old text is in the file or in the backup, complete; no other file has
changed. -/
theorem C115_crash_partial (fs : Files) (fn bak old : Text) (dct : List (Text × TVal)) (conv : Bool) (ho : fs fn = some old) (hb : bak ≠ [])
    (steps : List Step) (h : fileReplace fs fn bak dct conv = some steps) (k : Nat) :
    (run fs (steps.take k) fn = some old ∨ run fs (steps.take k) (fn ++ bak) = some old) ∧
    ∀ name, name ≠ fn → name ≠ fn ++ bak → run fs (steps.take k) name = fs name := by
  unfold fileReplace at h
  rw [ho] at h
  simp only at h
  cases ht : templateReplace old dct conv with
  | none => rw [ht] at h; cases h
  | some txt =>
    rw [ht] at h
    simp only [Option.some.injEq] at h
    rw [if_pos hb] at h
    constructor
    · rw [← h, List.take_append]
      by_cases hk : k ≤ (writeSteps (fn ++ bak) old).length
      · left
        rw [Nat.sub_eq_zero_of_le hk, List.take_zero, List.append_nil, run_other, ho]
        intro s hs
        rw [writeSteps_fst _ _ s (List.mem_of_mem_take hs)]
        exact ne_bak fn bak hb
      · right
        rw [List.take_of_length_le (by omega), run_append, run_other, run_writeSteps]
        intro s hs
        rw [writeSteps_fst _ _ s (List.mem_of_mem_take hs)]
        exact Ne.symm (ne_bak fn bak hb)
    · intro name h1 h2
      apply run_other
      intro s hs
      have := List.mem_of_mem_take hs
      rw [← h, List.mem_append] at this
      rcases this with h' | h'
      · rw [writeSteps_fst _ _ s h']; exact Ne.symm h2
      · rw [writeSteps_fst _ _ s h']; exact Ne.symm h1

/-- **C115** is false without a backup: whatever the file contains, there is a crash point where its content is lost and no file has it. -/
theorem C115_counterexample (fs : Files) (fn old : Text) (dct : List (Text × TVal)) (conv : Bool) (ho : fs fn = some old) (h0 : old ≠ [])
    (steps : List Step) (h : fileReplace fs fn [] dct conv = some steps) (honly : ∀ name, name ≠ fn → fs name ≠ some old) :
    ∃ k, ∀ name, run fs (steps.take k) name ≠ some old := by
  refine ⟨1, fun name => ?_⟩
  unfold fileReplace at h
  rw [ho] at h
  simp only at h
  cases ht : templateReplace old dct conv with
  | none => rw [ht] at h; cases h
  | some txt =>
    rw [ht] at h
    simp only [ne_eq, not_true_eq_false, if_false, List.nil_append, Option.some.injEq] at h
    have e : steps.take 1 = [(fn, [])] := by
      rw [← h]
      unfold writeSteps
      cases txt <;> simp
    rw [e]
    by_cases hn : name = fn
    · rw [hn]
      simp only [run, List.foldl_cons, List.foldl_nil, Function.update_self]
      intro e
      exact h0 (Option.some.inj e).symm
    · simp only [run, List.foldl_cons, List.foldl_nil]
      rw [Function.update_of_ne hn]
      exact honly name hn

/-- Non-vacuity. -/
example : (fileReplace (fun n => if n = "f".toList then some "a xx".toList else none) "f".toList ".bak".toList [("xx".toList, .str "1".toList)] false).isSome = true := by
  decide +kernel

end Pwtools.Repl
