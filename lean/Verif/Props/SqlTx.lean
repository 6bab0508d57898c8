import Verif.Spec.SqlTx
import Verif.Props.Sql
/-!
# Transactions of `sql.SQLiteDB`: C173
-/
namespace Pwtools.SqlTx
open Pwtools.Spec

variable {σ : Type}

/-- One step: the file stays or becomes what the connection sees. -/
def Step (c c' : Conn σ) : Prop := c'.file = c.file ∨ c'.file = c'.view

theorem execute_step (c : Conn σ) (s : Stmt σ) : Step c (execute c s).1 := by
  unfold execute Step
  cases s <;> grind

theorem script_step (c : Conn σ) (s : Stmt σ) : Step c (scriptStmt c s).1 := by
  unfold scriptStmt Step
  cases s <;> grind

/-- Consecutive states. -/
def Chain : Conn σ → List (Conn σ) → Prop
  | _, [] => True
  | c, d :: l => Step c d ∧ Chain d l

theorem chain_append {c : Conn σ} {l m : List (Conn σ)} (h : Chain c l) (h2 : Chain (lastOf c l) m) : Chain c (l ++ m) := by
  induction l generalizing c with
  | nil => simpa [lastOf] using h2
  | cons d l ih =>
    exact ⟨h.1, ih h.2 h2⟩

theorem upTo_chain {step : Conn σ → Stmt σ → Conn σ × Bool} (hs : ∀ c s, Step c (step c s).1) (c : Conn σ) (l : List (Stmt σ)) :
    Chain c (upTo step c l) := by
  induction l generalizing c with
  | nil => trivial
  | cons s l ih =>
    unfold upTo
    split
    · exact ⟨hs c s, ih _⟩
    · exact ⟨hs c s, trivial⟩

theorem steps_chain (c : Conn σ) (op : Op σ) : Chain c (steps c op) := by
  cases op with
  | execute s => exact ⟨execute_step c s, trivial⟩
  | executemany l => exact upTo_chain execute_step c _
  | executescript l =>
    simp only [steps]
    split
    · exact ⟨Or.inr rfl, upTo_chain script_step _ _⟩
    · trivial
  | commit => exact ⟨Or.inr rfl, trivial⟩
  | finish => exact ⟨Or.inr rfl, Or.inl rfl, trivial⟩

theorem trace_chain (c : Conn σ) (ops : List (Op σ)) : Chain c (trace c ops) := by
  induction ops generalizing c with
  | nil => trivial
  | cons op ops ih => exact chain_append (steps_chain c op) (ih _)

theorem chain_file {c : Conn σ} {l : List (Conn σ)} (h : Chain c l) (n : Nat) (s : Conn σ) (hn : l[n]? = some s) :
    s.file = c.file ∨ ∃ m s', m ≤ n ∧ l[m]? = some s' ∧ s.file = s'.view := by
  induction l generalizing c n with
  | nil => simp at hn
  | cons d l ih =>
    cases n with
    | zero =>
      simp only [List.getElem?_cons_zero, Option.some.injEq] at hn
      subst hn
      rcases h.1 with h1 | h1
      · exact Or.inl h1
      · exact Or.inr ⟨0, d, le_refl _, rfl, h1⟩
    | succ n =>
      simp only [List.getElem?_cons_succ] at hn
      rcases ih h.2 n hn with h1 | ⟨m, s', hm, h2, h3⟩
      · rcases h.1 with h4 | h4
        · exact Or.inl (h1.trans h4)
        · exact Or.inr ⟨0, d, by omega, rfl, h1.trans h4⟩
      · exact Or.inr ⟨m + 1, s', by omega, h2, h3⟩

theorem lastOf_append (c : Conn σ) (l m : List (Conn σ)) : lastOf c (l ++ m) = lastOf (lastOf c l) m := by
  induction l generalizing c with
  | nil => rfl
  | cons d l ih => exact ih d

theorem lastOf_mem (c : Conn σ) (l : List (Conn σ)) : lastOf c l = c ∨ lastOf c l ∈ l := by
  induction l generalizing c with
  | nil => exact Or.inl rfl
  | cons d l ih =>
    rcases ih d with h | h
    · exact Or.inr (by rw [show lastOf c (d :: l) = lastOf d l from rfl, h]; simp)
    · exact Or.inr (List.mem_cons_of_mem _ h)

theorem trace_append (c : Conn σ) (a b : List (Op σ)) : trace c (a ++ b) = trace c a ++ trace (run c a) b := by
  induction a generalizing c with
  | nil => simp [run, trace, lastOf]
  | cons op a ih =>
    simp only [List.cons_append, trace, ih, List.append_assoc, run, lastOf_append]

theorem run_append (c : Conn σ) (a b : List (Op σ)) : run c (a ++ b) = run (run c a) b := by
  unfold run
  rw [trace_append, lastOf_append]
  rfl

theorem run_commit (c : Conn σ) (a : List (Op σ)) (op : Op σ) (hop : op = .commit ∨ op = .finish) :
    (run c (a ++ [op])).file = (run c a).view ∧ (run c (a ++ [op])).view = (run c a).view := by
  rw [run_append]
  rcases hop with rfl | rfl <;> exact ⟨rfl, rfl⟩

/-- **C173** (killed). A process that is killed at any point after a `commit` or `finish`: the file holds a state of the database which this
process had seen, not older than that commit. Other processes see the same. -/
theorem C173_kill (c : Conn σ) (a b : List (Op σ)) (op : Op σ) (hop : op = .commit ∨ op = .finish) (n : Nat) (s : Conn σ)
    (hs : (trace (run c (a ++ [op])) b)[n]? = some s) :
    s.file = (run c a).view ∨ ∃ m s', m ≤ n ∧ (trace (run c (a ++ [op])) b)[m]? = some s' ∧ s.file = s'.view := by
  have h := chain_file (trace_chain (run c (a ++ [op])) b) n s hs
  rw [(run_commit c a op hop).1] at h
  exact h

/-- **C173** (end). When the program ends, normally or by an exception, everything it did is in the file. -/
theorem C173_end (c : Conn σ) (ops : List (Op σ)) : (del (run c ops)).file = (run c ops).view ∧ (run c (ops ++ [.commit])).file = (run c ops).view ∧
    (run c (ops ++ [.finish])).file = (run c ops).view :=
  ⟨rfl, (run_commit c ops _ (Or.inl rfl)).1, (run_commit c ops _ (Or.inr rfl)).1⟩

theorem rows_upTo (c : Conn σ) (l : List (σ → Option σ)) : ∀ s ∈ upTo execute c (l.map .dml), s.file = c.file := by
  induction l generalizing c with
  | nil => simp [upTo]
  | cons f l ih =>
    have e : (execute c (.dml f)).1.file = c.file := by
      unfold execute; grind
    intro s hs
    simp only [List.map_cons, upTo] at hs
    split at hs
    · rcases List.mem_cons.1 hs with rfl | hs
      · exact e
      · exact (ih _ s hs).trans e
    · simp only [List.mem_singleton] at hs
      rw [hs, e]

/-- **C173** (all or nothing). Changes of rows by `execute` and `executemany`, in any number, are not in the file before the next commit: a
process which is killed before has changed nothing. Missing: changes of the schema, hence `attach_column` (`C173_attach_counterexample`). -/
theorem C173_atomic_partial (c : Conn σ) (ops : List (Op σ)) (h : ∀ op ∈ ops, OnlyRows op) : ∀ s ∈ trace c ops, s.file = c.file := by
  have hstep : ∀ (c : Conn σ) op, OnlyRows op → ∀ s ∈ steps c op, s.file = c.file := by
    intro c op hop s hs
    cases op with
    | execute st =>
      simp only [steps, List.mem_singleton] at hs
      subst hs
      cases st with
      | ddl f => exact absurd hop (by simp [OnlyRows])
      | query => unfold execute; grind
      | dml f => unfold execute; grind
    | executemany l => exact rows_upTo c l s hs
    | executescript l => exact absurd hop (by simp [OnlyRows])
    | commit => exact absurd hop (by simp [OnlyRows])
    | finish => exact absurd hop (by simp [OnlyRows])
  induction ops generalizing c with
  | nil => simp [trace]
  | cons op ops ih =>
    intro s hs
    simp only [trace, List.mem_append] at hs
    have h1 := hstep c op (h op (by simp))
    rcases hs with hs | hs
    · exact h1 s hs
    · rw [ih _ (fun o ho => h o (by simp [ho])) s hs]
      rcases lastOf_mem c (steps c op) with h2 | h2
      · rw [h2]
      · exact h1 _ h2

/-- **C173** (schema). A change of the schema is in the file at once, if and only if no change of rows is waiting. -/
theorem C173_schema (c : Conn σ) (hc : c.isOpen = true) (f : σ → Option σ) (v : σ) (hf : f c.view = some v) :
    (run c [.execute (.ddl f)]).view = v ∧ (c.tx = false → (run c [.execute (.ddl f)]).file = v) ∧
    (c.tx = true → (run c [.execute (.ddl f)]).file = c.file) := by
  have e : run c [.execute (.ddl f)] = (execute c (.ddl f)).1 := rfl
  rw [e]
  unfold execute
  simp only [hc, if_true, hf]
  refine ⟨by split <;> rfl, fun h => by simp [h], fun h => by simp [h]⟩

/-- **C173** (schema, in programs). After any program and a commit, a change of the schema is in the file at once; after a change of
rows, also one that failed, it waits for the next commit. -/
theorem C173_schema_history (c : Conn σ) (a : List (Op σ)) (ho : (run c a).isOpen = true) (f : σ → Option σ) (v : σ) :
    (f (run c a).view = some v → (run c (a ++ [.commit, .execute (.ddl f)])).file = v) ∧
    (∀ g w, (g (run c a).view).getD (run c a).view = w → f w = some v →
      (run c (a ++ [.execute (.dml g), .execute (.ddl f)])).file = (run c a).file ∧
      (run c (a ++ [.execute (.dml g), .execute (.ddl f)])).view = v) := by
  simp only [run_append]
  generalize run c a = d at *
  constructor
  · intro hf
    show (execute (commit d) (.ddl f)).1.file = v
    simp [execute, commit, ho, hf]
  · intro g w hg hf
    show (execute (execute d (.dml g)).1 (.ddl f)).1.file = d.file ∧ (execute (execute d (.dml g)).1 (.ddl f)).1.view = v
    cases hv : g d.view with
    | none =>
      simp only [hv, Option.getD_none] at hg
      subst hg
      simp [execute, ho, hv, hf]
    | some u =>
      simp only [hv, Option.getD_some] at hg
      subst hg
      simp [execute, ho, hv, hf]

/-- **C173** (errors). A statement that raises changes neither the file nor what the connection sees. -/
theorem C173_error (c : Conn σ) (s : Stmt σ) (h : (execute c s).2 = false) :
    (run c [.execute s]).file = c.file ∧ (run c [.execute s]).view = c.view := by
  have e : run c [.execute s] = (execute c s).1 := rfl
  rw [e]
  unfold execute at *
  cases s <;> grind

/-- The states after the cursor was closed. -/
theorem closed_steps (c : Conn σ) (hc : c.isOpen = false) (hf : c.file = c.view) (op : Op σ) :
    ∀ s ∈ steps c op, s.isOpen = false ∧ s.file = c.file ∧ s.view = c.view := by
  intro s hs
  cases op with
  | execute st =>
    simp only [steps, execute, hc, List.mem_singleton] at hs
    simp at hs
    subst hs
    exact ⟨hc, rfl, rfl⟩
  | executemany l =>
    cases l with
    | nil => simp [steps, upTo] at hs
    | cons f l =>
      simp [steps, upTo, execute, hc] at hs
      subst hs
      exact ⟨hc, rfl, rfl⟩
  | executescript l => simp [steps, hc] at hs
  | commit =>
    simp only [steps, List.mem_singleton] at hs
    subst hs
    exact ⟨hc, hf.symm, rfl⟩
  | finish =>
    simp only [steps, List.mem_cons, List.not_mem_nil, or_false] at hs
    rcases hs with rfl | rfl
    · exact ⟨hc, hf.symm, rfl⟩
    · exact ⟨rfl, hf.symm, rfl⟩

/-- **C173** (finish). After `finish` nothing can be changed any more, whatever is called and how often, deletion included, and
`execute` raises. -/
theorem C173_finish (c : Conn σ) (ops : List (Op σ)) :
    (∀ s ∈ trace (run c [.finish]) ops, s.file = c.view) ∧ (del (run (run c [.finish]) ops)).file = c.view ∧
      ∀ st, (execute (run (run c [.finish]) ops) st).2 = false := by
  have gen : ∀ (ops : List (Op σ)) (d : Conn σ), d.isOpen = false → d.file = d.view → ∀ s ∈ trace d ops, s.isOpen = false ∧ s.file = d.file ∧ s.view = d.view := by
    intro ops
    induction ops with
    | nil => intro d _ _ s hs; simp [trace] at hs
    | cons op ops ih =>
      intro d h1 h2 s hs
      simp only [trace, List.mem_append] at hs
      have hst := closed_steps d h1 h2 op
      have hl : (lastOf d (steps d op)).isOpen = false ∧ (lastOf d (steps d op)).file = d.file ∧ (lastOf d (steps d op)).view = d.view := by
        rcases lastOf_mem d (steps d op) with e | e
        · rw [e]; exact ⟨h1, rfl, rfl⟩
        · exact hst _ e
      rcases hs with hs | hs
      · exact hst s hs
      · have := ih _ hl.1 (by rw [hl.2.1, hl.2.2, h2]) s hs
        exact ⟨this.1, this.2.1.trans hl.2.1, this.2.2.trans hl.2.2⟩
  have hall := gen ops (run c [.finish]) rfl rfl
  have hlast : (run (run c [.finish]) ops).isOpen = false ∧ (run (run c [.finish]) ops).view = c.view := by
    rcases lastOf_mem (run c [.finish]) (trace (run c [.finish]) ops) with e | e
    · unfold run at *; rw [e]; exact ⟨rfl, rfl⟩
    · exact ⟨(hall _ e).1, (hall _ e).2.2⟩
  refine ⟨fun s hs => (hall s hs).2.1, hlast.2, fun st => ?_⟩
  unfold execute
  rw [hlast.1]
  rfl

variable {R : Type}

/-- **C173**, counterexample: `attach_column` is not all or nothing for processes that are killed. Its first statement, `ALTER TABLE`, is in
the file at once (no transaction open). Killed before the values are committed, the file has the new column with NULL in all rows,
and repeating the call raises. -/
theorem C173_attach_counterexample (conv : Text → SqlVal R → SqlVal R) (t : Table R) (col ty : Text)
    (hcol : t.findCol col = none) (values : List (PyV R)) (fill : List (Op (Table R))) (hfill : ∀ op ∈ fill, OnlyRows op)
    (sty : Option Text) (start : Int) (extend : Bool) :
    ∃ t', t.alterAdd col ty = some t' ∧ t' ≠ t ∧ hasColumn t' col = true ∧
      (∀ s ∈ trace (connect t) (.execute (.ddl fun t => t.alterAdd col ty) :: fill), s.file = t') ∧
      attachColumn conv t' col values sty start extend false = (t', some .assertion) := by
  obtain ⟨t', ha, hh⟩ : ∃ t', t.alterAdd col ty = some t' ∧ t'.header = t.header ++ [(col, ty)] :=
    ⟨_, by simp [Table.alterAdd, hcol]; rfl, rfl⟩
  refine ⟨_, ha, ?_, by simp [hasColumn, hh], ?_, C13_attach_existing conv _ col (by simp [hh]) values sty start extend⟩
  · intro h
    have := congrArg (fun t => t.header.length) h
    simp [hh] at this
  · intro s hs
    have e : steps (connect t) (.execute (.ddl fun t => t.alterAdd col ty)) =
        [⟨t', t', false, true⟩] := by
      simp [steps, execute, connect, ha]
    simp only [trace, e, List.mem_append, List.mem_singleton] at hs
    rcases hs with rfl | hs
    · rfl
    · have := C173_atomic_partial _ fill hfill s hs
      rw [this]; rfl

theorem script_upTo (c : Conn σ) (hc : c.file = c.view) (l : List (Stmt σ)) : ∀ s ∈ upTo scriptStmt c l, s.file = s.view := by
  induction l generalizing c with
  | nil => simp [upTo]
  | cons st l ih =>
    have e : (scriptStmt c st).1.file = (scriptStmt c st).1.view := by
      unfold scriptStmt
      cases st <;> grind
    intro s hs
    simp only [upTo] at hs
    split at hs
    · rcases List.mem_cons.1 hs with rfl | hs
      · exact e
      · exact ih _ e s hs
    · simp only [List.mem_singleton] at hs
      rw [hs, e]

/-- **C173** (scripts). `executescript` commits what is waiting, and each of its statements is in the file at once. -/
theorem C173_script (c : Conn σ) (hc : c.isOpen = true) (l : List (Stmt σ)) :
    (trace c [.executescript l]).head?.map Conn.file = some c.view ∧ ∀ s ∈ trace c [.executescript l], s.file = s.view := by
  simp only [trace, List.append_nil, steps, hc, if_true]
  refine ⟨rfl, fun s hs => ?_⟩
  rcases List.mem_cons.1 hs with rfl | hs
  · rfl
  · exact script_upTo _ rfl l s hs

/-! Non-vacuity: a database which is a list of numbers. -/

/-- Insertion of a row. -/
def ins (n : Nat) : List Nat → Option (List Nat) := fun l => if n ∈ l then none else some (l ++ [n])

/-- Two insertions, a commit, an insertion that fails (a row that is already there) and one that works. -/
def exProg : List (Op (List Nat)) := [.execute (.dml (ins 1)), .executemany [ins 2, ins 3], .commit, .execute (.dml (ins 2)), .execute (.dml (ins 4))]

example : (trace (connect []) exProg).map Conn.file = [[], [], [], [1, 2, 3], [1, 2, 3], [1, 2, 3]] ∧
    (trace (connect []) exProg).map Conn.view = [[1], [1, 2], [1, 2, 3], [1, 2, 3], [1, 2, 3], [1, 2, 3, 4]] ∧
    (del (run (connect []) exProg)).file = [1, 2, 3, 4] := by
  refine ⟨?_, ?_, ?_⟩ <;> decide +kernel

example : (∀ op ∈ exProg.take 2, OnlyRows op) ∧ (execute (connect [2]) (.dml (ins 2))).2 = false := by
  refine ⟨?_, by decide +kernel⟩
  intro op h
  simp [exProg] at h
  rcases h with rfl | rfl <;> simp [OnlyRows]

example : (trace (connect []) [.execute (.dml (ins 1)), .executescript [.dml (ins 2), .dml (ins 2), .dml (ins 3)]]).map Conn.file =
    [[], [1], [1, 2], [1, 2]] := by decide +kernel

/-- Non-vacuity of the counterexample. -/
example : (⟨[("a".toList, "TEXT".toList)], []⟩ : Table ℤ).findCol "b".toList = none := by decide +kernel

end Pwtools.SqlTx
