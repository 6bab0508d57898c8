import Verif.Model.Batch
import Verif.Spec.Sql
/-!
# Specifications for C15 – C19
-/
namespace Pwtools.Spec
variable {R : Type}

/-- The last entry with a given key. -/
def lastWith (l : List (Entry R)) (key : Text) : Option (Entry R) :=
  (l.filter (fun e => e.key = key)).getLast?

/-- Columns filled in by `write_input` itself. -/
def adminKeys : List Text :=
  ["revision".toList, "study_name".toList, "idx".toList, "calc_name".toList, "hostname".toList]

/-- One call of `write_input`. -/
structure Call (R : Type) where
  study : Study R
  opts : Opts

/-- What one row of the database is expected to stand for. -/
structure Planned (R : Type) where
  rev : Nat
  study : Study R
  params : List (Tree (Entry R))

/-- The revision of the next call in append mode: one more than that of the last row. -/
def nextRev (rows : List (Planned R)) : Nat :=
  match rows.getLast? with
  | none => 0
  | some r => r.rev + 1

/-- The rows expected after one more call: mode 'w' starts anew with revision 0, mode 'a' adds
rows to the end. -/
def planned (rows : List (Planned R)) (c : Call R) : List (Planned R) :=
  if c.opts.w then c.study.params.map (fun p => ⟨0, c.study, p⟩)
  else rows ++ c.study.params.map (fun p => ⟨nextRev rows, c.study, p⟩)

/-- The rows expected after a history of calls. -/
def plannedAll (calls : List (Call R)) : List (Planned R) := calls.foldl planned []

/-- A history of calls that all returned without an exception, starting without a database. -/
inductive History (conv : Text → SqlVal R → SqlVal R) : List (Call R) → World R → Prop
  | start (w : World R) : w.saved = none → History conv [] w
  | call (calls : List (Call R)) (w : World R) (c : Call R) (w' : World R) : History conv calls w →
      writeInput conv c.study c.opts w = (w', none) → History conv (calls ++ [c]) w'

/-- A database row is the one expected at position `k` of the table: numbers, names, and for
each key of the parameter set the value of the last entry with that key, as stored in a column
of that name; NULL in all other columns. -/
structure RowIs (conv : Text → SqlVal R → SqlVal R) (header : List (Text × Text)) (k : Nat)
    (pl : Planned R) (r : Row R) : Prop where
  idx : r.cell "idx".toList = .int k
  revision : r.cell "revision".toList = .int pl.rev
  study : r.cell "study_name".toList = .text pl.study.studyName
  calcName : r.cell "calc_name".toList = .text (pl.study.studyName ++ "_run".toList ++ strNat k)
  hostname : r.cell "hostname".toList = .text (joinSep [','] (pl.study.machines.map Machine.hostname))
  param : ∀ key e, key ∉ adminKeys → lastWith (flatten pl.params) key = some e →
    ∃ ty v, (key, ty) ∈ header ∧ bindVal e.sqlval = some v ∧ r.cell (fold key) = store conv ty v
  other : ∀ h ∈ header, h.1 ∉ adminKeys → lastWith (flatten pl.params) h.1 = none →
    r.cell (fold h.1) = .null

/-- The text of the file `b` in a calculation directory after writing the templates `ts` with
record `rec` into a directory with the files `base`: the last template of that name decides. -/
def fileAfter (rec : List (Text × Entry R)) (ts : List Templ) (base : Files) (b : Text) : Option Text :=
  match (ts.filter (fun t => t.basename = b)).getLast? with
  | some t => templText t rec
  | none => base.lookup b

end Pwtools.Spec
