import Verif.Model.Batch
import Verif.Model.SqlQuery
/-!
# Model of a script which puts results of a parameter study into its database

`examples/parameter_study/10local_lammps_ev/30gather.py` (and `20cluster_pwscf_convergence/30gather.py`), with the parts of `SQLiteDB` it uses. Tables, type affinity and the open connection are as in
`Model/Sql.lean` and `Model/Batch.lean`. Not modelled: the files `results/<idx>/...` themselves; `results` below gives what is loaded from them.
-/
namespace Pwtools.Gather

variable {R D : Type}

/-- One gathered quantity: column name and type (`cols`, `30gather.py:10-17`) and the value taken from the loaded object (`struct.etot`, ..., `30gather.py:23-30`). -/
structure Col (R D : Type) where
  name : Text
  typ : Text
  value : D → PyV R

/-- The script: table, quantities, and what is loaded for each idx (`none`: no file, or it cannot be loaded). -/
structure Script (R D : Type) where
  table : Text
  cols : List (Col R D)
  results : Int → Option D

/-- Effects: those of `Model/Batch.lean` (used: adding a column, commit, exception), and `update <table> set <col>=? where idx==?`. -/
inductive GEff (R : Type) where
  | base (e : Eff R)
  | update (table : Text) (idx : Int) (col : Text) (v : PyV R)

/-- `idx==?` for a stored value and an integer. Only integers are in the idx column, other values are not modelled. -/
def idxIs (i : Int) : SqlVal R → Bool
  | .int j => j = i
  | _ => false

/-- `update <table> set <col>=? where idx==?`, `30gather.py:23-30`: all rows with that idx. -/
def updateIdx (conv : Text → SqlVal R → SqlVal R) (t : Table R) (i : Int) (col : Text) (v : SqlVal R) : Table R :=
  { t with rows := t.rows.map fun r =>
      if idxIs i (r.cell (fold "idx".toList)) then r.set (fold col) (store conv (((t.findCol col).map Prod.snd).getD []) v) else r }

/-- One effect. The update stays in the open transaction. -/
def gstep (conv : Text → SqlVal R → SqlVal R) (w : World R) : GEff R → Except BErr (World R)
  | .base e => step conv w e
  | .update table i col v => match w.cur table with
    | none => .error .noTable
    | some t => match bindVal v with
      | none => .error (.sql .badValue)
      | some v' =>
        if (t.findCol col).isSome ∧ (t.findCol "idx".toList).isSome then .ok { w with cur := setAt w.cur table (some (updateIdx conv t i col v')) }
        else .error (.sql .operational)

/-- Effects in order, until the first exception. -/
def grun (conv : Text → SqlVal R → SqlVal R) : World R → List (GEff R) → World R × Option BErr
  | w, [] => (w, none)
  | w, e :: es => match gstep conv w e with
    | .ok w' => grun conv w' es
    | .error er => (w, some er)

/-- The body of the loop, `30gather.py:20-30`: load the results, update each column. A value which is no integer: `'%i' % idx` raises. -/
def body (s : Script R D) : PyV R → List (GEff R)
  | .int i => match s.results i with
    | none => [.base (.fail .noDir)]
    | some d => s.cols.map fun c => .update s.table i c.name (c.value d)
  | _ => [.base (.fail .typeError)]

/-- The script, `30gather.py:7-31`: `get_list1d("select idx from calc")`, `add_columns(cols)` (`sql.py:302-321`), the loop, `commit`. The database file is there
(connecting would create an empty one). -/
def gplan (s : Script R D) (w : World R) : List (GEff R) :=
  match (w.saved.getD fun _ => none) s.table with
  | none => [.base (.fail .noTable)]
  | some t => match selectCols t ["idx".toList] with
    | none => [.base (.fail (.sql .operational))]
    | some rows =>
      (fixSqlHeader (s.cols.map fun c => (c.name, c.typ))).map (fun h => .base (.ensureCol s.table h.1 h.2)) ++
      (SqlQ.getList1d rows).flatMap (body s) ++ [.base .commit]

/-- The script run to its end (return or exception). -/
def gather (conv : Text → SqlVal R → SqlVal R) (s : Script R D) (w : World R) : World R × Option BErr := grun conv w.start (gplan s w)

/-- The state after the first `k` effects. -/
def after (conv : Text → SqlVal R → SqlVal R) (s : Script R D) (w : World R) (k : Nat) : World R × Option BErr := grun conv w.start ((gplan s w).take k)

/-- The process ends with an exception: `SQLiteDB.__del__` (`sql.py:509-510`) commits what was updated so far. If it is killed, only what was committed is left, that is `w` itself. -/
def closed (w : World R) : World R := { w with saved := w.saved.map fun _ => w.cur }

end Pwtools.Gather
