import Verif.Model.Comb
import Verif.Model.Sql
/-!
# Model of `src/pwtools/batch.py`

`ParameterStudy.write_input` is modelled as the list of its effects on the outside world
(database file, calculation directories, `excl_push`), in program order. Running a prefix of
the list is a crash.

Simplifications: templates carry their text (reading the template file is not modelled); a
calculation directory holds plain files; paths are identified by (hostname, idx, file name),
i.e. `calc_root` and `calc_dir_prefix` are the same for all calls; the shell script `run.sh` is
represented by the list of its idx; printing is not modelled.
-/
namespace Pwtools

variable {R : Type}

/-! ## Python dicts -/

/-- `d[k] = v`: an existing key keeps its place. -/
def dictSet {V : Type} (d : List (Text × V)) (k : Text) (v : V) : List (Text × V) :=
  match d with
  | [] => [(k, v)]
  | e :: es => if e.1 = k then (k, v) :: es else e :: dictSet es k v

/-- `d.update(items)`; with `d = []` this is `dict(items)`. -/
def dictUpdate {V : Type} (d : List (Text × V)) : List (Text × V) → List (Text × V)
  | [] => d
  | e :: es => dictUpdate (dictSet d e.1 e.2) es

/-! ## FileTemplate, Machine, Calculation -/

/-- `FileTemplate`, `batch.py:75-187`. `keys = none` is the default (all keys). -/
structure Templ where
  basename : Text
  txt : Text
  keys : Option (List Text)
  func : Text → Text

/-- The default placeholder function `lambda x: 'XXX'+x.upper()`, `batch.py:129`. -/
def defaultFunc (x : Text) : Text := "XXX".toList ++ upper x

/-- A parameter: `SQLEntry` with the value as written to files. -/
abbrev Entry (R : Type) := SQLEntry R TVal

/-- The rules dict built in `FileTemplate.write(mode='sql')`, `batch.py:234-240`; `none` is the
`KeyError` for a key that is not in the record. -/
def templRules (func : Text → Text) (rec : List (Text × Entry R)) (rules : List (Text × TVal)) :
    List Text → Option (List (Text × TVal))
  | [] => some rules
  | k :: ks => match rec.lookup k with
    | none => none
    | some e => templRules func rec (dictSet rules (func k) e.fileval) ks

/-- `FileTemplate.writesql`, `batch.py:189-253`: the text written to
`<calc_dir>/<basename>`. With `keys=[]` the argument of `verbose` at `batch.py:230-231` has one
`%s` for two values, which is a `TypeError`; `none` is an exception. -/
def templText (t : Templ) (rec : List (Text × Entry R)) : Option Text :=
  match t.keys with
  | some [] => none
  | some ks => match templRules t.func rec [] ks with
    | none => none
    | some rules => templateReplace t.txt rules true
  | none => match templRules t.func rec [] (rec.map Prod.fst) with
    | none => none
    | some rules => templateReplace t.txt rules true

/-- `Machine`, `batch.py:17-72`. -/
structure Machine where
  hostname : Text
  subcmd : Option Text
  scratch : Option Text
  home : Option Text
  template : Option Templ

/-- `SQLEntry(key=key, sqlval=val)` for a `str` or `None`. -/
def optEntry (key : Text) : Option Text → Entry R
  | some s => ⟨"TEXT".toList, .str s, .str s, key⟩
  | none => ⟨"NULL".toList, .none, .other "None".toList, key⟩

/-- `Machine.get_sql_record`, `batch.py:65-72`. -/
def machineRecord (m : Machine) : List (Text × Entry R) :=
  [("subcmd".toList, optEntry "subcmd".toList m.subcmd),
   ("scratch".toList, optEntry "scratch".toList m.scratch),
   ("home".toList, optEntry "home".toList m.home)]

/-- `Calculation.__init__`, `batch.py:305-306`: `dict((e.key, e) for e in params)`. -/
def sqlRecord (params : List (Entry R)) : List (Text × Entry R) :=
  dictUpdate [] (params.map (fun e => (e.key, e)))

/-- `Calculation.__init__`, `batch.py:309-311`: the record used for replacement. -/
def writeRecord (m : Machine) (params : List (Entry R)) : List (Text × Entry R) :=
  dictUpdate (sqlRecord params) (machineRecord m)

/-! ## ParameterStudy -/

/-- `ParameterStudy.__init__`, `batch.py:431-482`. -/
structure Study (R : Type) where
  machines : List Machine
  templates : List Templ
  params : List (List (Tree (Entry R)))
  studyName : Text
  table : Text

/-- Arguments of `write_input`; `w` is `mode == 'w'`. -/
structure Opts where
  w : Bool
  backup : Bool
  excl : Bool

/-- The content of one calculation directory. -/
abbrev Files := List (Text × Text)

/-- The directory `<calc_root>/<prefix>_<hostname>`: calculation directories by idx and the
idx list of `run.sh`. -/
structure HostDir where
  dir : Nat → Option Files
  run : Option (List Nat)

/-- The outside world. `saved` is the database file with its committed tables (`none`: no
file); `cur` is what the open connection sees, including the uncommitted inserts. -/
structure World (R : Type) where
  saved : Option (Text → Option (Table R))
  cur : Text → Option (Table R)
  host : Text → Option HostDir
  excl : Option Text
  dbBackups : List (Text → Option (Table R))
  dirBackups : List (Text × HostDir)

inductive BErr where
  | noIdxColumn | typeError | sql (e : SqlErr) | template | noJobfile | noDir | noTable
  deriving DecidableEq

/-- One effect of `write_input`. -/
inductive Eff (R : Type) where
  | backupDb
  | removeDb
  | openDb
  | backupDir (h : Text)
  | purgeDir (h : Text)
  | rmCalc (h : Text) (i : Nat)
  | mkCalc (h : Text) (i : Nat)
  | writeFile (h : Text) (i : Nat) (name txt : Text)
  | runSh (h : Text) (idx : List Nat)
  | createTable (table : Text) (header : List (Text × Text))
  | ensureCol (table col typ : Text)
  | insert (table : Text) (names : List Text) (vals : List (PyV R))
  | exclPush (rev : Int)
  | commit
  | fail (e : BErr)

def setAt {V : Type} (f : Text → V) (k : Text) (v : V) : Text → V := fun x => if x = k then v else f x

/-- The directory of a host with one calculation directory changed; the host directory is
created if missing (`os.makedirs`). -/
def setCalc (host : Text → Option HostDir) (h : Text) (i : Nat) (c : Option Files) :
    Text → Option HostDir :=
  let hd := (host h).getD ⟨fun _ => none, none⟩
  setAt host h (some { hd with dir := fun j => if j = i then c else hd.dir j })

/-- The files in `<calc_dir>/<idx>`. -/
def World.calcOf (w : World R) (h : Text) (i : Nat) : Option Files :=
  (w.host h).bind (fun hd => hd.dir i)

/-- Text of a database value, for `excl_push` (`str(x)`, `batch.py:610-611`). Only integers occur in
the idx column; other values are not modelled in detail. -/
def cellText : SqlVal R → Text
  | .int i => strInt i
  | .text s => s
  | _ => "None".toList

/-- `revision < ?` for a stored value (NULL compares to NULL, i.e. not true). -/
def revLt (rev : Int) : SqlVal R → Bool
  | .int i => i < rev
  | _ => false

/-- The effect of one step. -/
def step (conv : Text → SqlVal R → SqlVal R) (w : World R) : Eff R → Except BErr (World R)
  -- `batch.py:524-526`
  | .backupDb => .ok { w with dbBackups := w.dbBackups ++ (w.saved.toList) }
  -- `batch.py:527-528`
  | .removeDb => .ok { w with saved := none, cur := fun _ => none }
  -- `batch.py:532`: connecting creates an empty file if there is none
  | .openDb => let tabs := w.saved.getD (fun _ => none)
    .ok { w with saved := some tabs, cur := tabs }
  -- `batch.py:557-559`
  | .backupDir h => .ok (match w.host h with
    | none => w
    | some hd => { w with dirBackups := w.dirBackups ++ [(h, hd)] })
  -- `batch.py:560-561`
  | .purgeDir h => .ok { w with host := setAt w.host h none }
  -- `batch.py:581-582`
  | .rmCalc h i => .ok (match w.calcOf h i with
    | none => w
    | some _ => { w with host := setCalc w.host h i none })
  -- `batch.py:326-327`
  | .mkCalc h i => .ok (match w.calcOf h i with
    | none => { w with host := setCalc w.host h i (some []) }
    | some _ => w)
  -- `batch.py:250`
  | .writeFile h i name txt => match w.calcOf h i with
    | none => .error .noDir
    | some fs => .ok { w with host := setCalc w.host h i (some (dictSet fs name txt)) }
  -- `batch.py:588`
  | .runSh h idx => match w.host h with
    | none => .error .noDir
    | some hd => .ok { w with host := setAt w.host h (some { hd with run := some idx }) }
  -- `batch.py:597`; DDL outside a transaction is committed at once
  | .createTable table header => match w.cur table with
    | some _ => .error (.sql .operational)
    | none => match createTable header with
      | .error e => .error (.sql e)
      | .ok t => .ok { w with cur := setAt w.cur table (some t),
                              saved := some (setAt w.cur table (some t)) }
  -- `batch.py:599-602`
  | .ensureCol table col typ => match w.cur table with
    | none => .error .noTable
    | some t => match addColumn t col typ with
      | .error e => .error (.sql e)
      | .ok t' => .ok { w with cur := setAt w.cur table (some t'),
                               saved := some (setAt w.cur table (some t')) }
  -- `batch.py:603-608`, stays in the open transaction
  | .insert table names vals => match w.cur table with
    | none => .error .noTable
    | some t => match mapE bindVal vals with
      | none => .error (.sql .badValue)
      | some vs => match t.insert conv names vs with
        | none => .error (.sql .operational)
        | some t' => .ok { w with cur := setAt w.cur table (some t') }
  -- `batch.py:609-613`: reads the table named `calc`, whatever `db_table` is
  | .exclPush rev => match w.cur "calc".toList with
    | none => .error .noTable
    | some t =>
      if (t.findCol "idx".toList).isSome ∧ (t.findCol "revision".toList).isSome then
        .ok { w with excl := some (joinSep ['\n'] ((t.rows.filter
          (fun r => revLt rev (r.cell (fold "revision".toList)))).map
          (fun r => cellText (r.cell (fold "idx".toList))))) }
      else .error (.sql .operational)
  -- `sqldb.finish()`, `batch.py:614`
  | .commit => .ok { w with saved := some w.cur }
  | .fail e => .error e

/-- Run effects in order, stop at the first exception. -/
def runEffs (conv : Text → SqlVal R → SqlVal R) : World R → List (Eff R) → World R × Option BErr
  | w, [] => (w, none)
  | w, e :: es => match step conv w e with
    | .ok w' => runEffs conv w' es
    | .error er => (w, some er)

/-- Largest integer in a column, `select max(col)`; NULLs are ignored. Only integer columns are
modelled. -/
def maxInt : List (SqlVal R) → Option Int
  | [] => none
  | .int i :: vs => match maxInt vs with
    | none => some i
    | some j => some (if i < j then j else i)
  | _ :: vs => maxInt vs

/-- Numbering in append mode, `batch.py:538-548`: the first new idx and the new revision. An
empty table makes `max(...)` NULL, which is a `TypeError` at `batch.py:546` or `:568`. A
negative largest idx cannot be written by `write_input`; it is modelled as a `TypeError`. -/
def numbering (t : Option (Table R)) : Except BErr (Nat × Nat) :=
  match t with
  | none => .error .noIdxColumn
  | some t =>
    if hasColumn t "idx".toList then
      match maxInt (t.rows.map (fun r => r.cell (fold "idx".toList))) with
      | none => .error .typeError
      | some m =>
        if hasColumn t "revision".toList then
          match maxInt (t.rows.map (fun r => r.cell (fold "revision".toList))) with
          | none => .error .typeError
          | some rv => if 0 ≤ m ∧ 0 ≤ rv then .ok (m.toNat + 1, rv.toNat + 1) else .error .typeError
        else if 0 ≤ m then .ok (m.toNat + 1, 0) else .error .typeError
    else .error .noIdxColumn

/-- `SQLEntry(key=key, sqlval=val)` for an int. -/
def natEntry (key : Text) (n : Nat) : Entry R :=
  ⟨"INTEGER".toList, .int n, .other (strNat n), key⟩

/-- `SQLEntry(key=key, sqlval=val)` for a str. -/
def strEntry (key s : Text) : Entry R := ⟨"TEXT".toList, .str s, .str s, key⟩

/-- `extra_params`, `batch.py:567-574`. -/
def extraParams (s : Study R) (rev idx : Nat) : List (Entry R) :=
  [natEntry "revision".toList rev, strEntry "study_name".toList s.studyName,
   natEntry "idx".toList idx,
   strEntry "calc_name".toList (s.studyName ++ "_run".toList ++ strNat idx)]

/-- All parameters of one calculation, `batch.py:564,578`. -/
def allParams (s : Study R) (rev idx : Nat) (p : List (Tree (Entry R))) : List (Entry R) :=
  flatten p ++ extraParams s rev idx

/-- Writing the templates of one calculation, `batch.py:328-329`. -/
def templEffs (h : Text) (i : Nat) (rec : List (Text × Entry R)) : List Templ → List (Eff R)
  | [] => []
  | t :: ts => match templText t rec with
    | none => [.fail .template]
    | some txt => .writeFile h i t.basename txt :: templEffs h i rec ts

/-- One calculation on one machine, `batch.py:565-587`. -/
def calcEffs (s : Study R) (o : Opts) (m : Machine) (rev idx : Nat) (p : List (Tree (Entry R))) :
    List (Eff R) :=
  (if o.w then [.rmCalc m.hostname idx] else []) ++ [.mkCalc m.hostname idx] ++
  templEffs m.hostname idx (writeRecord m (allParams s rev idx p)) (s.templates ++ m.template.toList) ++
  (if m.template.isNone then [.fail .noJobfile] else [])

/-- The loop over parameter sets of one machine, `batch.py:563-587`. -/
def paramEffs (s : Study R) (o : Opts) (m : Machine) (rev : Nat) :
    Nat → List (List (Tree (Entry R))) → List (Eff R)
  | _, [] => []
  | idx, p :: ps => calcEffs s o m rev idx p ++ paramEffs s o m rev (idx + 1) ps

/-- One machine, `batch.py:553-588`. -/
def machineEffs (s : Study R) (o : Opts) (rev next : Nat) (m : Machine) : List (Eff R) :=
  (if o.backup then [.backupDir m.hostname] else []) ++
  (if o.w then [.purgeDir m.hostname] else []) ++
  paramEffs s o m rev next s.params ++
  [.runSh m.hostname (List.range' next s.params.length)]

/-- The database records, `batch.py:589-590`: those of the first machine, with the hostnames of
all machines. -/
def dbRecords (s : Study R) (rev : Nat) : Nat → List (List (Tree (Entry R))) →
    List (List (Text × Entry R))
  | _, [] => []
  | idx, p :: ps =>
    dictSet (sqlRecord (allParams s rev idx p)) "hostname".toList
      (strEntry "hostname".toList (joinSep [','] (s.machines.map Machine.hostname)))
    :: dbRecords s rev (idx + 1) ps

/-- `raw_header`, `batch.py:593-594`. -/
def rawHeader (recs : List (List (Text × Entry R))) : List (Text × Text) :=
  recs.flatMap (fun rec => rec.map (fun e => (e.1, upper e.2.sqltype)))

/-- `list(set(l))`; the order is not specified by Python, here: order of last occurrence. -/
def pyUnique (l : List (Text × Text)) : List (Text × Text) :=
  l.foldr (fun x acc => if x ∈ acc then acc else x :: acc) []

/-- Database part, `batch.py:593-614`. -/
def dbEffs (s : Study R) (o : Opts) (newDb : Bool) (rev : Nat) (recs : List (List (Text × Entry R))) :
    List (Eff R) :=
  (if newDb then [.createTable s.table (pyUnique (rawHeader recs))]
   else (rawHeader recs).map (fun e => .ensureCol s.table e.1 e.2)) ++
  recs.map (fun rec => .insert s.table (rec.map Prod.fst) (rec.map (fun e => e.2.sqlval))) ++
  (if o.excl ∧ 0 < rev then [.exclPush rev] else []) ++
  [.commit]

/-- The part of `write_input` behind the numbering. -/
def mainEffs (s : Study R) (o : Opts) (newDb : Bool) (next rev : Nat) : List (Eff R) :=
  s.machines.flatMap (machineEffs s o rev next) ++
  dbEffs s o newDb rev (if s.machines.isEmpty then [] else dbRecords s rev next s.params)

/-- `write_input`, `batch.py:484-614`, as a list of effects; the world is only read to find out
whether there is a database and what its numbers are. -/
def plan (s : Study R) (o : Opts) (w : World R) : List (Eff R) :=
  match w.saved with
  | none => .openDb :: mainEffs s o true 0 0
  | some tabs =>
    (if o.backup then [.backupDb] else []) ++
    if o.w then [.removeDb, .openDb] ++ mainEffs s o true 0 0
    else .openDb :: (match numbering (tabs s.table) with
      | .error e => [.fail e]
      | .ok (next, rev) => mainEffs s o false next rev)

/-- The world as a new process finds it: there is no open connection, what counts is the file. -/
def World.start (w : World R) : World R := { w with cur := w.saved.getD (fun _ => none) }

/-- `ParameterStudy.write_input` run to its end (return or exception). -/
def writeInput (conv : Text → SqlVal R → SqlVal R) (s : Study R) (o : Opts) (w : World R) :
    World R × Option BErr :=
  runEffs conv w.start (plan s o w)

/-- The process is killed after `k` effects: uncommitted inserts are lost. -/
def killedAfter (conv : Text → SqlVal R → SqlVal R) (s : Study R) (o : Opts) (w : World R) (k : Nat) :
    World R :=
  (runEffs conv w.start ((plan s o w).take k)).1

/-- An exception (or Ctrl-C) after `k` effects: `SQLiteDB.__del__` (`sql.py:509-510`) commits
what was inserted so far. -/
def raisedAfter (conv : Text → SqlVal R → SqlVal R) (s : Study R) (o : Opts) (w : World R) (k : Nat) :
    World R :=
  let w' := (runEffs conv w.start ((plan s o w).take k)).1
  { w' with saved := w'.saved.map (fun _ => w'.cur) }

end Pwtools
