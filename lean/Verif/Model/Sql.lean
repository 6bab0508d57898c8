import Verif.Model.Common
/-!
# Model of `src/pwtools/sql.py`

A table is a header (column names with declared types, in order) and rows. A row has its
sqlite `rowid` and a value for each column name. Column names are compared without regard
to case inside sqlite (`fold`), but case-sensitively by `SQLiteDB.has_column`.

Simplifications: table and column names are plain identifiers (no quoting, no reserved
words), no constraints, defaults, triggers, `INTEGER PRIMARY KEY` or concurrent users. Disk
errors do not occur. A NaN, which sqlite stores as NULL, is not a value of `R`.
-/
namespace Pwtools

/-- A Python value handed to the sql helpers, by its Python type. `R` is the type of floats. -/
inductive PyV (R : Type) where
  | none
  | bool (b : Bool)
  | int (i : Int)
  | float (r : R)
  | str (s : Text)
  | mem (b : Text)
  | other (n : Nat)
  deriving DecidableEq

/-- A value stored in sqlite. -/
inductive SqlVal (R : Type) where
  | null
  | int (i : Int)
  | real (r : R)
  | text (s : Text)
  | blob (b : Text)
  deriving DecidableEq

/-- Python types (`type(x)`), used by `sql_column`, `sql.py:575`. -/
inductive PyTy where
  | none | bool | int | float | str | mem | other (n : Nat)
  deriving DecidableEq

variable {R : Type}

/-- `type(x)`; two `other` values have the same type iff they have the same tag. -/
def PyV.ty : PyV R → PyTy
  | .none => .none
  | .bool _ => .bool
  | .int _ => .int
  | .float _ => .float
  | .str _ => .str
  | .mem _ => .mem
  | .other n => .other n

/-- `find_sqltype`, `sql.py:18-41`: the first type in the mapping of which the value is an
instance (`bool` is a subclass of `int`); `none` is the exception for unknown types. -/
def findSqltype : PyV R → Option Text
  | .none => some "NULL".toList
  | .bool _ => some "INTEGER".toList
  | .int _ => some "INTEGER".toList
  | .float _ => some "REAL".toList
  | .str _ => some "TEXT".toList
  | .mem _ => some "BLOB".toList
  | .other _ => .none

/-- `str.upper()`, for ASCII letters only. -/
def upper (s : Text) : Text := s.map Char.toUpper

/-- `fix_sqltype`, `sql.py:44-59`. -/
def fixSqltype (sqltype : Text) : Text :=
  let st := upper sqltype
  if st = "FLOAT".toList then "REAL".toList else st

/-- `fix_sql_header`, `sql.py:62-64`. -/
def fixSqlHeader (header : List (Text × Text)) : List (Text × Text) :=
  header.map (fun x => (x.1, fixSqltype x.2))

/-- `SQLEntry`, `sql.py:79-128`. `F` is the type of values as they appear in files. -/
structure SQLEntry (R F : Type) where
  sqltype : Text
  sqlval : PyV R
  fileval : F
  key : Text

/-- `SQLEntry.__init__`, `sql.py:124-128`, with `fileval` already resolved (`fileval` if
given, else the value itself). `none` is the exception of `find_sqltype`. -/
def mkEntry {F : Type} (sqlval : PyV R) (sqltype : Option Text) (fileval : F) (key : Text) :
    Option (SQLEntry R F) :=
  match sqltype with
  | some t => some ⟨fixSqltype t, sqlval, fileval, key⟩
  | .none => (findSqltype sqlval).map (fun t => ⟨t, sqlval, fileval, key⟩)

inductive SqlErr where
  | assertion | typeError | operational | indexError | badType | badValue
  deriving DecidableEq

/-- All items of a list are equal to the first one: `len(set(l)) == 1`. -/
def oneKind {α : Type} [DecidableEq α] : List α → Bool
  | [] => false
  | a :: as => as.all (fun b => b = a)

/-- `sql_column`, `sql.py:535-584`. -/
def sqlColumn {A F : Type} (key : Text) (lst : List A) (sqltype : Option Text)
    (sqlvalFunc : A → PyV R) (filevalFunc : A → F) : Except SqlErr (List (SQLEntry R F)) :=
  let sqlvals := lst.map sqlvalFunc
  let filevals := lst.map filevalFunc
  if oneKind (sqlvals.map PyV.ty) then
    match sqlvals with
    | [] => .error .indexError
    | v :: _ =>
      match (match sqltype with | some t => some (upper t) | .none => findSqltype v) with
      | .none => .error .badType
      | some st =>
        .ok ((sqlvals.zip filevals).map (fun p => ⟨fixSqltype st, p.1, p.2, key⟩))
  else .error .assertion

/-! ## Tables -/

/-- sqlite's comparison of names: ASCII case is ignored. -/
def fold (s : Text) : Text := s.map Char.toLower

structure Row (R : Type) where
  rowid : Nat
  /-- value per folded column name; NULL for names which are no columns -/
  cell : Text → SqlVal R

/-- The row with one cell changed; `c` is a folded name. -/
def Row.set (r : Row R) (c : Text) (v : SqlVal R) : Row R :=
  ⟨r.rowid, fun x => if x = c then v else r.cell x⟩

structure Table (R : Type) where
  header : List (Text × Text)
  rows : List (Row R)

/-- The value of a bound Python parameter (sqlite3 module, types listed in
`sql.py:112-122`); `none` is "type not supported". -/
def bindVal : PyV R → Option (SqlVal R)
  | .none => some .null
  | .bool b => some (.int (if b then 1 else 0))
  | .int i => some (.int i)
  | .float r => some (.real r)
  | .str s => some (.text s)
  | .mem b => some (.blob b)
  | .other _ => .none

/-- Storing a value in a column of declared type `typ` (sqlite type affinity): NULL, blobs and
values of the declared class stay as they are. What happens to values of another class is the
parameter `conv`. -/
def store (conv : Text → SqlVal R → SqlVal R) (typ : Text) (v : SqlVal R) : SqlVal R :=
  match v with
  | .null => .null
  | .int _ => if typ = "INTEGER".toList then v else conv typ v
  | .real _ => if typ = "REAL".toList then v else conv typ v
  | .text _ => if typ = "TEXT".toList then v else conv typ v
  | .blob _ => v

/-- The column sqlite finds for a name. -/
def Table.findCol (t : Table R) (name : Text) : Option (Text × Text) :=
  t.header.find? (fun h => fold h.1 = fold name)

/-- `get_max_rowid`, `sql.py:323-331`: `none` is NULL (empty table). -/
def Table.maxRowid (t : Table R) : Option Nat :=
  (t.rows.map Row.rowid).max?

/-- `select <col> from <table> where rowid==?` as used at `sql.py:371-372`. -/
def Table.get (t : Table R) (rowid : Nat) (col : Text) : Option (SqlVal R) :=
  (t.rows.find? (fun r => r.rowid = rowid)).map (fun r => r.cell (fold col))

/-- The row made by `insert into <table> (names) values (vals)`: rowid one more than the
largest one, columns not named are NULL. -/
def Table.newRow (conv : Text → SqlVal R → SqlVal R) (t : Table R) (names : List Text)
    (vals : List (SqlVal R)) : Row R :=
  ⟨t.maxRowid.getD 0 + 1, fun c =>
    match (names.zip vals).find? (fun p => fold p.1 = c) with
    | some p => store conv (((t.findCol p.1).map Prod.snd).getD []) p.2
    | .none => .null⟩

/-- `insert into <table> (names) values (vals)`: a new row behind the last one. `none` is
sqlite's error for unknown columns or a wrong number of values. -/
def Table.insert (conv : Text → SqlVal R → SqlVal R) (t : Table R) (names : List Text)
    (vals : List (SqlVal R)) : Option (Table R) :=
  if names.length = vals.length ∧ ∀ n ∈ names, (t.findCol n).isSome then
    some ⟨t.header, t.rows ++ [t.newRow conv names vals]⟩
  else .none

/-- `update <table> set <col>=? where rowid==?`, `sql.py:375-376`: no row, no effect. -/
def Table.update (conv : Text → SqlVal R → SqlVal R) (t : Table R) (rowid : Nat) (col : Text)
    (v : SqlVal R) : Table R :=
  let typ := ((t.findCol col).map Prod.snd).getD []
  { t with rows := t.rows.map (fun r =>
      if r.rowid = rowid then r.set (fold col) (store conv typ v) else r) }

/-- `has_column`, `sql.py:270-282`: compares names case-sensitively. -/
def hasColumn (t : Table R) (col : Text) : Bool := t.header.any (fun h => h.1 = col)

/-- `ALTER TABLE ... ADD COLUMN`: sqlite refuses a name that differs only in case. -/
def Table.alterAdd (t : Table R) (col typ : Text) : Option (Table R) :=
  if (t.findCol col).isSome then .none
  else some { header := t.header ++ [(col, typ)],
              rows := t.rows.map (fun r => r.set (fold col) .null) }

/-- `add_column`, `sql.py:284-300`. -/
def addColumn (t : Table R) (col sqltype : Text) : Except SqlErr (Table R) :=
  if hasColumn t col then .ok t
  else match t.alterAdd col (fixSqltype sqltype) with
    | some t' => .ok t'
    | .none => .error .operational

/-- The loop of `add_columns`, `sql.py:320-321`. -/
def addColumnsLoop (t : Table R) : List (Text × Text) → Except SqlErr (Table R)
  | [] => .ok t
  | (c, ty) :: rest => match addColumn t c ty with
    | .ok t' => addColumnsLoop t' rest
    | .error e => .error e

/-- `add_columns`, `sql.py:302-321`. -/
def addColumns (t : Table R) (header : List (Text × Text)) : Except SqlErr (Table R) :=
  addColumnsLoop t (fixSqlHeader header)

/-- `create_table`, `sql.py:434-446`: sqlite refuses an empty list of columns and names that
occur twice. -/
def createTable (header : List (Text × Text)) : Except SqlErr (Table R) :=
  if header = [] ∨ ¬ (header.map (fun h => fold h.1)).Nodup then .error .operational
  else .ok ⟨fixSqlHeader header, []⟩

/-- `_val is None` for the result of the select, `sql.py:371-374`; no row at all fails the
assertion in `get_single` (`sql.py:458`). -/
def isNull : Option (SqlVal R) → Bool
  | some .null => true
  | _ => false

/-- The loop of `fill_column`, `sql.py:367-381`. The table is returned also when the loop
raises: the statements already executed stay in the open transaction, which `finish` and
`__del__` commit. `rowid` can be zero or negative when the caller's `start` is. -/
def fillLoop (conv : Text → SqlVal R → SqlVal R) (col : Text) (extend overwrite : Bool)
    (maxrowid : Nat) (t : Table R) (rowid : Int) :
    List (PyV R) → Table R × Option SqlErr
  | [] => (t, .none)
  | val :: values =>
    if rowid ≤ maxrowid then
      let old : Option (SqlVal R) := if rowid < 1 then .none else t.get rowid.toNat col
      if overwrite = false ∧ ¬ isNull old then (t, some .assertion)
      else match bindVal val with
        | .none => (t, some .badValue)
        | some v =>
          let t' := if rowid < 1 then t else t.update conv rowid.toNat col v
          fillLoop conv col extend overwrite maxrowid t' (rowid + 1) values
    else
      if extend then
        match bindVal val with
        | .none => (t, some .badValue)
        | some v => match t.insert conv [col] [v] with
          | .none => (t, some .operational)
          | some t' => fillLoop conv col extend overwrite maxrowid t' (rowid + 1) values
      else fillLoop conv col extend overwrite maxrowid t (rowid + 1) values

/-- `fill_column`, `sql.py:333-381`. Comparing with the NULL of an empty table is a
`TypeError`, `sql.py:366,369`. -/
def fillColumn (conv : Text → SqlVal R → SqlVal R) (t : Table R) (col : Text)
    (values : List (PyV R)) (start : Int) (extend overwrite : Bool) : Table R × Option SqlErr :=
  if hasColumn t col then
    match t.maxRowid with
    | .none => if extend ∧ values.isEmpty then (t, .none) else (t, some .typeError)
    | some m =>
      if extend = false ∧ ¬ start ≤ m then (t, some .assertion)
      else fillLoop conv col extend overwrite m t start values
  else (t, some .assertion)

/-- `attach_column`, `sql.py:383-415`. -/
def attachColumn (conv : Text → SqlVal R → SqlVal R) (t : Table R) (col : Text)
    (values : List (PyV R)) (sqltype : Option Text) (start : Int) (extend overwrite : Bool) :
    Table R × Option SqlErr :=
  if overwrite = false ∧ hasColumn t col then (t, some .assertion)
  else
    match (match sqltype with
      | some ty => Except.ok ty
      | .none => match values with
        | [] => .error SqlErr.indexError
        | v :: _ => match findSqltype v with
          | some ty => .ok ty
          | .none => .error .badType) with
    | .error e => (t, some e)
    | .ok ty =>
      match addColumn t col ty with
      | .error e => (t, some e)
      | .ok t' => fillColumn conv t' col values start extend overwrite

/-! ## get_dict, makedb -/

/-- `select c1,c2,... from <table>` + `fetchall()`; `none` is "no such column". Rows come in
rowid order. -/
def selectCols (t : Table R) (cols : List Text) : Option (List (List (SqlVal R))) :=
  if ∀ c ∈ cols, (t.findCol c).isSome then
    some (t.rows.map (fun r => cols.map (fun c => r.cell (fold c))))
  else .none

/-- `dct[col].append(v)`, `sql.py:497`. -/
def dictAppend {V : Type} (dct : List (Text × List V)) (col : Text) (v : V) : List (Text × List V) :=
  dct.map (fun e => if e.1 = col then (e.1, e.2 ++ [v]) else e)

/-- The inner loop of `get_dict`, `sql.py:496-497`. -/
def dictRow {V : Type} (dct : List (Text × List V)) : List Text → List V → List (Text × List V)
  | c :: cs, v :: vs => dictRow (dictAppend dct c v) cs vs
  | _, _ => dct

/-- Keys of `dict((col, []) for col in cols)`, `sql.py:491`. -/
def dictKeys : List Text → List Text
  | [] => []
  | c :: cs => c :: (dictKeys cs).filter (fun d => d ≠ c)

/-- `get_dict`, `sql.py:473-498`, for the result rows `ret` of a statement with the column
names `cols`. -/
def getDict {V : Type} (cols : List Text) (ret : List (List V)) : List (Text × List V) :=
  ret.foldl (fun dct row => dictRow dct cols row) ((dictKeys cols).map (fun c => (c, [])))

/-- The check of append mode in `makedb`, `sql.py:734-741`. -/
def checkHeader (t : Table R) : List (Text × Text) → Bool
  | [] => true
  | (col, typ) :: rest =>
    (match t.header.find? (fun h => h.1 = col) with
      | .none => false
      | some h => typ = h.2) && checkHeader t rest

/-- `find_sqltype` over the first row, `sql.py:728`. -/
def rowTypes (row : List (PyV R)) : Option (List Text) := mapE findSqltype row

/-- One row through `sql_matrix` (`sql.py:661-671`): an `IndexError` if it is longer than the
header, else `sqlval_func` of its column is applied to each entry. -/
def matrixRow (sqlvalFuncs : Text → PyV R → PyV R) (colnames : List Text) (row : List (PyV R)) :
    Option (List (PyV R)) :=
  if row.length ≤ colnames.length then
    some (List.zipWith (fun c v => sqlvalFuncs c v) colnames row)
  else .none

/-- The insert loop of `makedb`, `sql.py:743-748`; stops at the first error, what was inserted
before stays. -/
def insertLoop (conv : Text → SqlVal R → SqlVal R) (t : Table R) (colnames : List Text) :
    List (List (PyV R)) → Table R × Option SqlErr
  | [] => (t, .none)
  | row :: rows => match mapE bindVal row with
    | .none => (t, some .badValue)
    | some vals => match t.insert conv colnames vals with
      | .none => (t, some .operational)
      | some t' => insertLoop conv t' colnames rows

/-- `makedb`, `sql.py:674-753`, on the content of the table before the call (`none`: no file
or no such table). `w` is `mode == 'w'`. The table name is taken as given (deriving it from
the file name, `sql.py:715-722`, is not modelled). Result: the table afterwards (if any) and
the exception. -/
def makedb (conv : Text → SqlVal R → SqlVal R) (old : Option (Table R)) (w : Bool)
    (lists : List (List (PyV R))) (colnames : List Text)
    (sqlvalFuncs : Text → PyV R → PyV R) : Option (Table R) × Option SqlErr :=
  match lists with
  | [] => (old, some .indexError)
  | first :: _ =>
    if colnames.length ≠ first.length then (old, some .assertion)
    else
      let old' := if w then .none else old
      match rowTypes first with
      | .none => (old', some .badType)
      | some types =>
        let header := colnames.zip types
        match (match old' with
          | .none => createTable header
          | some t => if checkHeader t header then .ok t else .error SqlErr.assertion) with
        | .error e => (old', some e)
        | .ok t =>
          match mapE (matrixRow sqlvalFuncs colnames) lists with
          | .none => (some t, some .indexError)
          | some rows =>
            let r := insertLoop conv t colnames rows
            (some r.1, r.2)

end Pwtools
