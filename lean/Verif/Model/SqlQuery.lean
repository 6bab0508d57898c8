import Verif.Model.Sql
import Verif.Model.Comb
/-!
# Model of the tables and the query helpers of `SQLiteDB` (`src/pwtools/sql.py`)

A database is a list of named tables (`Model/Sql.lean`) and the table which is currently set. Same simplifications as there.
-/
namespace Pwtools.SqlQ

variable {R : Type}

/-- What the sqlite3 module returns for a stored value, as `common.is_seq` (`common.py:586-605`) sees it: `bytes` for a BLOB is iterable, its items are integers. -/
def pyTree : SqlVal R → Tree (PyV R)
  | .null => .leaf .none
  | .int i => .leaf (.int i)
  | .real r => .leaf (.float r)
  | .text s => .leaf (.str s)
  | .blob b => .node (b.map fun c => .leaf (.int c.toNat))

/-- `get_list1d` (`get_array1d`), `sql.py:448-464`, for the rows which `fetchall()` returns. -/
def getList1d (rows : List (List (SqlVal R))) : List (PyV R) := flatten (rows.map fun r => .node (r.map pyTree))

/-- `get_single`, `sql.py:455-460`. `none`: `AssertionError`. -/
def getSingle (rows : List (List (SqlVal R))) : Option (PyV R) :=
  match getList1d rows with
  | [v] => some v
  | _ => none

/-- A database and `self.table`. -/
structure Db (R : Type) where
  tables : List (Text × Table R)
  table : Option Text

/-- Errors: `Exception("table and self.table are None")`, `AssertionError`, an error of sqlite. -/
inductive QErr where
  | noTable | assertion | operational
deriving DecidableEq

/-- `_get_table`, `sql.py:227-234`. -/
def Db.getTable (d : Db R) : Option Text → Except QErr Text
  | some t => .ok t
  | none => match d.table with
    | some t => .ok t
    | none => .error .noTable

/-- `set_table`, `sql.py:236-244`. -/
def Db.setTable (d : Db R) (t : Option Text) : Db R := { d with table := t }

/-- The table sqlite finds for a name; case of letters is ignored. -/
def Db.find (d : Db R) (name : Text) : Option (Table R) := (d.tables.find? fun t => fold t.1 = fold name).map (·.2)

/-- `PRAGMA table_info(name)`: no rows for an unknown table. -/
def Db.info (d : Db R) (name : Text) : List (Text × Text) :=
  match d.find name with
  | some t => t.header
  | none => []

/-- `has_table`, `sql.py:265-268`. -/
def Db.hasTable (d : Db R) : Option Text → Except QErr Bool
  | none => .error .assertion
  | some n => .ok (!(d.info n).isEmpty)

/-- `get_header`, `sql.py:417-432`. -/
def Db.getHeader (d : Db R) (table : Option Text) : Except QErr (List (Text × Text)) := (d.getTable table).map d.info

/-- `create_table`, `sql.py:434-446`: sqlite refuses the name of a table which is there. -/
def Db.create (d : Db R) (header : List (Text × Text)) (table : Option Text) : Except QErr (Db R) :=
  (d.getTable table).bind fun n =>
    match d.find n, (createTable header : Except SqlErr (Table R)) with
    | none, .ok t => .ok { d with tables := d.tables ++ [(n, t)] }
    | _, _ => .error .operational

/-- The loop of `add_columns`, `sql.py:320-321`: the table after it; at the first error of sqlite (`false`) the columns before are there. -/
def addPart (t : Table R) : List (Text × Text) → Table R × Bool
  | [] => (t, true)
  | (c, ty) :: rest => match addColumn t c ty with
    | .ok t' => addPart t' rest
    | .error _ => (t, false)

/-- `add_columns`, `sql.py:302-321`, on a table of the database: the database afterwards, and the exception. -/
def Db.addColumns (d : Db R) (header : List (Text × Text)) (table : Option Text) : Db R × Option QErr :=
  match d.getTable table with
  | .error e => (d, some e)
  | .ok n => match d.find n with
    | none => (d, if header = [] then none else some .operational)
    | some t =>
      ({ d with tables := d.tables.map fun x => if fold x.1 = fold n then (x.1, (addPart t (fixSqlHeader header)).1) else x },
       if (addPart t (fixSqlHeader header)).2 then none else some .operational)

/-- What a user does with the tables. -/
inductive Op where
  | setTable (t : Option Text)
  | create (header : List (Text × Text)) (table : Option Text)
  | addColumns (header : List (Text × Text)) (table : Option Text)

/-- One step. -/
def Db.step (d : Db R) : Op → Db R
  | .setTable t => d.setTable t
  | .create h t => match d.create h t with
    | .ok d' => d'
    | .error _ => d
  | .addColumns h t => (d.addColumns h t).1

/-- Steps. -/
def Db.run (d : Db R) (ops : List Op) : Db R := ops.foldl Db.step d

end Pwtools.SqlQ
