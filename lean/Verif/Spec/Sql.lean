import Verif.Model.Sql
/-!
# Specifications for C12, C13, C20
-/
namespace Pwtools.Spec
variable {R : Type}

/-- A table whose rows are numbered 1..n without gaps (no row was ever deleted). -/
def Contig (t : Table R) (n : Nat) : Prop := t.rows.map Row.rowid = List.range' 1 n

/-- No two columns have names that differ at most in case (what sqlite guarantees). -/
def GoodHeader (t : Table R) : Prop := (t.header.map (fun h => fold h.1)).Nodup

/-- The table `t'` is the table `t` with the cells of column `col` (declared type `typ`) in
rows `start, start+1, ...` set to `values` and nothing else changed. `t` has `n` rows, `t'` has
`n'`; rows that were not there before hold NULL in all other columns. -/
structure FilledFrom (conv : Text → SqlVal R → SqlVal R) (t t' : Table R) (n n' : Nat)
    (col typ : Text) (start : Nat) (values : List (PyV R)) : Prop where
  header : t'.header = t.header
  contig : Contig t' n'
  target : ∀ i v, values[i]? = some v → start + i ≤ n' →
    ∃ w, bindVal v = some w ∧ t'.get (start + i) col = some (store conv typ w)
  other : ∀ r c, (fold c ≠ fold col ∨ r < start ∨ start + values.length ≤ r) → r ≤ n →
    t'.get r c = t.get r c
  newRows : ∀ r c, fold c ≠ fold col → n < r → r ≤ n' → t'.get r c = some .null

/-- Rectangular data for the columns `colnames` with one type per column: all rows have one
value per column, and each value is `None` or of the same sql type as the one in the first
row. -/
structure Rect (colnames : List Text) (first : List (PyV R)) (lists : List (List (PyV R))) : Prop where
  length : ∀ row ∈ lists, row.length = colnames.length
  kind : ∀ row ∈ lists, ∀ (j : Nat) v w, row[j]? = some v → first[j]? = some w →
    v = .none ∨ ((findSqltype v).isSome = true ∧ findSqltype v = findSqltype w)

/-- The database value `w` stands for the Python value `v` (sqlite3 module documentation; truth
values are the numbers 0 and 1). -/
inductive SameValue : PyV R → SqlVal R → Prop
  | none : SameValue .none .null
  | true : SameValue (.bool true) (.int 1)
  | false : SameValue (.bool false) (.int 0)
  | int (i : Int) : SameValue (.int i) (.int i)
  | float (r : R) : SameValue (.float r) (.real r)
  | str (s : Text) : SameValue (.str s) (.text s)
  | mem (b : Text) : SameValue (.mem b) (.blob b)

/-- The stored form of a row. -/
def asStored (row : List (PyV R)) : List (SqlVal R) := row.map (fun v => (bindVal v).getD .null)

end Pwtools.Spec
