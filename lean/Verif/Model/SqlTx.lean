/-!
# Model of transactions of `sql.SQLiteDB` (`src/pwtools/sql.py:211-263,500-511`)

A database is a value of any type `σ`, a statement a partial function on it (`none`: sqlite raises, the statement has no effect). The
rules of Python's `sqlite3` module (default `isolation_level`): `execute` and `executemany` open a transaction before
INSERT, UPDATE, DELETE and REPLACE if there is none; other statements are carried out at once, inside the open transaction if there is
one, else directly in the file; `executescript` commits and then runs its statements one by one directly in the file. Not
modelled: `begin`/`rollback` given as statements by the user, several connections that write, locks.
-/
namespace Pwtools.SqlTx

variable {σ : Type}

/-- A statement: a query, one that changes rows (INSERT, UPDATE, DELETE, REPLACE), or one that changes the schema (CREATE, ALTER, DROP). -/
inductive Stmt (σ : Type)
  | query
  | dml (f : σ → Option σ)
  | ddl (f : σ → Option σ)

/-- `self.conn` and `self.cur` (`sql.py:223-224`): what is in the file (what other processes see), what this connection sees, whether a
transaction is open, whether the cursor is open. -/
structure Conn (σ : Type) where
  file : σ
  view : σ
  tx : Bool
  isOpen : Bool

/-- `SQLiteDB.__init__`, `sql.py:222-225`. -/
def connect (file : σ) : Conn σ := ⟨file, file, false, true⟩

/-- `execute`, `sql.py:250-252`; the second component tells whether it returned. -/
def execute (c : Conn σ) (s : Stmt σ) : Conn σ × Bool :=
  if c.isOpen then
    match s with
    | .query => (c, true)
    | .dml f =>
      match f c.view with
      | some v => ({ c with view := v, tx := true }, true)
      | none => ({ c with tx := true }, false)
    | .ddl f =>
      match f c.view with
      | some v => if c.tx then ({ c with view := v }, true) else ({ c with view := v, file := v }, true)
      | none => (c, false)
  else (c, false)

/-- `commit`, `sql.py:500-502`: also with a closed cursor. -/
def commit (c : Conn σ) : Conn σ := { c with file := c.view, tx := false }

/-- A statement of a script: directly in the file (no transaction is open). -/
def scriptStmt (c : Conn σ) (s : Stmt σ) : Conn σ × Bool :=
  match s with
  | .query => (c, true)
  | .dml f | .ddl f =>
    match f c.view with
    | some v => ({ c with view := v, file := v }, true)
    | none => (c, false)

/-- The calls of a program. -/
inductive Op (σ : Type)
  | execute (s : Stmt σ)
  | executemany (l : List (σ → Option σ))
  | executescript (l : List (Stmt σ))
  | commit
  | finish

/-- The states after each statement of a list, up to the first error. -/
def upTo (step : Conn σ → Stmt σ → Conn σ × Bool) (c : Conn σ) : List (Stmt σ) → List (Conn σ)
  | [] => []
  | s :: rest => if (step c s).2 then (step c s).1 :: upTo step (step c s).1 rest else [(step c s).1]

/-- The states which a call passes through, in order; a process can be killed in any of them. `executemany`, `sql.py:254-256`;
`executescript`, `sql.py:258-263`; `finish`, `sql.py:504-507`. A call that raises leaves the object as it is at that point. -/
def steps (c : Conn σ) : Op σ → List (Conn σ)
  | .execute s => [(execute c s).1]
  | .executemany l => upTo execute c (l.map .dml)
  | .executescript l => if c.isOpen then commit c :: upTo scriptStmt (commit c) l else []
  | .commit => [commit c]
  | .finish => [commit c, { commit c with isOpen := false }]

/-- The state after a list of states that begins with `c`. -/
def lastOf (c : Conn σ) : List (Conn σ) → Conn σ
  | [] => c
  | d :: l => lastOf d l

/-- The states of a program (exceptions are caught, the program goes on), `c` not included. -/
def trace (c : Conn σ) : List (Op σ) → List (Conn σ)
  | [] => []
  | op :: rest => steps c op ++ trace (lastOf c (steps c op)) rest

/-- The state after a program. -/
def run (c : Conn σ) (ops : List (Op σ)) : Conn σ := lastOf c (trace c ops)

/-- `__del__`, `sql.py:509-510`: the end of the process, also by an exception, and `del db`. -/
def del (c : Conn σ) : Conn σ := lastOf c (steps c .finish)

end Pwtools.SqlTx
