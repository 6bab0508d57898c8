import Verif.Model.Lammps
/-!
# Specification: dump file and log file of a LAMMPS run
-/
namespace Pwtools.Spec
variable {K : Type}

/-- `key` occurs in the line. -/
def Has (key l : Text) : Prop := ∃ a b, l = a ++ key ++ b

/-- A line of numbers or other text without the marks the parser looks for. -/
def PlainLine (l : Text) : Prop := ¬ Has "ITEM".toList l ∧ ¬ Has "--".toList l

/-- A frame of a dump file: the line with the time step, the text after `BOX BOUNDS`, the three box rows, the rows of the atoms. -/
structure Frame (K : Type) where
  step : Text
  boxText : Text
  box : List (Text × List K)
  rows : List (Text × List K)

/-- The lines of a frame for `na` atoms; `atomsText` is what follows `ITEM: ATOMS `. -/
def Frame.lines (na : Nat) (atomsText : Text) (f : Frame K) : List Text :=
  ["ITEM: TIMESTEP".toList, f.step, "ITEM: NUMBER OF ATOMS".toList, strNat na, "ITEM: BOX BOUNDS".toList ++ f.boxText] ++
    (f.box.map Prod.fst ++ ("ITEM: ATOMS ".toList ++ atomsText) :: f.rows.map Prod.fst)

/-- A well-formed frame: `na` rows with one number per column; three box rows of `nb` numbers (3 for triclinic boxes, 2 for orthogonal ones). -/
structure Frame.Wf (num : Text → Option K) (na ncol nb : Nat) (f : Frame K) : Prop where
  step : PlainLine f.step
  boxText : ¬ Has "ITEM".toList f.boxText
  nbox : f.box.length = 3
  box : ∀ r ∈ f.box, PlainLine r.1 ∧ r.2.length = nb ∧ (splitWs r.1).map num = r.2.map some
  nrows : f.rows.length = na
  rows : ∀ r ∈ f.rows, PlainLine r.1 ∧ r.2.length = ncol ∧ (splitWs r.1).map num = r.2.map some

/-- The text after `ITEM: ATOMS `: the names of the columns. -/
structure ColsText (t : Text) (cols : List Text) : Prop where
  words : splitWs t = cols
  item : ¬ Has "ITEM".toList t
  toms : ¬ Has "TOMS ".toList t
  ne : cols ≠ []

/-- The number in the column with this name. -/
def named (junk : K) (cols : List Text) (r : List K) (name : Text) : K := ((cols.zip r).lookup name).getD junk

/-- A LAMMPS simulation box. -/
structure Box (K : Type) where
  (xlo xhi ylo yhi zlo zhi xy xz yz : K)

/-- The cell vectors of the box (LAMMPS manual: `a=(xhi-xlo,0,0)`, `b=(xy,yhi-ylo,0)`, `c=(xz,yz,zhi-zlo)`). -/
def Box.cell [Field K] (b : Box K) : List (List K) :=
  [[b.xhi - b.xlo, 0, 0], [b.xy, b.yhi - b.ylo, 0], [b.xz, b.yz, b.zhi - b.zlo]]

/-- `lo` is the least, `hi` the greatest of the numbers. -/
def Extremes [LinearOrder K] (xs : List K) (lo hi : K) : Prop := lo ∈ xs ∧ hi ∈ xs ∧ ∀ x ∈ xs, lo ≤ x ∧ x ≤ hi

/-- The rows that LAMMPS writes for the box (LAMMPS manual, "dump" command, triclinic boxes): the bounding box and the tilt factors. -/
def Box.Rows [Field K] [LinearOrder K] (b : Box K) (rows : List (List K)) : Prop :=
  ∃ lx hx ly hy, Extremes [0, b.xy, b.xz, b.xy + b.xz] lx hx ∧ Extremes [0, b.yz] ly hy ∧
    rows = [[b.xlo + lx, b.xhi + hx, b.xy], [b.ylo + ly, b.yhi + hy, b.xz], [b.zlo, b.zhi, b.yz]]

/-- One `run` in the log file: the header line, the rows, and what follows (starting with the `Loop ...` line; nothing if the run was killed). -/
structure LogRun (K : Type) where
  header : Text
  rows : List (Text × List K)
  after : List Text

def LogRun.lines (r : LogRun K) : List Text := ("Step".toList ++ r.header) :: (r.rows.map Prod.fst ++ r.after)

/-- Well-formed: rows of `ncol` numbers; the text that follows starts with the `Loop` line and has no further `Step` line. -/
structure LogRun.Wf (num : Text → Option K) (ncol : Nat) (r : LogRun K) : Prop where
  rows : ∀ x ∈ r.rows, ¬ Has "Step".toList x.1 ∧ ¬ Has "Loop".toList x.1 ∧ x.2.length = ncol ∧ (splitWs x.1).map num = x.2.map some
  after : ∀ l ls, r.after = l :: ls → (∃ t, l = "Loop".toList ++ t) ∧ ∀ x ∈ ls, ∀ t, x ≠ "Step".toList ++ t

end Pwtools.Spec
