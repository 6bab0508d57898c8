import Verif.Model.Common
import Mathlib.Algebra.Order.Group.Abs
/-!
# Model of `batch.conv_table`, `src/pwtools/batch.py:617-694`

`xx` is a list of any objects, `yy` a list of parameters, each with `m` values (a 1d argument is one parameter; `np.asarray(...).T` of a 2d
argument). Numbers are elements of an ordered group. Ragged nested lists (an error of numpy) are left out.
-/
namespace Pwtools.ConvTable

/-- `Exception("unknown mode")`, `IndexError`. -/
inductive CErr where
  | unknownMode | indexError
  deriving DecidableEq, Repr

/-- `mode='next'`, `mode='last'`, any other string. -/
inductive Mode where
  | next | last | other
  deriving DecidableEq, Repr

variable {R : Type} [AddCommGroup R] [LinearOrder R]

/-- `np.diff(y)`. -/
def diff : List R → List R
  | a :: b :: t => (b - a) :: diff (b :: t)
  | _ => []

/-- One column of `dyy`, `batch.py:671-679`. Assigning to or reading the last entry of an empty column is an `IndexError`. -/
def dcol (mode : Mode) (y : List R) : Except CErr (List R) :=
  match mode with
  | .next => if y = [] then .error .indexError else .ok (diff y ++ [0])
  | .last => match y.getLast? with
    | none => .error .indexError
    | some z => .ok (y.map fun v => z - v)
  | .other => .error .unknownMode

/-- `if absdiff: dyy = np.abs(dyy)`, `batch.py:680-681`. -/
def absCols (absdiff : Bool) (d : List (List R)) : List (List R) := if absdiff then d.map (fun c => c.map fun v => |v|) else d

/-- The numbers of row `idx`, `batch.py:688-692`: `dyy[idx,iy]` for all `iy`, or `dyy[idx,iy], yy[idx,iy]` for all `iy`. -/
def rowNums (orig : Bool) (yy dyy : List (List R)) (idx : Nat) : Except CErr (List R) :=
  ((yy.zip dyy).mapM (m := Option) fun p => do
    let d ← p.2[idx]?
    let y ← p.1[idx]?
    pure (if orig then [d, y] else [d])).elim (.error .indexError) fun rows => .ok rows.flatten

/-- `conv_table`: `sfmt`, `ffmt` format `x` and numbers. -/
def convTable {X : Type} (sfmt : X → Text) (ffmt : R → Text) (mode : Mode) (orig absdiff : Bool) (xx : List X) (yy : List (List R)) :
    Except CErr Text := do
  let dyy ← yy.mapM (dcol mode)
  let dyy := absCols absdiff dyy
  let rows ← xx.zipIdx.mapM fun (x, idx) => do
    let nums ← rowNums orig yy dyy idx
    pure (sfmt x ++ (nums.map ffmt).flatten ++ ['\n'])
  pure rows.flatten

end Pwtools.ConvTable
