import Verif.Model.MplPlot
/-!
# C163: what the drawing helpers should do
-/
namespace Pwtools.Spec
open Pwtools.MplPlot

/-- Entry `[i,j]` of `x` or `z` as documented for `plotlines3d`: a 1d array is the same curve for every `j`. -/
def curveAt {α : Type} (a : Arr α) (i j : Nat) (v : α) : Prop :=
  match a with
  | .d1 l => l[i]? = some v
  | .d2 n m f => i < n ∧ j < m ∧ v = f i j

/-- Number of points of each curve. -/
def rows {α : Type} : Arr α → Nat
  | .d1 l => l.length
  | .d2 n _ _ => n

/-- Fits to `k` curves. -/
def HasCols {α : Type} (a : Arr α) (k : Nat) : Prop :=
  match a with
  | .d1 _ => True
  | .d2 _ m _ => m = k

/-- The calls of `plot` for `len(y)` curves: call `j` draws the points `(x[i,j], y[j], z[i,j])`, all `i` in order. -/
def Curves {α : Type} (x : Arr α) (y : List α) (z : Arr α) (calls : List (List α × List α × List α)) : Prop :=
  calls.length = y.length ∧ ∀ (j : Nat) (yj : α), y[j]? = some yj → ∃ xs ys zs, calls[j]? = some (xs, ys, zs) ∧
    xs.length = rows x ∧ ys.length = rows x ∧ zs.length = rows x ∧
    ∀ i, i < rows x → ∃ xv zv, xs[i]? = some xv ∧ ys[i]? = some yj ∧ zs[i]? = some zv ∧ curveAt x i j xv ∧ curveAt z i j zv

/-- The sum of the whitespace asked for at one place. -/
noncomputable def wsAt (loc : Loc) (calls : List (ℝ × Loc × ℝ × String)) : ℝ :=
  ((calls.filter (fun c => decide (c.2.1 = loc))).map (fun c => c.2.2.1)).sum

/-- How far a side has moved to the inside of the figure. -/
def moved (loc : Loc) (before after : Box) : ℝ :=
  match loc with
  | .left => after.left - before.left
  | .bottom => after.bottom - before.bottom
  | .right => before.right - after.right
  | .top => before.top - after.top

/-- Points away from the middle of the plot. -/
def outward : Loc → ℝ × ℝ
  | .left => (-1, 0)
  | .right => (1, 0)
  | .top => (0, 1)
  | .bottom => (0, -1)

end Pwtools.Spec
