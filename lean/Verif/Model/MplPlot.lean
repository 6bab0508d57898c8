import Mathlib.Algebra.Order.Archimedean.Real.Basic
import Mathlib.Algebra.Order.Round
/-!
# C163: model of the drawing helpers of `src/pwtools/mpl.py`

Matplotlib itself is not modelled: an axis is the list of curves drawn on it, the colours of its parts,
or the box it covers in the figure.
-/
namespace Pwtools.MplPlot

/-- Exceptions. -/
inductive PErr where
  | assertion | index | attribute | key | value | unbound
deriving DecidableEq, Repr

/-! ### `plotlines3d` -/

/-- A numpy array with one or two dimensions; `d2 n m f` has `n` rows and `m` columns. -/
inductive Arr (α : Type) where
  | d1 (l : List α)
  | d2 (n m : Nat) (f : Nat → Nat → α)

/-- Column `j` of an array of shape `(n, m)`. -/
def column {α : Type} (n : Nat) (f : Nat → Nat → α) (j : Nat) : List α := (List.range n).map (fun i => f i j)

/-- `np.repeat(a[:,None], m, axis=1)` for 1d, else the array itself, `mpl.py:57-64`: rows, columns, entries. -/
def expand {α : Type} [Inhabited α] (a : Arr α) (m : Nat) : Nat × Nat × (Nat → Nat → α) :=
  match a with
  | .d1 l => (l.length, m, fun i _ => l.getD i default)
  | .d2 n m' f => (n, m', f)

/-- `z[:,j]`, `mpl.py:68`: an `IndexError` for a 1d array. -/
def zColumn {α : Type} (z : Arr α) (j : Nat) : Except PErr (List α) :=
  match z with
  | .d1 _ => .error .index
  | .d2 n _ f => .ok (column n f j)

/-- `mpl.plotlines3d(ax3d, x, y, z)`, `mpl.py:27-69`, for a 1d array `y`: the arguments of the calls
`ax3d.plot(xs, ys, zs)` in order. -/
def plotlines3d {α : Type} [Inhabited α] (x : Arr α) (y : List α) (z : Arr α) : Except PErr (List (List α × List α × List α)) :=
  let zz := expand z y.length
  let xx := expand x zz.2.1
  if (xx.1, xx.2.1) ≠ (zz.1, zz.2.1) then .error .assertion
  else if ¬ (y.length = xx.2.1 ∧ xx.2.1 = zz.2.1) then .error .assertion
  else (List.range xx.2.1).mapM (fun j => do
    let c ← zColumn z j
    pure (column xx.1 xx.2.2 j, List.replicate xx.1 (y.getD j default), c))

/-! ### `color_ax` -/

/-- The colours of an axis: labels and ticks for the directions, spines by location. `none`: matplotlib's
colour "None", nothing is drawn. -/
structure AxColors where
  label : String → Option String
  ticks : String → Option String
  spine : String → Option String

/-- The attributes `xaxis` and `yaxis` of a matplotlib axis. -/
def axisAttrs : List String := ["xaxis", "yaxis"]
/-- The keys of `ax.spines`. -/
def spineKeys : List String := ["left", "right", "bottom", "top"]

/-- `f[k] = v`. -/
def setKey (f : String → Option String) (k : String) (v : Option String) : String → Option String := fun x => if x = k then v else f x

/-- `mpl.color_ax(ax, color, axis, spine_loc, spine_invisible)`, `mpl.py:140-152`. The two changes before a
`KeyError` stay (not modelled). -/
def colorAx (ax : AxColors) (color axis : String) (spineLoc spineInvisible : Option String) : Except PErr AxColors :=
  if axis ++ "axis" ∉ axisAttrs then .error .attribute
  else
    let a1 := { ax with label := setKey ax.label axis (some color), ticks := setKey ax.ticks axis (some color) }
    let a2 : Except PErr AxColors := match spineLoc with
      | none => .ok a1
      | some s => if s ∉ spineKeys then .error .key else .ok { a1 with spine := setKey a1.spine s (some color) }
    match a2 with
    | .error e => .error e
    | .ok a2 => match spineInvisible with
      | none => .ok a2
      | some s => if s ∉ spineKeys then .error .key else .ok { a2 with spine := setKey a2.spine s none }

/-! ### `Plot.savefig` -/

/-- `Plot.savefig(base, ext)`, `mpl.py:261-263`: the names of the files written, in order. -/
def savefig (base : String) (ext : List String) : List String := ext.map (fun ex => base ++ "." ++ ex)

/-! ### `new_axis` -/

/-- The four places. -/
inductive Loc where
  | left | right | top | bottom
deriving DecidableEq, Repr

/-- The box of `hostax` in the figure, in units of the figure: `fig.subplotpars` of a figure with one subplot. -/
structure Box where
  left : ℝ
  right : ℝ
  top : ℝ
  bottom : ℝ

/-- One side of the box: `np.array(hostax.get_position())[bbox_idx[loc]]`, `mpl.py:710-711`. -/
def Box.get (b : Box) : Loc → ℝ
  | .left => b.left
  | .right => b.right
  | .top => b.top
  | .bottom => b.bottom

/-- Set one side. -/
def Box.set (b : Box) (l : Loc) (v : ℝ) : Box :=
  match l with
  | .left => { b with left := v }
  | .right => { b with right := v }
  | .top => { b with top := v }
  | .bottom => { b with bottom := v }

/-- `'%f' % x` read again by `eval`, `mpl.py:717-718`: six digits after the point. -/
noncomputable def fmt6 (x : ℝ) : ℝ := (round (x * 10 ^ 6) : ℝ) / 10 ^ 6

open Classical in
/-- `fig.subplots_adjust(loc=v)`: `ValueError` if nothing of the subplot is left. -/
noncomputable def adjust (b : Box) (l : Loc) (v : ℝ) : Except PErr Box :=
  let b' := b.set l v
  if b'.right ≤ b'.left ∨ b'.top ≤ b'.bottom then .error .value else .ok b'

/-- A new axis line: place, offset in points, label for x (`true`) or y. -/
structure AxisLine where
  loc : Loc
  offset : ℝ × ℝ
  xlabel : Bool
  label : String

/-- The offset and the direction of the label, `mpl.py:684-695`. -/
def axisLine (loc : Loc) (off : ℝ) (label : String) : AxisLine :=
  match loc with
  | .top => ⟨loc, (0, off), true, label⟩
  | .bottom => ⟨loc, (0, -off), true, label⟩
  | .left => ⟨loc, (-off, 0), false, label⟩
  | .right => ⟨loc, (off, 0), false, label⟩

/-- The name of the new line in `parax.axis`, `mpl.py:697-700`: the first of `bottom2`, `bottom3`, … which
is not used in the new parasite axes, which has the keys `left`, `right`, `top`, `bottom` only. The search starts at `n` and
makes at most `fuel` steps. -/
def lineName (keys : List String) (loc : String) (n : Nat) : Nat → Option String
  | 0 => none
  | fuel + 1 => if loc ++ toString n ∈ keys then lineName keys loc (n + 1) fuel else some (loc ++ toString n)

/-- The new side of the box, `mpl.py:712-715`. -/
def newWs (b : Box) (loc : Loc) (wsadd : ℝ) : ℝ :=
  if loc = .top ∨ loc = .right then b.get loc - wsadd else b.get loc + wsadd

/-- A figure with its host axis: the box, and the axis lines made so far. -/
structure Fig where
  box : Box
  lines : List AxisLine

/-- `mpl.new_axis(fig, hostax, off, loc, wsadd=…, label=…)`, `mpl.py:629-719`, for one of the four places.
Sharing and ticks are not modelled. -/
noncomputable def newAxis (f : Fig) (off : ℝ) (loc : Loc) (wsadd : ℝ) (label : String) : Except PErr Fig :=
  match adjust f.box loc (fmt6 (newWs f.box loc wsadd)) with
  | .error e => .error e
  | .ok b => .ok ⟨b, f.lines ++ [axisLine loc off label]⟩

/-- Several calls one after another. -/
noncomputable def newAxes (f : Fig) : List (ℝ × Loc × ℝ × String) → Except PErr Fig
  | [] => .ok f
  | c :: cs => match newAxis f c.1 c.2.1 c.2.2.1 c.2.2.2 with
    | .error e => .error e
    | .ok g => newAxes g cs

end Pwtools.MplPlot
