import Mathlib.Data.Real.Basic
/-!
# `num.Fit1D`, `num.Spline.invsplev`, shapes of `num.PolyFit1D`
-/
namespace Pwtools.Fit

/-- An instance of `Fit1D`, `num.py:204-217`: data, the fit function `self(x)` and its derivative `self(x, der=1)`. -/
structure Fit where
  /-- `self.x` -/
  x : List ℝ
  /-- `self.y` -/
  y : List ℝ
  /-- `self(x)` -/
  f : ℝ → ℝ
  /-- `self(x, der=1)` -/
  df : ℝ → ℝ

/-- `scipy.optimize.newton` and `brentq`: `none` is an exception. -/
structure Solvers where
  /-- `newton(func, x0)` -/
  newton : (ℝ → ℝ) → ℝ → Option ℝ
  /-- `brentq(func, a, b)` -/
  brentq : (ℝ → ℝ) → ℝ → ℝ → Option ℝ

/-- `Fit1D._findroot`, `num.py:219-245`; `none` also for `IndexError` (no data). -/
def findroot (s : Solvers) (fit : Fit) (func : ℝ → ℝ) (x0 : Option ℝ) (xab : Option (ℝ × ℝ)) : Option ℝ :=
  match x0 with
  | some x0 => s.newton func x0
  | none =>
    match xab with
    | some (a, b) => s.brentq func a b
    | none =>
      match fit.x.head?, fit.x.getLast? with
      | some a, some b => s.brentq func a b
      | _, _ => none

/-- `np.diff`. -/
def diff (l : List ℝ) : List ℝ := List.zipWith (fun a b => b - a) l l.tail

/-- `np.sign`. -/
noncomputable def sgn (x : ℝ) : ℝ := if 0 < x then 1 else if x < 0 then -1 else 0

/-- `Fit1D.is_mono`, `num.py:247-251`. -/
noncomputable def isMono (fit : Fit) : Prop := ∀ d ∈ diff ((diff (fit.x.map fit.f)).map sgn), d = 0

/-- `Fit1D.get_min`, `num.py:253-269`. -/
def getMin (s : Solvers) (fit : Fit) (x0 : Option ℝ) (xab : Option (ℝ × ℝ)) : Option ℝ := findroot s fit fit.df x0 xab

/-- `Fit1D.get_max`, `num.py:271-276`. -/
def getMax (s : Solvers) (fit : Fit) (x0 : Option ℝ) (xab : Option (ℝ × ℝ)) : Option ℝ := findroot s fit (fun x => - fit.df x) x0 xab

/-- `Fit1D.get_root`, `num.py:278-296`. -/
def getRoot (s : Solvers) (fit : Fit) (x0 : Option ℝ) (xab : Option (ℝ × ℝ)) : Option ℝ := findroot s fit fit.f x0 xab

open Classical in
/-- `Spline.invsplev`, `num.py:375-416`: `none` also for the failed assertion on `y0`. -/
noncomputable def invsplev (s : Solvers) (fit : Fit) (y0 : ℝ) (x0 : Option ℝ) (xab : Option (ℝ × ℝ)) : Option ℝ :=
  if (∃ y ∈ fit.y, y ≤ y0) ∧ (∃ y ∈ fit.y, y0 ≤ y) then findroot s fit (fun x => fit.f x - y0) x0 xab else none

/-! ## `PolyFit1D` -/

/-- Shapes of arguments: scalar, `(m,)`, `(m, n)`, more axes. -/
inductive Pts (α : Type) where
  | scalar (x : α)
  | vec (l : List α)
  | mat (cols : Nat) (rows : List (List α))
  | more

/-- Results. -/
inductive Res (α : Type) where
  | scalar (x : α)
  | arr (l : List α)
  deriving DecidableEq

/-- `PolyFit1D.__init__` with `_fix_shape_init`, `num.py:1546-1576`: the x values of the fit; `none` for exceptions. In `PolyFit.__init__`
(`num.py:1471-1476`) `_fix_shape_init` runs before `self.fit` is assigned, so that the assertion for 2d arrays in line 1573 raises
`AttributeError`. -/
def initPoints {α : Type} : Pts α → Option (List α)
  | .scalar x => some [x]
  | .vec l => some l
  | .mat _ _ => none
  | .more => none

/-- `PolyFit1D.__call__` with `_fix_shape_call`, `num.py:1493-1496`, `1578-1597`, where `fit['ndim']` is 1; `none` for exceptions. -/
def call {α : Type} (f : α → α) : Pts α → Option (Res α)
  | .scalar x => some (.scalar (f x))
  | .vec [x] => some (.scalar (f x))
  | .vec l => some (.arr (l.map f))
  | .mat cols rows => if cols = 1 then some (.arr (rows.flatten.map f)) else none
  | .more => none

end Pwtools.Fit
