import Verif.Model.Rbf
import Verif.Model.Data2D
import Verif.Model.Num
import Mathlib.Data.Fin.VecNotation
/-!
# Model of `num.Interpol2D` (`src/pwtools/num.py:727-984`)

The radial basis functions are those of `Model/Rbf.lean`. Opaque: scipy's interpolators and `PolyFit` (`other`), linear
solvers, `scipy.optimize.fmin`, the estimate `p='scipy'`. Exceptions and results that are not finite are `none`.
-/
namespace Pwtools.Interpol
open Pwtools.Rbf

/-- An interpolator as a function of a point. -/
abbrev Fun2 := ℝ × ℝ → Option ℝ

/-- The libraries. -/
structure Lib where
  solve : ∀ M, Matrix (Fin M) (Fin M) ℝ → (Fin M → ℝ) → Option (Fin M → ℝ)
  lstsq : ∀ M, Matrix (Fin M) (Fin M) ℝ → (Fin M → ℝ) → Fin M → ℝ
  scipyP : List (ℝ × ℝ) → ℝ
  other : String → List (ℝ × ℝ) → List ℝ → Option Fun2
  fmin : Fun2 → ℝ × ℝ → ℝ × ℝ

/-- The arguments of `Interpol2D.__init__`, `num.py:740-749`; the keywords `r` and `p` are those of `Rbf`, others are in `Lib.other`. -/
structure In where
  points : Option (List (ℝ × ℝ)) := none
  values : Option (List ℝ) := none
  xx : Option (List ℝ) := none
  yy : Option (List ℝ) := none
  dd : Option (D2.Data ℝ) := none
  what : String := "rbf_inv_multi"
  r : Option ℝ := some 0
  p : PArg := .mean

/-- `self.xx, self.yy, self.values, self.points`, `num.py:836-856`. -/
def rectify (a : In) : Option (List ℝ × List ℝ × List ℝ × List (ℝ × ℝ)) :=
  match a.dd with
  | none =>
    match a.xx, a.yy, a.points with
    | none, none, none => none
    | none, none, some pts =>
      match a.values with
      | some vals => some (pts.map Prod.fst, pts.map Prod.snd, vals, pts)
      | none => none
    | some xx, some yy, none =>
      match a.values with
      | some vals => if xx.length = yy.length then some (xx, yy, vals, List.zip xx yy) else none
      | none => none
    | _, _, _ => none
  | some dd =>
    match dd.xx, dd.yy, dd.zz, dd.XY with
    | some xx, some yy, some zz, some xy => some (xx, yy, zz, xy)
    | _, _, _, _ => none

/-- A row of the array of points. -/
def vec (q : ℝ × ℝ) : Fin 2 → ℝ := ![q.1, q.2]

/-- `rbf.Rbf(self.points, self.values, rbf=..., **initkwds)` and its evaluation. -/
noncomputable def mkRbf (lib : Lib) (k : Kind) (r : Option ℝ) (p : PArg) (pts : List (ℝ × ℝ)) (vals : List ℝ) : Option Fun2 :=
  if vals.length = pts.length then
    match init (fun i : Fin pts.length => vec pts[i]) (fun i : Fin pts.length => vals.getD i 0) k r p (lib.scipyP pts) with
    | none => none
    | some o =>
      match o.fit (lib.solve pts.length) (lib.lstsq pts.length) with
      | none => none
      | some w => some (fun q => o.predict w (vec q))
  else none

/-- The object after `__init__`. -/
structure Obj where
  xx : List ℝ
  yy : List ℝ
  values : List ℝ
  points : List (ℝ × ℝ)
  call : Fun2

/-- The choice of the interpolator, `num.py:862-937`. -/
noncomputable def choose (lib : Lib) (a : In) (pts : List (ℝ × ℝ)) (vals : List ℝ) : Option Fun2 :=
  if a.what = "rbf_multi" then mkRbf lib .multi a.r a.p pts vals
  else if a.what = "rbf_inv_multi" then mkRbf lib .invMulti a.r a.p pts vals
  else if a.what = "rbf_gauss" then mkRbf lib .gauss a.r a.p pts vals
  else if a.what = "poly" then lib.other "poly" pts vals
  else if a.what = "ct" then lib.other "ct" pts vals
  else if a.what = "nearest" then lib.other "nearest" pts vals
  else if a.what = "linear" then lib.other "linear" pts vals
  else if a.what = "bispl" then lib.other "bispl" pts vals
  else none

/-- `Interpol2D.__init__`, `num.py:740-937`. -/
noncomputable def mk (lib : Lib) (a : In) : Option Obj :=
  match rectify a with
  | none => none
  | some (xx, yy, vals, pts) =>
    match choose lib a pts vals with
    | none => none
    | some f => some ⟨xx, yy, vals, pts, f⟩

/-- The argument of `__call__`: one point (1d array) or several. -/
inductive Pts
  | one (q : ℝ × ℝ)
  | many (l : List (ℝ × ℝ))

/-- `__call__`, `num.py:945-962`; the interpolators evaluate row by row. -/
noncomputable def Obj.eval (o : Obj) : Pts → List (Option ℝ)
  | .one q => [q].map o.call
  | .many l => l.map o.call

/-- `get_min`, `num.py:964-984`. `fmin` is called with the object itself, which evaluates one point. -/
noncomputable def Obj.getMin (lib : Lib) (o : Obj) (x0 : Option (ℝ × ℝ)) : Option (ℝ × ℝ) :=
  match x0 with
  | some q => some (lib.fmin o.call q)
  | none =>
    if o.values = [] then none
    else
      match o.xx[Num.argmin o.values]?, o.yy[Num.argmin o.values]? with
      | some x, some y => some (lib.fmin o.call (x, y))
      | _, _ => none

end Pwtools.Interpol
