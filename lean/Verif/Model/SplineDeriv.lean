import Verif.Model.Fit1D
/-!
# Model of `num.deriv_spl`, `num.Spline`, `num.findmin`, `num.findroot`: `num.py`

`splrep` and `splev` of scipy are parameters. Numbers are real; warnings are not modelled.
-/
namespace Pwtools.SplD
open Fit

/-- A spline (`tck`): order, and the derivatives `splev(., tck, der=n)` (`num.py:152`). -/
structure Tck where
  k : Nat
  ev : Nat → ℝ → ℝ

/-- `splrep(x, y, s=s, k=k)`, `num.py:152, 348`; `none` is an exception. -/
abbrev Splrep := (s : ℝ) → (k : Nat) → List ℝ → List ℝ → Option Tck

/-- `splev(xs, tck, der=n)`, `num.py:152, 360`: derivatives above the order are refused. -/
def splev (t : Tck) (n : Nat) (xs : List ℝ) : Option (List ℝ) := if n ≤ t.k then some (xs.map (t.ev n)) else none

/-- `**splrep_kwargs`: what the user gives of `s` and `k` (others are not modelled). -/
structure Kw where
  s : Option ℝ := none
  k : Option Nat := none

/-- Exceptions: the assertions of the module, and those of scipy. -/
inductive DErr | assertion | scipy
deriving DecidableEq

/-- `deriv_spl`, `num.py:114-157`: the axis and the derivative (`fullout=True`; otherwise only the second). -/
noncomputable def derivSpl (rep : Splrep) (y : List ℝ) (x xnew : Option (List ℝ)) (n : Int) (kw : Kw) : Except DErr (List ℝ × List ℝ) :=
  if n ≤ 0 then .error .assertion
  else
    let x := x.getD ((List.range y.length).map (fun i : Nat => (i : ℝ)))
    let xnew := xnew.getD x
    match (rep (kw.s.getD 0) (kw.k.getD 3) x y).bind (fun t => splev t n.toNat xnew) with
    | some yd => .ok (xnew, yd)
    | none => .error .scipy

/-- A `Spline` object, `num.py:341-357`. -/
structure Spl where
  x : List ℝ
  y : List ℝ
  tck : Tck

open Classical in
/-- `Spline.__init__`, `num.py:325-357`. -/
noncomputable def mkSpline (rep : Splrep) (x y : List ℝ) (eps : ℝ) (checkeps : Bool) (kw : Kw) : Except DErr Spl :=
  if ¬ ∀ d ∈ diff x, 0 ≤ d then .error .assertion
  else match rep (kw.s.getD 0) (kw.k.getD 3) x y with
    | none => .error .scipy
    | some t =>
      if checkeps = true ∧ ¬ ∀ p ∈ List.zip x y, |t.ev 0 p.1 - p.2| < eps then .error .assertion
      else .ok ⟨x, y, t⟩

/-- The `Spline` as a `Fit1D`, `num.py:299, 359-366`. -/
def Spl.fit (s : Spl) : Fit := ⟨s.x, s.y, s.tck.ev 0, s.tck.ev 1⟩

/-- `findmin`, `num.py:160-179`. `none` is an exception. -/
noncomputable def findmin (rep : Splrep) (sv : Solvers) (x y : List ℝ) : Option (ℝ × ℝ) :=
  match mkSpline rep x y (1 / 10 ^ 10) true {} with
  | .error _ => none
  | .ok s => (getMin sv s.fit none none).map (fun x0 => (x0, s.tck.ev 0 x0))

/-- `findroot`, `num.py:182-201`. -/
noncomputable def findrootXY (rep : Splrep) (sv : Solvers) (x y : List ℝ) : Option (ℝ × ℝ) :=
  match mkSpline rep x y (1 / 10 ^ 10) true {} with
  | .error _ => none
  | .ok s => (getRoot sv s.fit none none).map (fun x0 => (x0, s.tck.ev 0 x0))

end Pwtools.SplD
