import Verif.Model.Gibbs
import Verif.Model.Poly
import Verif.Model.Fit1D
/-!
# The default fit function of `Gibbs` for one volume axis
-/
namespace Pwtools.Thermo

/-- `Gibbs._default_fit_1d_G(x, y)`, `thermo.py:496-498`: `num.PolyFit1D(x, y, deg=5, scale=True)` (`num.py:1523-1598`) may return the
object `f`, and `f.get_min()` (`num.py:253-269`) does not raise. The calls of `f` are `num.polyval` with `der=` (`num.py:1390-1428`).
No internal scale is zero: the program would divide by zero. -/
def DefaultFit (s : Fit.Solvers) (x y : List ℝ) (f : Fit) : Prop :=
  ∃ pf : Poly.Fit 1, Poly.PolyfitReturns (x.map (fun v _ => v)) y 5 true false pf ∧ (∀ j, pf.pscale j ≠ 0) ∧ pf.vscale ≠ 0 ∧
    f.ev = (fun v => Poly.polyval pf (fun _ => v)) ∧ f.der = Poly.polyvalDer pf ∧
    Fit.getMin s ⟨x, y, f.ev, f.der 1⟩ none none = some f.min

/-- A row of `axes_flat` as a point. -/
def asPoint (r : List ℝ) : Fin 2 → ℝ := fun j => r.getD j 0

/-- `Gibbs._default_fit_2d_G(points, values)`, `thermo.py:500-502`: `num.PolyFit(points, values, deg=5, scale=True)` (`num.py:1431-1520`) may
return the object `f`. The result of `f.get_min()` (`fmin`) is a row of two numbers. -/
def DefaultFit2 (x : List (List ℝ)) (y : List ℝ) (f : Fit2) : Prop :=
  ∃ pf : Poly.Fit 2, Poly.PolyfitReturns (x.map asPoint) y 5 true false pf ∧ (∀ j, pf.pscale j ≠ 0) ∧ pf.vscale ≠ 0 ∧
    f.ev = (fun r => Poly.polyval pf (asPoint r)) ∧ f.min.length = 2

end Pwtools.Thermo
