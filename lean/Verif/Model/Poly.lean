import Verif.Model.Comb
import Mathlib.Algebra.Order.Field.Basic
import Mathlib.Algebra.BigOperators.Fin
import Mathlib.Analysis.SpecialFunctions.Pow.Real
/-!
# Model of `poly_powers`, `vander`, `polyfit`, `polyval`, `src/pwtools/num.py`

Points are functions `Fin d → ℝ`, so that "points have wrong ndim" cannot occur. The linear least
squares solver `np.linalg.lstsq` is modelled by what it promises: some minimiser of the sum of
squared residuals.
-/
namespace Pwtools.Poly

/-- `num.poly_powers`, `num.py:1213-1283`: `itertools.product(range(deg + 1), repeat=ndim)`. -/
def polyPowers (ndim deg : Nat) : List (List Nat) := itProduct (List.replicate ndim (List.range (deg + 1)))

variable {d : Nat}

/-- One row of `num.vander`, `num.py:1286-1307`: for each power vector the product over the
dimensions of `x[j]**power[j]`. -/
def vanderRow (x : Fin d → ℝ) (deg : Nat) : List ℝ :=
  (polyPowers d deg).map (fun p => ∏ j : Fin d, x j ^ (p.getD j 0))

/-- The dict returned by `num.polyfit`. -/
structure Fit (d : Nat) where
  coeffs : List ℝ
  deg : Nat
  pscale : Fin d → ℝ
  vscale : ℝ
  pmin : Fin d → ℝ
  vmin : ℝ

/-- `np.dot` of two 1d arrays. -/
def dot (a b : List ℝ) : ℝ := (List.zipWith (· * ·) a b).sum

/-- `num.polyval(fit, points)` for one point, `num.py:1427-1428`. -/
noncomputable def polyval (fit : Fit d) (x : Fin d → ℝ) : ℝ :=
  dot (vanderRow (fun j => (x j - fit.pmin j) / fit.pscale j) fit.deg) fit.coeffs * fit.vscale + fit.vmin

/-- `np.polyder(p)` (one derivative, highest power first): `p[:-1] * [n, n-1, …, 1]`. -/
def polyder (p : List ℝ) : List ℝ :=
  List.zipWith (fun c (k : Nat) => c * (k : ℝ)) p.dropLast ((List.range (p.length - 1)).map (fun i => p.length - 1 - i))

/-- `np.polyder(p, m)`. -/
def polyderN (p : List ℝ) : Nat → List ℝ
  | 0 => p
  | m + 1 => polyderN (polyder p) m

/-- `np.polyval(p, x)` (Horner). -/
def npPolyval (p : List ℝ) (x : ℝ) : ℝ := p.foldl (fun y c => y * x + c) 0

/-- `num.polyval(fit, points, der)` for one point in one dimension, `num.py:1415-1428`. -/
noncomputable def polyvalDer (fit : Fit 1) (der : Nat) (x : ℝ) : ℝ :=
  if der > 0 then
    npPolyval (polyderN fit.coeffs.reverse der) ((x - fit.pmin 0) / fit.pscale 0) / fit.pscale 0 ^ der * fit.vscale
  else polyval fit (fun _ => x)

/-- `arr.min()` of a list; `arr.max()`. -/
noncomputable def listMin : List ℝ → ℝ
  | [] => 0
  | x :: l => l.foldl min x
/-- `arr.max()` of a list. -/
noncomputable def listMax : List ℝ → ℝ
  | [] => 0
  | x :: l => l.foldl max x

/-- Scaling of the points, `num.py:1361-1370`: `pmin`, `pscale`. -/
noncomputable def pointScale (points : List (Fin d → ℝ)) (scale : Bool) : (Fin d → ℝ) × (Fin d → ℝ) :=
  if scale then
    (fun j => listMin (points.map (· j)),
     fun j => listMax (points.map (fun x => |x j|)) - listMin (points.map (· j)))
  else (fun _ => 0, fun _ => 1)

/-- Scaling of the values: `vmin`, `vscale`. -/
noncomputable def valueScale (values : List ℝ) (scale : Bool) : ℝ × ℝ :=
  if scale then (listMin values, listMax (values.map (fun v => |v|)) - listMin values) else (0, 1)

/-- `np.linalg.lstsq(A, b)[0]` may return `c`: `c` has as many entries as `A` has columns and
minimises the sum of squared residuals. -/
def IsLstsq (ncol : Nat) (A : List (List ℝ)) (b : List ℝ) (c : List ℝ) : Prop :=
  c.length = ncol ∧ ∀ c' : List ℝ, c'.length = ncol →
    (List.zipWith (fun row v => (dot row c - v) ^ 2) A b).sum ≤
    (List.zipWith (fun row v => (dot row c' - v) ^ 2) A b).sum

/-- Column norms `sv` for `scale_vand=True`, `num.py:1372-1373`. -/
noncomputable def colNorms (ncol : Nat) (A : List (List ℝ)) : List ℝ :=
  (List.range ncol).map (fun k => Real.sqrt ((A.map (fun row => row.getD k 0 ^ 2)).sum))

/-- `num.polyfit`, `num.py:1310-1388`: it returns `fit`. (Zero scales give NaN in the program; the
theorems exclude them.) -/
noncomputable def PolyfitReturns (points : List (Fin d → ℝ)) (values : List ℝ) (deg : Nat)
    (scale scaleVand : Bool) (fit : Fit d) : Prop :=
  points.length = values.length ∧
  fit.deg = deg ∧ fit.pmin = (pointScale points scale).1 ∧ fit.pscale = (pointScale points scale).2 ∧
  fit.vmin = (valueScale values scale).1 ∧ fit.vscale = (valueScale values scale).2 ∧
  let vand := points.map (fun x => vanderRow (fun j => (x j - fit.pmin j) / fit.pscale j) deg)
  let ncol := (polyPowers d deg).length
  let b := values.map (fun v => (v - fit.vmin) / fit.vscale)
  if scaleVand then
    let sv := colNorms ncol vand
    ∃ c, IsLstsq ncol (vand.map (fun row => List.zipWith (· / ·) row sv)) b c ∧
      fit.coeffs = List.zipWith (· / ·) c sv
  else IsLstsq ncol vand b fit.coeffs

end Pwtools.Poly
