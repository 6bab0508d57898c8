import Mathlib.Analysis.SpecialFunctions.Pow.Deriv
import Mathlib.Analysis.SpecialFunctions.ExpDeriv
/-!
# Model of `src/pwtools/eos.py`: the Vinet equation of state and `EosFit`

Exact arithmetic over the reals. `np.polyfit` and `scipy.optimize.leastsq` are parameters.
-/
namespace Pwtools.Eos

/-- The dictionary `params`. -/
structure Params where
  e0 : ℝ
  b0 : ℝ
  b1 : ℝ
  v0 : ℝ

/-- `eta = (V/V0)**(1./3.)`. -/
noncomputable def eta (p : Params) (V : ℝ) : ℝ := (V / p.v0) ^ ((1 : ℝ) / 3)

/-- `_vinet`, `eos.py:22-27`. -/
noncomputable def vinet (p : Params) (V : ℝ) : ℝ :=
  let eta := eta p V
  p.e0 + 2 * p.b0 * p.v0 / (p.b1 - 1) ^ 2 *
    (2 - (5 + 3 * p.b1 * (eta - 1) - 3 * eta) * Real.exp (-3 * (p.b1 - 1) * (eta - 1) / 2))

/-- `_vinet_deriv1`, `eos.py:30-36`. -/
noncomputable def vinet1 (p : Params) (V : ℝ) : ℝ :=
  let eta := eta p V
  let ex := Real.exp (1.5 * (-eta * p.b1 + p.b1 + eta - 1))
  (3 * eta - 3) / eta ^ 2 * p.b0 * ex

/-- `_vinet_deriv2`, `eos.py:39-46`. -/
noncomputable def vinet2 (p : Params) (V : ℝ) : ℝ :=
  let eta := eta p V
  let ex := Real.exp (1.5 * (-eta * p.b1 + p.b1 + eta - 1));
  -p.b0 * (3 * eta ^ 2 * p.b1 - 3 * eta * p.b1 - 3 * eta ^ 2 + 5 * eta - 4) / (2 * eta ^ 5 * p.v0) * ex

/-- `EosFit.__call__`, `eos.py:190-202`, with `Vinet.deriv`, `eos.py:109-115`. Other derivatives are
taken from a spline through the fitted curve (`spl`). -/
noncomputable def call (p : Params) (spl : Nat → ℝ → ℝ) (V : ℝ) (der : Nat) : ℝ :=
  match der with
  | 0 => vinet p V
  | 1 => vinet1 p V
  | 2 => vinet2 p V
  | n => spl n V

/-- `EosFit.get_min`, `eos.py:205-210`; `params` always contains `v0`. -/
def getMin (p : Params) : ℝ := p.v0

/-- `EosFit.pressure`, `eos.py:212-220`; `conv` is `eV_by_Ang3_to_GPa`. -/
noncomputable def pressure (p : Params) (spl : Nat → ℝ → ℝ) (conv V : ℝ) : ℝ := -(call p spl V 1) * conv

/-- `EosFit.bulkmod`, `eos.py:222-233`; `params` always contains `b0`. -/
noncomputable def bulkmod (p : Params) (conv _V : ℝ) : ℝ := p.b0 * conv

/-- The smallest and the largest entry of a 1d array. -/
noncomputable def vmin (l : List ℝ) : ℝ := l.foldl min (l.headD 0)
/-- See `vmin`. -/
noncomputable def vmax (l : List ℝ) : ℝ := l.foldl max (l.headD 0)

/-- `EVFunction.lst2dct`, `eos.py:97-98`, with `param_order`, `eos.py:58`. `none`: `IndexError`. Further entries are ignored. -/
def lst2dct : List ℝ → Option Params
  | e0 :: b0 :: b1 :: v0 :: _ => some ⟨e0, b0, b1, v0⟩
  | _ => none

/-- `EVFunction.dct2lst`, `eos.py:100-101`. -/
def dct2lst (p : Params) : List ℝ := [p.e0, p.b0, p.b1, p.v0]

open Classical in
/-- `EosFit.fit`, `eos.py:169-188`. `none`: the exception. A parabola with `a = 0` (division by zero) is
not modelled properly: the theorems assume `a ≠ 0`. -/
noncomputable def fit (polyfit : List ℝ → List ℝ → ℝ × ℝ × ℝ) (leastsq : List ℝ → List ℝ → Params → Params)
    (volume energy : List ℝ) : Option Params :=
  let (a, b, c) := polyfit volume energy
  let v0 := -b / (2 * a)
  let e0 := a * v0 ^ 2 + b * v0 + c
  let b0 := 2 * a * v0
  if (¬ vmin volume < v0) ∧ v0 < vmax volume then none
  else some (leastsq volume energy ⟨e0, b0, 4, v0⟩)

end Pwtools.Eos
