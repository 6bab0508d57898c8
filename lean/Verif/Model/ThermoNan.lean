import Verif.Model.Thermo
/-!
# Model of `HarmonicThermo` (`src/pwtools/thermo.py`) with infinities and NaNs

The values of the numpy arrays are real numbers, two infinities or NaN. Simplified: no rounding and no overflow (a finite result of the real
function stays finite), and zeros have no sign (they count as `+0.0`).
-/
namespace Pwtools.ThermoNan
open Thermo

/-- A number of a numpy array. -/
inductive Fl where
  | fin (x : ℝ)
  | pinf
  | ninf
  | nan

open Fl

/-- `-x`. -/
def neg : Fl → Fl
  | fin x => fin (-x)
  | pinf => ninf
  | ninf => pinf
  | nan => nan

/-- `x + y` of numpy (IEEE 754). -/
def add : Fl → Fl → Fl
  | fin x, fin y => fin (x + y)
  | fin _, y => y
  | x, fin _ => x
  | pinf, pinf => pinf
  | ninf, ninf => ninf
  | _, _ => nan

/-- `x - y`. -/
def sub (x y : Fl) : Fl := add x (neg y)

open Classical in
/-- `inf * y` for a finite `y`, and `y / 0`. -/
noncomputable def infMul (y : ℝ) : Fl := if 0 < y then pinf else if y < 0 then ninf else nan

/-- `x * y`. -/
noncomputable def mul : Fl → Fl → Fl
  | fin x, fin y => fin (x * y)
  | pinf, fin y => infMul y
  | ninf, fin y => neg (infMul y)
  | fin x, pinf => infMul x
  | fin x, ninf => neg (infMul x)
  | pinf, pinf => pinf
  | ninf, ninf => pinf
  | pinf, ninf => ninf
  | ninf, pinf => ninf
  | nan, _ => nan
  | _, nan => nan

open Classical in
/-- `x / y`. -/
noncomputable def div : Fl → Fl → Fl
  | fin x, fin y => if y = 0 then infMul x else fin (x / y)
  | fin _, pinf => fin 0
  | fin _, ninf => fin 0
  | pinf, fin y => if y < 0 then ninf else pinf
  | ninf, fin y => if y < 0 then pinf else ninf
  | _, _ => nan

/-- `np.exp`. -/
noncomputable def expF : Fl → Fl
  | fin x => fin (Real.exp x)
  | pinf => pinf
  | ninf => fin 0
  | nan => nan

/-- `np.sinh`. -/
noncomputable def sinhF : Fl → Fl
  | fin x => fin (Real.sinh x)
  | x => x

/-- `np.tanh`. -/
noncomputable def tanhF : Fl → Fl
  | fin x => fin (Real.tanh x)
  | pinf => fin 1
  | ninf => fin (-1)
  | nan => nan

open Classical in
/-- `np.log`. -/
noncomputable def logF : Fl → Fl
  | fin x => if 0 < x then fin (Real.log x) else if x = 0 then ninf else nan
  | pinf => pinf
  | _ => nan

/-- `coth`, `thermo.py:12-13`. -/
noncomputable def cothF (x : Fl) : Fl := div (fin 1) (tanhF x)

/-- `scipy.integrate.trapezoid(y, x=f)`, the default integrator, `thermo.py:6`, `23`, for one row of `y`. -/
noncomputable def trapzF : List Fl → List ℝ → Fl
  | y0 :: y1 :: ys, x0 :: x1 :: xs => add (div (mul (fin (x1 - x0)) (add y0 y1)) (fin 2)) (trapzF (y1 :: ys) (x1 :: xs))
  | _, _ => fin 0

/-- `y[np.isnan(y)] = nanfill`, `thermo.py:181-188`. -/
def fill (nanfill : ℝ) : Fl → Fl
  | nan => fin nanfill
  | x => x

/-- `HarmonicThermo._integrate`, `thermo.py:168-190`, for one temperature (one row of `y`). -/
noncomputable def integrate (fixnan : Bool) (nanfill : ℝ) (y : List Fl) (f : List ℝ) : Fl :=
  trapzF (if fixnan then y.map (fill nanfill) else y) f

variable (fixnan : Bool) (nanfill : ℝ) (c : Const) (dos f : List ℝ)

/-- `arg = h * f / (kb*T)`, for example `thermo.py:201`. -/
noncomputable def argF (T x : ℝ) : Fl := div (mul (fin c.h) (fin x)) (mul (fin c.kb) (fin T))

/-- The integrand of `vibrational_internal_energy`, `thermo.py:202`. -/
noncomputable def yE (T d x : ℝ) : Fl :=
  mul (mul (fin d) (fin x)) (add (fin (1 / 2)) (div (fin 1) (sub (expF (argF c T x)) (fin 1))))

/-- `vibrational_internal_energy`, `thermo.py:197-204`, for one temperature. -/
noncomputable def evibF (T : ℝ) : Fl :=
  mul (integrate fixnan nanfill (List.zipWith (yE c T) dos f) f) (div (fin c.h) (fin c.eV))

/-- The integrand of `isochoric_heat_capacity`, `thermo.py:211`. -/
noncomputable def yC (T d x : ℝ) : Fl :=
  let s := sinhF (div (argF c T x) (fin 2))
  div (mul (fin d) (mul (fin x) (fin x))) (mul s s)

/-- `isochoric_heat_capacity`, `thermo.py:206-214`. -/
noncomputable def cvF (T : ℝ) : Fl :=
  let q := div (fin c.h) (mul (mul (fin c.kb) (fin 2)) (fin T))
  mul (integrate fixnan nanfill (List.zipWith (yC c T) dos f) f) (mul q q)

/-- The integrand of `vibrational_free_energy`, `thermo.py:221`. -/
noncomputable def yF (T d x : ℝ) : Fl := mul (fin d) (logF (mul (fin 2) (sinhF (div (argF c T x) (fin 2)))))

/-- `vibrational_free_energy`, `thermo.py:216-223`. -/
noncomputable def fvibF (T : ℝ) : Fl :=
  mul (mul (integrate fixnan nanfill (List.zipWith (yF c T) dos f) f) (fin T)) (div (fin c.kb) (fin c.eV))

/-- The integrand of `vibrational_entropy`, `thermo.py:230-231`. -/
noncomputable def yS (T d x : ℝ) : Fl :=
  mul (fin d) (sub (mul (mul (mul (div (fin (1 / 2)) (fin T)) (div (fin c.h) (fin c.kb))) (fin x)) (cothF (div (argF c T x) (fin 2))))
    (logF (mul (fin 2) (sinhF (div (argF c T x) (fin 2))))))

/-- `vibrational_entropy`, `thermo.py:225-233`. -/
noncomputable def svibF (T : ℝ) : Fl := integrate fixnan nanfill (List.zipWith (yS c T) dos f) f

end Pwtools.ThermoNan
