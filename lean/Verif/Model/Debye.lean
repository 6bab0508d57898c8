import Verif.Model.Num
import Mathlib.Analysis.SpecialFunctions.Exp
/-!
# `thermo.debye_func`, `thermo.einstein_func`, `thermo.expansion`

Real numbers instead of floats. The functions take arrays; each entry is treated alone.
-/
namespace Pwtools.Debye

/-- `np.linspace(a, b, n)`. -/
noncomputable def linspace (a b : ℝ) (n : Nat) : List ℝ := (List.range n).map fun k : Nat => a + k * ((b - a) / ((n : ℝ) - 1))

/-- `debye_func`, `thermo.py:761-780`, for one entry. -/
noncomputable def debyeFunc (nstep : Nat) (zero x : ℝ) : ℝ :=
  let tt := linspace zero 1 nstep
  3 * Num.trapz (tt.map fun t => t ^ 3 / (Real.exp (t * x) - 1)) tt

/-- `einstein_func`, `thermo.py:783-793`, for one entry. -/
noncomputable def einsteinFunc (x : ℝ) : ℝ := 1 / (Real.exp x - 1)

/-- `expansion`, `thermo.py:796-828`, for one temperature. -/
noncomputable def expansion (func : ℝ → ℝ) (temp alpha theta x0 : ℝ) : ℝ := x0 * (1 + alpha * theta * func (theta / temp))

end Pwtools.Debye
