import Verif.Model.Num
import Mathlib.Analysis.SpecialFunctions.Trigonometric.DerivHyp
import Mathlib.Analysis.SpecialFunctions.Log.Deriv
/-!
# Model of `src/pwtools/thermo.py`: `HarmonicThermo`

Exact arithmetic; `NaN`s (and the options `fixnan`, `nanfill`) are not modelled. The constants
`h = hplanck*c0*100`, `kb` and `eV` are parameters. `integ` is the option `integrator`, called as
`integrator(y, x=f)` for each row.
-/
namespace Pwtools.Thermo

/-- The constants of the module. -/
structure Const where
  h : ℝ
  kb : ℝ
  eV : ℝ

/-- `coth`, `thermo.py:12-13`. -/
noncomputable def coth (x : ℝ) : ℝ := 1 / Real.tanh x

/-- The attributes `f` and `dos` after `HarmonicThermo.__init__`, `thermo.py:111-154`: assertion on the
lengths, `skipfreq`, `dosarea` (with `_norm_int`, `thermo.py:156-162`, the same code as
`num.norm_int(..., scale=True)`). `none`: an exception or division by zero. -/
noncomputable def harmInit (integ : List ℝ → List ℝ → ℝ) (freq dos : List ℝ) (skipfreq : Bool) (eps : ℝ)
    (dosarea : Option ℝ) : Option (List ℝ × List ℝ) :=
  if freq.length ≠ dos.length then none
  else
    let fd := if skipfreq then (freq.zip dos).filter (fun p => decide (p.1 > eps)) else freq.zip dos
    let f := fd.map Prod.fst
    let d := fd.map Prod.snd
    match dosarea with
    | none => some (f, d)
    | some area => (Num.normInt integ d f area true).map (fun d' => (f, d'))

variable (c : Const) (integ : List ℝ → List ℝ → ℝ) (f dos : List ℝ)

/-- `arg = h * f / (kb*T)`. -/
noncomputable def arg (c : Const) (T f : ℝ) : ℝ := c.h * f / (c.kb * T)

/-- `vibrational_internal_energy`, `thermo.py:197-204`, for one temperature. -/
noncomputable def evib (T : ℝ) : ℝ :=
  integ (List.zipWith (fun d f => d * f * (1 / 2 + 1 / (Real.exp (arg c T f) - 1))) dos f) f * (c.h / c.eV)

/-- `isochoric_heat_capacity`, `thermo.py:206-214`. -/
noncomputable def cv (T : ℝ) : ℝ :=
  integ (List.zipWith (fun d f => d * f ^ 2 / Real.sinh (arg c T f / 2) ^ 2) dos f) f * (c.h / (c.kb * 2 * T)) ^ 2

/-- `vibrational_free_energy`, `thermo.py:216-223`. -/
noncomputable def fvib (T : ℝ) : ℝ :=
  integ (List.zipWith (fun d f => d * Real.log (2 * Real.sinh (arg c T f / 2))) dos f) f * T * (c.kb / c.eV)

/-- `vibrational_entropy`, `thermo.py:225-233`. -/
noncomputable def svib (T : ℝ) : ℝ :=
  integ (List.zipWith (fun d f => d * (1 / 2 / T * (c.h / c.kb) * f * coth (arg c T f / 2) -
    Real.log (2 * Real.sinh (arg c T f / 2)))) dos f) f

/-- The methods with an array of temperatures; `temp` replaces the temperatures of the constructor,
`thermo.py:192-195`. `none`: `ValueError`. -/
def onTemps (q : ℝ → ℝ) (selfT temp : Option (List ℝ)) : Option (List ℝ) :=
  match temp with
  | some t => some (t.map q)
  | none => selfT.map (fun t => t.map q)

end Pwtools.Thermo
