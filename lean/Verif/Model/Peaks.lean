import Verif.Model.Signal
import Verif.Model.Fit1D
/-!
# Model of `signal.find_peaks` with an x axis (`src/pwtools/signal.py`)
-/
namespace Pwtools.Peaks
open Sig Fit

/-- `num.Spline(x, y, k=k, s=None)`, `num.py:330-357`: the fit, `none` for an exception. -/
abbrev MkSpline := List ℝ → List ℝ → Option Fit

/-- One pass of the loop in `signal.py:571-580`: the points around the peak, a spline through the negative values, its minimum. `none`: an exception. -/
noncomputable def peakPos (mk : MkSpline) (s : Solvers) (x y : List ℝ) (spread : Nat) (i0 : Nat) : Option ℝ :=
  let sl : Nd.Sl := ⟨some ((i0 : Int) - spread), some ((i0 : Int) + 1 + spread), none⟩
  let xx := pySlice x sl
  let yy := pySlice y sl
  match mk xx (yy.map fun v => -v) with
  | none => none
  | some spl => getMin s spl none none

/-- `signal.find_peaks(y, x, k, spread, ymin)`, `signal.py:562-581`: the second result is `none` without `x`. -/
noncomputable def findPeaksX (mk : MkSpline) (s : Solvers) (y : List ℝ) (x : Option (List ℝ)) (spread : Nat) (ymin : Option ℝ) : Option (List Nat × Option (List ℝ)) :=
  match findPeaks y ymin with
  | none => none
  | some idx0 => match x with
    | none => some (idx0, none)
    | some x => match idx0.mapM (peakPos mk s x y spread) with
      | none => none
      | some pos0 => some (idx0, some pos0)

end Pwtools.Peaks
