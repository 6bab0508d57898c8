import Mathlib.Data.Real.Basic
import Verif.Model.Eos
/-!
# Specification for C165
-/
namespace Pwtools.Spec

/-- Sum of the squared deviations of a curve from the data. -/
def sqError (E : ℝ → ℝ) (volume energy : List ℝ) : ℝ := (List.zipWith (fun v e => (e - E v) ^ 2) volume energy).sum

/-- No other parameters give a smaller sum of squares. -/
def BestVinet (E : Eos.Params → ℝ → ℝ) (volume energy : List ℝ) (p : Eos.Params) : Prop :=
  ∀ q, sqError (E p) volume energy ≤ sqError (E q) volume energy

end Pwtools.Spec
