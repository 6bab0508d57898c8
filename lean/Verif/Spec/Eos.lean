import Mathlib.Data.Real.Basic
/-!
# Specification: parabola through data
-/
namespace Pwtools.Spec

/-- Sum of the squared deviations of the parabola `a v² + b v + c` from the data. -/
def parabolaError (volume energy : List ℝ) (a b c : ℝ) : ℝ :=
  (List.zipWith (fun v e => (a * v ^ 2 + b * v + c - e) ^ 2) volume energy).sum

/-- `polyfit` returns a parabola of least squares. -/
def IsParabolaFit (polyfit : List ℝ → List ℝ → ℝ × ℝ × ℝ) : Prop :=
  ∀ volume energy, volume.length = energy.length → ∀ a b c,
    parabolaError volume energy (polyfit volume energy).1 (polyfit volume energy).2.1 (polyfit volume energy).2.2
      ≤ parabolaError volume energy a b c

end Pwtools.Spec
