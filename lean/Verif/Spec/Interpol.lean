import Verif.Model.Interpol
import Verif.Spec.Rbf
/-!
# Specification for C171: the common interface of interpolators
-/
namespace Pwtools.Spec
open Pwtools.Interpol

/-- The radial function of an interpolator's name, of the squared distance `s` and the parameter `p`. -/
noncomputable def radial (what : String) (s p : ℝ) : ℝ :=
  if what = "rbf_gauss" then Real.exp (-s / (2 * p ^ 2))
  else if what = "rbf_multi" then √(s + p ^ 2)
  else 1 / √(s + p ^ 2)

/-- The names of the radial basis function interpolators. -/
def IsRbfName (what : String) : Prop := what = "rbf_multi" ∨ what = "rbf_inv_multi" ∨ what = "rbf_gauss"

/-- A minimiser that returns a point which is not worse than the start. -/
def Improves (fmin : Fun2 → ℝ × ℝ → ℝ × ℝ) : Prop :=
  ∀ (f : Fun2) (q : ℝ × ℝ) (v : ℝ), f q = some v → ∃ v', f (fmin f q) = some v' ∧ v' ≤ v

/-- The interpolator takes the value `vals[i]` at `pts[i]`. -/
def Hits (f : Fun2) (pts : List (ℝ × ℝ)) (vals : List ℝ) : Prop :=
  ∀ (i : Nat) (q : ℝ × ℝ) (v : ℝ), pts[i]? = some q → vals[i]? = some v → f q = some v

end Pwtools.Spec
