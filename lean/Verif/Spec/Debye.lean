import Mathlib.Analysis.SpecialFunctions.Integrals.Basic
/-!
# Specification for C121
-/
namespace Pwtools.Spec

/-- The Debye function, `3 * integral from 0 to 1 of t^3 / (exp(t x) - 1)`. -/
noncomputable def debye (x : ℝ) : ℝ := 3 * ∫ t in (0:ℝ)..1, t ^ 3 / (Real.exp (t * x) - 1)

end Pwtools.Spec
