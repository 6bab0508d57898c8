import Verif.Model.Thermo
import Mathlib.Data.List.Forall2
/-!
# Specification for C125
-/
namespace Pwtools.Spec

/-- Points of a phonon DOS: frequencies are positive, or zero with zero DOS. -/
def GoodDos (dos f : List ℝ) : Prop := List.Forall₂ (fun d x => 0 < x ∨ (x = 0 ∧ d = 0)) dos f

/-- The zero point energy ∫ g(f) h f / 2 by the trapezoidal rule, in eV. -/
noncomputable def zeroPoint (c : Thermo.Const) (dos f : List ℝ) : ℝ :=
  Num.trapz (List.zipWith (fun d x => d * (c.h * x / 2)) dos f) f / c.eV

end Pwtools.Spec
