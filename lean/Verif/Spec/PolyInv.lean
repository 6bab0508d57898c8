import Verif.Spec.Poly
/-!
# Specification for C160
-/
namespace Pwtools.Spec

/-- The points determine polynomials of the degree: one which is zero at all of them is zero everywhere. -/
def Determines {d : Nat} (deg : Nat) (points : List (Fin d → ℝ)) : Prop :=
  ∀ g, IsPoly deg g → (∀ x ∈ points, g x = 0) → ∀ x, g x = 0

end Pwtools.Spec
