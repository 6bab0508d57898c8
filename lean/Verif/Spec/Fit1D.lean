import Verif.Model.Fit1D
import Mathlib.Topology.ContinuousOn
import Mathlib.Topology.Instances.Real.Lemmas
/-!
# Specification for C109
-/
namespace Pwtools.Spec
open Fit

/-- The documented behaviour of `brentq` in exact arithmetic: an error if there is no change of sign, else a root in the interval. -/
structure GoodBrent (s : Solvers) : Prop where
  /-- no change of sign -/
  raises : ∀ f a b, 0 < f a * f b → s.brentq f a b = none
  /-- what is returned is a root -/
  root : ∀ f a b x, a ≤ b → s.brentq f a b = some x → f x = 0 ∧ a ≤ x ∧ x ≤ b
  /-- there is a result for continuous functions which change sign -/
  total : ∀ f a b, a ≤ b → ContinuousOn f (Set.Icc a b) → f a * f b ≤ 0 → ∃ x, s.brentq f a b = some x

/-- One value per point, with the shape of the points: a number for a number, an array of the same length for an array. -/
def SameShape {α : Type} (f : α → α) : Pts α → Option (Res α)
  | .scalar x => some (.scalar (f x))
  | .vec l => some (.arr (l.map f))
  | .mat 1 rows => some (.arr (rows.flatten.map f))
  | _ => none

end Pwtools.Spec
