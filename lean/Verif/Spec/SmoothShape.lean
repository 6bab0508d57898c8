import Mathlib.Analysis.Convex.Basic
import Mathlib.Data.Real.Basic
import Mathlib.Algebra.BigOperators.Group.Finset.Basic
import Mathlib.Algebra.BigOperators.Intervals
/-!
# Specification for C168: what smoothing does to data
-/
namespace Pwtools.Spec

/-- A window of non-negative weights that are not all zero. -/
def IsWindow (kern : List ℝ) : Prop := (∀ v ∈ kern, 0 ≤ v) ∧ 0 < kern.sum

/-- The position of the centre of mass of the kernel, counted from its first entry. -/
noncomputable def kernCentre (kern : List ℝ) : ℝ :=
  (∑ j ∈ Finset.range kern.length, kern.getD j 0 * j) / kern.sum

/-- The line `i ↦ a + i b` at the `N` positions `0, 1, ...`. -/
def ramp {E : Type} [AddCommGroup E] [Module ℝ E] (N : Nat) (a b : E) : List E :=
  (List.range N).map (fun i : Nat => a + (i : ℝ) • b)

end Pwtools.Spec
