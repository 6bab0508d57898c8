import Mathlib.Analysis.Convex.Hull
import Mathlib.Analysis.Convex.Combination
import Mathlib.Data.Real.Basic
import Mathlib.Algebra.BigOperators.Fin
import Mathlib.Algebra.Module.Pi
/-!
# Specification for C152
-/
namespace Pwtools.Spec

/-- `p` is an edge point of the set `S`: some direction has no point of `S` further out than `p`. -/
def EdgePoint {d : Nat} (S : Set (Fin d → ℝ)) (p : Fin d → ℝ) : Prop :=
  p ∈ S ∧ ∃ w : Fin d → ℝ, w ≠ 0 ∧ ∀ q ∈ S, ∑ j, w j * q j ≤ ∑ j, w j * p j

/-- `hull` lists facets of the convex hull of `points`: it names points of the list, only edge points, and the
points named span the whole hull. -/
def HullOf {d : Nat} (points : List (Fin d → ℝ)) (hull : List (List Nat)) : Prop :=
  (∀ f ∈ hull, ∀ i ∈ f, ∃ p, points[i]? = some p ∧ EdgePoint {q | q ∈ points} p) ∧
  ∀ p ∈ points, p ∈ convexHull ℝ {q | ∃ f ∈ hull, ∃ i ∈ f, points[i]? = some q}

end Pwtools.Spec
