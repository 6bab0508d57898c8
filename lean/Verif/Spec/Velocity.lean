import Verif.Model.Pbc
import Mathlib.Analysis.Calculus.Deriv.Basic
/-!
# Specification for C174: velocities from positions
-/
namespace Pwtools.Spec

/-- A motion sampled at `n` times with the step `dt`, beginning at `t0`. -/
def samples {E : Type} (x : ℝ → E) (t0 dt : ℝ) (n : Nat) : List E := (List.range n).map fun i : Nat => x (t0 + i * dt)

/-- A motion with its velocity, acceleration and the derivative of the acceleration, which is bounded by `M`. -/
structure SmoothMotion {E : Type} [NormedAddCommGroup E] [NormedSpace ℝ E] (x v a j : ℝ → E) (M : ℝ) : Prop where
  vel : ∀ t, HasDerivAt x (v t) t
  acc : ∀ t, HasDerivAt v (a t) t
  jerk : ∀ t, HasDerivAt a (j t) t
  bound : ∀ t, ‖j t‖ ≤ M

end Pwtools.Spec
