import Mathlib.Data.Real.Basic
import Mathlib.Algebra.BigOperators.Fin
/-!
# Specification for C63, C64
-/
namespace Pwtools.Spec

/-- The mass weighted velocity autocorrelation `C(t) = Σ_i m_i Σ_s v_i(s) · v_i(s+t)` over all pairs of times
at distance `t`. -/
def vacf (nstep natoms : Nat) (v : Nat → Nat → Fin 3 → ℝ) (m : Nat → ℝ) (t : Nat) : ℝ :=
  ∑ i ∈ Finset.range natoms, m i * ∑ s ∈ Finset.range (nstep - t), ∑ d, v s i d * v (s + t) i d

end Pwtools.Spec
