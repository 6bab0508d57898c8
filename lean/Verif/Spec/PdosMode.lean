import Mathlib.Analysis.SpecialFunctions.Trigonometric.Basic
import Mathlib.Algebra.BigOperators.Fin
/-!
# Specification for C166
-/
namespace Pwtools.Spec

/-- The velocity (atom `i`, direction `d`, step `s` of `n`) of a harmonic motion: mode `k` oscillates `k` times within `n` steps, with the
amplitudes `a` (cosine) and `b` (sine). All modes with `0 < k < K`. -/
noncomputable def modeVel (n K : Nat) (a b : Nat → Nat → Fin 3 → ℝ) (s i : Nat) (d : Fin 3) : ℝ :=
  ∑ k ∈ Finset.Ico 1 K, (a k i d * Real.cos (2 * Real.pi * k * s / n) + b k i d * Real.sin (2 * Real.pi * k * s / n))

/-- The mass weighted square of the amplitudes of mode `k` (four times its mean kinetic energy); zero for `k = 0`. -/
def modeWeight (natoms : Nat) (m : Nat → ℝ) (a b : Nat → Nat → Fin 3 → ℝ) (k : Nat) : ℝ :=
  if k = 0 then 0 else ∑ i ∈ Finset.range natoms, m i * ∑ d, (a k i d ^ 2 + b k i d ^ 2)

end Pwtools.Spec
