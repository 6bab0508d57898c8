import Verif.Model.Fir
/-!
# Specification for C172: digital filters
-/
namespace Pwtools.Spec
open Pwtools.Fir

/-- The (real) gain of symmetric coefficients at the angle `ω` per sample. -/
noncomputable def firGain (b : List ℝ) (ω : ℝ) : ℝ :=
  ∑ k ∈ Finset.range b.length, b.getD k 0 * Real.cos (ω * ((k : ℝ) - ((b.length : ℝ) - 1) / 2))

/-- The angle at which `firwin` normalises the first pass band: 0 if it begins at 0, the Nyquist frequency if it ends there, else its
middle. -/
noncomputable def passAngle (nyq : ℝ) : Bool → List ℝ → ℝ
  | true, _ => 0
  | false, a :: b :: _ => Real.pi * ((a + b) / 2) / nyq
  | false, _ => Real.pi

/-- What is used of `firwin`: as many coefficients as requested, symmetric, gain 1 at the angle of normalisation. -/
def IsFirwin (fw : FirArgs → Option (List ℝ)) : Prop :=
  ∀ a b, fw a = some b → b.length = a.numtaps ∧ b.reverse = b ∧ firGain b (passAngle a.nyq a.passZero a.cutoff.edges) = 1

/-- `x[n] = f n` for all samples. -/
def IsSignal {V : Type*} (x : List V) (f : Nat → V) : Prop := ∀ (n : Nat) (v : V), x[n]? = some v → v = f n

end Pwtools.Spec
