import Verif.Model.Signal
import Verif.Spec.NdArray
/-!
# Specification for C126
-/
namespace Pwtools.Spec

/-- `b` is the discrete Fourier transform of `a` along axis `ax`: each value is the sum over the line of `a` through the same place, with the
factors `exp(-2 pi i k m / n)`. -/
def IsFftAlong (ax n : Nat) (a b : Nd.Arr ℂ) : Prop :=
  b.shape = a.shape ∧ ∀ J k, InShape J a.shape → J[ax]? = some k →
    b.get J = ∑ m ∈ Finset.range n, a.get (J.set ax m) * Complex.exp (-2 * Real.pi * Complex.I * (k : ℂ) * (m : ℂ) / n)

end Pwtools.Spec
