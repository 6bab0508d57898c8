import Verif.Spec.PwText
import Verif.Spec.Num
/-!
# Specification for C187: plots of dispersions
-/
namespace Pwtools.Spec

/-- A row of numbers as a vector. -/
def kVec (r : List Rat) : Fin 3 → ℝ := fun c => ((r.getD c.val 0 : Rat) : ℝ)

/-- `x` are positions on a path such that their differences are the distances of successive k-points. -/
def OnPath (ks : List (List Rat)) (x : List ℝ) : Prop :=
  x.length = ks.length ∧ ∀ (i : Nat) a b u v, ks[i]? = some a → ks[i + 1]? = some b → x[i]? = some u → x[i + 1]? = some v →
    v - u = euclid (kVec a) (kVec b)

end Pwtools.Spec
