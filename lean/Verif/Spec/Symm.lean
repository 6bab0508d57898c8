import Verif.Model.Symm
/-!
# Specification for C106
-/
namespace Pwtools.Spec
open Symm

/-- A valid structure: one row of three coordinates per atom, six cell parameters. -/
structure ValidSt (s : St) : Prop where
  /-- one row per atom -/
  rows : s.coordsFrac.length = s.symbols.length
  /-- three columns -/
  cols : ∀ r ∈ s.coordsFrac, r.length = 3
  /-- cell parameters -/
  cc : s.crystConst.length = 6

/-- Two structures agree up to the tolerances of `np.allclose`, with the same symbols in the same order. -/
def Agree (a b : St) : Prop :=
  a.symbols = b.symbols ∧ close a.volume b.volume ∧
  (∀ (i : Nat) (x y : ℝ), a.crystConst[i]? = some x → b.crystConst[i]? = some y → close x y) ∧
  ∀ (i j : Nat) (r s : List ℝ) (x y : ℝ), a.coordsFrac[i]? = some r → b.coordsFrac[i]? = some s → r[j]? = some x → s[j]? = some y → close x y

end Pwtools.Spec
