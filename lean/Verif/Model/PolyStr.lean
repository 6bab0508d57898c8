import Verif.Model.Poly
import Verif.Model.Common
/-!
# Model of `poly_str` and `inner_points_mask`, `src/pwtools/num.py`
-/
namespace Pwtools.PolyStr
open Pwtools Pwtools.Poly

/-- `"x%i^%i" % (i, n)`, `num.py:1204`. -/
def factorStr (i n : Nat) : Text := 'x' :: strNat i ++ '^' :: strNat n

/-- `"a%i*" % ii + "*".join(…)`, `num.py:1204-1205`; `enumerate(pwr)` gives the pairs `(i, n)`. -/
def termStr (ii : Nat) (pwr : List Nat) : Text :=
  'a' :: strNat ii ++ '*' :: joinSep ['*'] (pwr.zipIdx.map fun e => factorStr e.2 e.1)

/-- One pass of the loop, `num.py:1206-1209`. -/
def addTerm (st term : Text) : Text := if st = [] then term else st ++ " + ".toList ++ term

/-- `num.poly_str(ndim, deg)`, `num.py:1200-1210`. -/
def polyStr (ndim deg : Nat) : Text :=
  (polyPowers ndim deg).zipIdx.foldl (fun st e => addTerm st (termStr e.2 e.1)) []

end Pwtools.PolyStr
