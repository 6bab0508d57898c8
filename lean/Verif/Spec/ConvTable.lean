import Verif.Model.Common
import Mathlib.Algebra.Order.Group.Abs
/-!
# Specification for C102 (convergence tables)
-/
namespace Pwtools.Spec

/-- The entry for the values `y 0, ..., y (m-1)` in row `i`: the difference to the next value (zero in the last row) or to the last value. -/
def convEntry {R : Type} [AddCommGroup R] [LinearOrder R] (next absdiff : Bool) (m : Nat) (y : Nat → R) (i : Nat) : R :=
  let d := if next then (if i + 1 < m then y (i + 1) - y i else 0) else y (m - 1) - y i
  if absdiff then |d| else d

/-- One line of the table: `x`, then for each quantity the difference, followed by the value itself if `orig`. -/
def convLine {R X : Type} [AddCommGroup R] [LinearOrder R] (sfmt : X → Text) (ffmt : R → Text) (next orig absdiff : Bool) (m : Nat)
    (ys : List (Nat → R)) (x : X) (i : Nat) : Text :=
  sfmt x ++ (ys.flatMap fun y => ffmt (convEntry next absdiff m y i) ++ (if orig then ffmt (y i) else [])) ++ ['\n']

end Pwtools.Spec
