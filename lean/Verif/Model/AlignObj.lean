import Verif.Model.Cell
import Verif.Model.Common
/-!
# Model of `crys.align_cart` for structures and trajectories with all its arguments: `crys.py:3272-3353`
-/
namespace Pwtools.Cry

/-- The attributes of a `Structure` or `Trajectory` which `align_cart` uses, `crys.py:3349-3352`: cell and fractional coordinates of each time
step (a structure has one), and the symbols. -/
structure AObj where
  isTraj : Bool
  symbols : List Text
  steps : List (Cell × List V3)

/-- Arguments of `align_cart`, `crys.py:3272`. -/
structure AArgs where
  x : Option V3
  y : Option V3
  vecs : Option (V3 × V3 × V3)
  indices : Option (List Int)
  cart : Option Cell

/-- Exceptions. -/
inductive AErr | assertion | index | attribute | type
deriving DecidableEq

/-- `l[i]` of Python, as used in `crys.py:3330-3336`. -/
def pyAt {α : Type} (l : List α) (i : Int) : Option α :=
  if 0 ≤ i then l[i.toNat]? else if -i ≤ l.length then l[(l.length + i).toNat]? else none

/-- Cartesian positions of three atoms in one time step, `crys.py:3330-3336`. -/
noncomputable def three (p : Cell × List V3) (i j k : Int) : Except AErr (V3 × V3 × V3) :=
  match pyAt p.2 i, pyAt p.2 j, pyAt p.2 k with
  | some a, some b, some c => .ok (frac2cart p.1 a, frac2cart p.1 b, frac2cart p.1 c)
  | _, _, _ => .error .index

/-- `v0, v1, v2`, `crys.py:3323-3336`. Four indices with a structure give scalars and three indices with a trajectory give 2d arrays; both are
rejected by the assertion in `num.norm` (`num.py:1767`; the exception is another one if they are out of range). -/
noncomputable def points (o : AObj) (a : AArgs) : Except AErr (V3 × V3 × V3) :=
  match a.indices with
  | none => match a.vecs with
    | none => .error .type
    | some v => .ok v
  | some [s, i, j, k] =>
    if o.isTraj then match pyAt o.steps s with
      | some p => three p i j k
      | none => .error .index
    else .error .assertion
  | some (i :: j :: k :: _) =>
    if o.isTraj then .error .assertion
    else match o.steps with
      | p :: _ => three p i j k
      | [] => .error .index
  | some _ => .error .index

/-- The new cartesian system, `crys.py:3321-3342`. -/
noncomputable def axesOf (o : AObj) (a : AArgs) : Except AErr Cell :=
  match a.cart with
  | some c => .ok c
  | none => match a.x, a.y with
    | none, none => match points o a with
      | .ok (v0, v1, v2) => .ok (cartFrom (v1 - v0) (v2 - v0))
      | .error e => .error e
    | some x, some y => .ok (cartFrom x y)
    | _, _ => .error .attribute

open Classical in
/-- `align_cart`, `crys.py:3321-3353`: check of the system, new cells, the same fractional coordinates. -/
noncomputable def alignObj (o : AObj) (a : AArgs) (eps : ℝ) : Except AErr AObj :=
  match axesOf o a with
  | .error e => .error e
  | .ok cart =>
    if 0 < eps ∧ ¬ allclose cart⁻¹ cart.transpose eps then .error .assertion
    else .ok { o with steps := o.steps.map (fun p => (p.1 * cart.transpose, p.2)) }

end Pwtools.Cry
