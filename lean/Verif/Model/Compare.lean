import Verif.Model.NdArray
import Verif.Model.Common
import Mathlib.Algebra.Order.Field.Basic
/-!
# Model of the comparison functions of `src/pwtools/test/tools.py`

`all_types_equal`, `all_types_almost_equal`, `dict_with_all_types_equal`,
`dict_with_all_types_almost_equal`, `array_equal`, `array_almost_equal`.

Values are `None`, `int`, `float`, `str`, numpy arrays of numbers and dicts with text keys. Numpy
scalars, bools, lists, NaN and rounding are not modelled; numbers are elements of an ordered field.
What numpy does (broadcasting, comparison with other types, truth of an array) is written out as
numpy documents it. The messages that are printed are not modelled.
-/
namespace Pwtools.Compare
open Nd

/-- The values that are compared. A dict is its list of items, an array has a data type. -/
inductive Val (R : Type) where
  | none
  | int (n : Int)
  | float (x : R)
  | str (s : Text)
  | arr (dtype : Text) (a : Arr R)
  | dict (items : List (Text × Val R))

/-- `type(x)`. -/
inductive Ty where
  | noneT | intT | floatT | strT | arrT | dictT
  deriving DecidableEq

/-- Exceptions. -/
inductive Err where
  | attribute | value | type | key
  deriving DecidableEq

/-- What a comparison returns. -/
abbrev Res := Except Err Bool

section
variable {R : Type}

/-- `type(x)`. -/
def ty : Val R → Ty
  | .none => .noneT
  | .int _ => .intT
  | .float _ => .floatT
  | .str _ => .strT
  | .arr _ _ => .arrT
  | .dict _ => .dictT

/-- numpy broadcasting of two shapes with the same number of axes; `none`: not possible. -/
def bshape : List Nat → List Nat → Option (List Nat)
  | [], [] => some []
  | m :: s, n :: t =>
      if m = n ∨ n = 1 then (bshape s t).map (m :: ·)
      else if m = 1 then (bshape s t).map (n :: ·)
      else none
  | _, _ => none

/-- All index tuples of an array, last index fastest. -/
def tuples : List Nat → List (List Nat)
  | [] => [[]]
  | n :: shape => (List.range n).flatMap (fun i => (tuples shape).map (i :: ·))

/-- Axes of length one are added in front. -/
def bpad (k : Nat) (s : List Nat) : List Nat := List.replicate (k - s.length) 1 ++ s

/-- Index tuple of an array with shape `shape` that belongs to an index tuple of the broadcast
array. -/
def bidx (shape idx : List Nat) : List Nat :=
  List.zipWith (fun n i => if n = 1 then 0 else i) shape (idx.drop (idx.length - shape.length))

/-- `f(a, b).all()` for an elementwise comparison; `none`: the shapes cannot be broadcast. -/
def bAll (f : R → R → Bool) (a b : Arr R) : Option Bool :=
  let k := max a.ndim b.ndim
  (bshape (bpad k a.shape) (bpad k b.shape)).map (fun out =>
    (tuples out).all (fun idx => f (a.get (bidx a.shape idx)) (b.get (bidx b.shape idx))))

/-- Numbers are arrays without an axis for numpy; `none`: no number and no array. -/
def toArr [IntCast R] : Val R → Option (Arr R)
  | .int n => some ⟨[], fun _ => (n : R)⟩
  | .float x => some ⟨[], fun _ => x⟩
  | .arr _ a => some a
  | _ => none

section eq
variable [IntCast R] [DecidableEq R]

/-- `a == b` of two Python objects which are no arrays and not both dicts. -/
def scalarEq : Val R → Val R → Bool
  | .none, .none => true
  | .int n, .int m => n = m
  | .int n, .float y => (n : R) = y
  | .float x, .int m => x = (m : R)
  | .float x, .float y => x = y
  | .str s, .str t => s = t
  | _, _ => false

/-- `default_equal`, `tools.py:220-221`, where the first argument is no array and no dict. The
comparison with an array is an array, the truth of which exists only for one element (also an empty
array is an error here, as in numpy ≥ 2.2). -/
def defaultEqual (v w : Val R) : Res :=
  match w with
  | .arr _ b =>
      match tuples b.shape with
      | [i] =>
          match toArr v with
          | some a => .ok (a.get [] = b.get i)
          | none => .ok false
      | _ => .error .value
  | _ => .ok (scalarEq v w)

/-- `array_equal`, `tools.py:224-226`. Comparing an array with something that is no number is
`False` for every element. Numbers of Python have no `ndim`. -/
def arrayEqual (dt : Text) (a : Arr R) (w : Val R) : Res :=
  match toArr w with
  | none => if (tuples a.shape).isEmpty then .error .attribute else .ok false
  | some b =>
      match bAll (fun x y => x = y) a b with
      | none => .error .value
      | some false => .ok false
      | some true =>
          match w with
          | .arr dt' b => .ok (a.ndim = b.ndim ∧ dt = dt')
          | _ => .error .attribute

/-- `all_types_no_dict_equal`, `tools.py:115-147` with the map `tools.py:241-244` and
`strict=False`. -/
def noDictEqual (v w : Val R) : Res :=
  match v with
  | .arr dt a => arrayEqual dt a w
  | v => defaultEqual v w
end eq

section almost
variable [Field R] [LinearOrder R]

/-- The keywords of `np.allclose`. -/
structure Tol (R : Type) where
  rtol : R
  atol : R

/-- `np.isclose(x, y)`. -/
def close (t : Tol R) (x y : R) : Bool := |x - y| ≤ t.atol + t.rtol * |y|

/-- `array_almost_equal`, `tools.py:229-231`. -/
def arrayAlmost (t : Tol R) (dt : Text) (a : Arr R) (w : Val R) : Res :=
  match toArr w with
  | none => .error .type
  | some b =>
      match bAll (close t) a b with
      | none => .error .value
      | some false => .ok false
      | some true =>
          match w with
          | .arr dt' b => .ok (a.ndim = b.ndim ∧ dt = dt')
          | _ => .error .attribute

/-- `float_almost_equal`, `tools.py:234-235`, for a number `x`. -/
def floatAlmost (t : Tol R) (x : R) (w : Val R) : Res :=
  match toArr w with
  | none => .error .type
  | some b =>
      match bAll (close t) ⟨[], fun _ => x⟩ b with
      | none => .error .value
      | some r => .ok r

/-- `all_types_no_dict_almost_equal`, `tools.py:115-147` with the map `tools.py:246-253` and
`strict=False`. `kwds`: tolerances given by the user (`default_equal` does not accept them), `dflt`:
the default values of `np.allclose`. -/
def noDictAlmost (dflt : Tol R) (kwds : Option (Tol R)) (v w : Val R) : Res :=
  match v with
  | .arr dt a => arrayAlmost (kwds.getD dflt) dt a w
  | .int n => floatAlmost (kwds.getD dflt) (n : R) w
  | .float x => floatAlmost (kwds.getD dflt) x w
  | v => if kwds.isSome then .error .type else defaultEqual v w
end almost

/-- `len(d1_keys) == len(d2_keys)` and `set(d1_keys) == set(d2_keys)`, `tools.py:176-184`. -/
def sameKeys (l1 l2 : List (Text × Val R)) : Bool :=
  l1.length = l2.length && (l1.map Prod.fst).all (fun k => (l2.map Prod.fst).contains k) &&
    (l2.map Prod.fst).all (fun k => (l1.map Prod.fst).contains k)

mutual
/-- The comparison of two values of a dict, `tools.py:196-202`: dicts by the recursion
`self(d1[key], d2[key])`, i.e. without `keys`, `strict` and `kwds` (`tools.py:198`), everything else
by the comparison function. -/
def cmpValue (leaf : Val R → Val R → Res) : Val R → Val R → Res
  | .dict l1, w => match w with
      | .dict l2 => if sameKeys l1 l2 then cmpItems leaf l1 l2 else .ok false
      | _ => .error .attribute
  | .none, w => leaf .none w
  | .int n, w => leaf (.int n) w
  | .float x, w => leaf (.float x) w
  | .str s, w => leaf (.str s) w
  | .arr dt a, w => leaf (.arr dt a) w
/-- The loop `tools.py:187-203` of the recursive call: over the keys of the first dict. After the
first `False` nothing is compared any more. -/
def cmpItems (leaf : Val R → Val R → Res) : List (Text × Val R) → List (Text × Val R) → Res
  | [], _ => .ok true
  | (k, v) :: rest, l2 => match l2.lookup k with
      | none => .error .key
      | some w => match cmpValue leaf v w with
          | .error e => .error e
          | .ok true => cmpItems leaf rest l2
          | .ok false => .ok false
end

/-- The loop `tools.py:187-203` of the first call. `leaf0` is the comparison function in the
recursion, `leaf` the one with the keywords given by the user. -/
def topLoop (leaf leaf0 : Val R → Val R → Res) (strict : Bool) (l1 l2 : List (Text × Val R)) :
    List Text → Bool → Res
  | [], ret => .ok ret
  | k :: ks, ret =>
      match l1.lookup k, l2.lookup k with
      | some v, some w =>
          if strict ∧ ty v ≠ ty w then .ok false
          else if ret then
            match (if ty v = .dictT then cmpValue leaf0 v w else leaf v w) with
            | .error e => .error e
            | .ok r => topLoop leaf leaf0 strict l1 l2 ks r
          else topLoop leaf leaf0 strict l1 l2 ks false
      | _, _ => .error .key

/-- `DictWithAllTypesFactory.__call__`, `tools.py:156-203`, for two dicts. -/
def dictCompare (leaf leaf0 : Val R → Val R → Res) (keys : Option (List Text)) (strict : Bool)
    (l1 l2 : List (Text × Val R)) : Res :=
  match keys with
  | some ks => topLoop leaf leaf0 strict l1 l2 ks true
  | none => if sameKeys l1 l2 then topLoop leaf leaf0 strict l1 l2 (l1.map Prod.fst) true else .ok false

/-- `dict_with_all_types_equal`, `tools.py:266`. -/
def dictEqual [IntCast R] [DecidableEq R] (keys : Option (List Text)) (strict : Bool)
    (l1 l2 : List (Text × Val R)) : Res :=
  dictCompare noDictEqual noDictEqual keys strict l1 l2

/-- `dict_with_all_types_almost_equal`, `tools.py:267`. -/
def dictAlmost [Field R] [LinearOrder R] (dflt : Tol R) (kwds : Option (Tol R)) (keys : Option (List Text))
    (strict : Bool) (l1 l2 : List (Text × Val R)) : Res :=
  dictCompare (noDictAlmost dflt kwds) (noDictAlmost dflt none) keys strict l1 l2

/-- `all_types_equal`, `tools.py:115-147` with the map `tools.py:269-270`: `strict` is not passed to
the comparison of dicts. -/
def allEqual [IntCast R] [DecidableEq R] (strict : Bool) (v w : Val R) : Res :=
  if strict ∧ ty v ≠ ty w then .ok false else
  match v, w with
  | .dict l1, .dict l2 => dictEqual none false l1 l2
  | .dict _, _ => .error .attribute
  | v, w => noDictEqual v w

/-- `all_types_almost_equal`, `tools.py:115-147` with the map `tools.py:271-272`. -/
def allAlmost [Field R] [LinearOrder R] (dflt : Tol R) (kwds : Option (Tol R)) (strict : Bool) (v w : Val R) : Res :=
  if strict ∧ ty v ≠ ty w then .ok false else
  match v, w with
  | .dict l1, .dict l2 => dictAlmost dflt kwds none false l1 l2
  | .dict _, _ => .error .attribute
  | v, w => noDictAlmost dflt kwds v w

end
end Pwtools.Compare
