import Verif.Model.Getters
import Verif.Model.NdArray
/-!
# Model of the other methods of `base.FlexibleGetters` (`src/pwtools/base.py`), and of an object over its life

Getters and their recursion are in `Model/Getters.lean`. An assignment of an attribute by the user is not modelled here; values which were there at first are `init` in the properties.
-/
namespace Pwtools.GL

variable {N V : Type} [DecidableEq N]

/-- `init_attr_lst`, `base.py:150-154`: each attribute is None. (`set_attr_lst`, `base.py:145-148`, does the same and keeps the list.) -/
def initAttrs (l : List N) (s : GSt N V) : GSt N V := l.foldl (fun s a => s.set a none) s

/-- `is_set_attr_lst`, `base.py:208-213`. -/
def isSetLst (l : List N) (s : GSt N V) : Bool := l.all s.isSet

/-- Outcome of a call: a value (`none`: None), True or False, nothing, an `AssertionError` of the `assert_*` methods, or another exception (recursion limit, errors of `slicetake`). -/
inductive Res (V : Type) where
  | value (v : Option V)
  | bool (b : Bool)
  | nothing
  | assertion
  | raised

/-- `assert_attr_lst` with `assert_attr`, `base.py:269-277`. -/
def assertAttrs (l : List N) (s : GSt N V) : Res V := if l.all s.isSet then .nothing else .assertion

/-- `assert_set_attr_lst` with `assert_set_attr`, `base.py:279-286`: stops at the first attribute which cannot be set. -/
def assertSet (G : N → Prog N V) (fuel : Nat) : List N → GSt N V → Res V × GSt N V
  | [], s => (.nothing, s)
  | a :: l, s => match trySetAttr G fuel a s with
    | none => (.raised, s)
    | some s' => if s'.isSet a then assertSet G fuel l s' else (.assertion, s')

/-- `get_return_attr`, `base.py:322-328`. -/
def getReturn (G : N → Prog N V) (fuel : Nat) (a : N) (s : GSt N V) : Res V × GSt N V :=
  match trySetAttr G fuel a s with
  | none => (.raised, s)
  | some s' => (.value (if s'.isSet a then s'.attr a else none), s')

/-- A call of a method. -/
inductive Op (N : Type) where
  | set (l : List N)        -- `try_set_attr_lst`, `set_all`
  | check (l : List N)      -- `check_set_attr_lst`
  | get (a : N)             -- `get_return_attr`
  | isSet (l : List N)      -- `is_set_attr_lst`
  | assertAttrs (l : List N)
  | assertSet (l : List N)
  | init (l : List N)       -- `init_attr_lst`, `set_attr_lst`

/-- One call. After a `RecursionError` attributes which were set stay; as it cannot happen in what is proved, the object is left as it is. -/
def step (G : N → Prog N V) (fuel : Nat) : Op N → GSt N V → Res V × GSt N V
  | .set l, s => match setAll G fuel l s with
    | none => (.raised, s)
    | some s' => (.nothing, s')
  | .check l, s => match checkSetAttrLst G fuel l s with
    | none => (.raised, s)
    | some (b, s') => (.bool b, s')
  | .get a, s => getReturn G fuel a s
  | .isSet l, s => (.bool (isSetLst l s), s)
  | .assertAttrs l, s => (Pwtools.GL.assertAttrs l s, s)
  | .assertSet l, s => Pwtools.GL.assertSet G fuel l s
  | .init l, s => (.nothing, initAttrs l s)

/-- A history of calls. -/
def run (G : N → Prog N V) (fuel : Nat) (ops : List (Op N)) (s : GSt N V) : GSt N V := ops.foldl (fun s o => (step G fuel o s).2) s

/-! ## Attributes `_<name>_raw` -/

/-- The name of the attribute, `base.py:296, 315`. -/
def rawName (name : List Char) : List Char := "_".toList ++ name ++ "_raw".toList

/-- What `raw_slice_get` and `raw_return` return: None, an array, or a single number. -/
inductive RawRes (α : Type) where
  | none
  | arr (a : Nd.Arr α)
  | scalar (x : α)
  | raised

/-- `raw_return`, `base.py:309-320`. -/
def rawReturn {α : Type} (G : List Char → Prog (List Char) (Nd.Arr α)) (fuel : Nat) (name : List Char) (s : GSt (List Char) (Nd.Arr α)) : RawRes α × GSt (List Char) (Nd.Arr α) :=
  match trySetAttr G fuel (rawName name) s with
  | Option.none => (.raised, s)
  | some s' => match s'.attr (rawName name) with
    | some a => (.arr a, s')
    | Option.none => (.none, s')

/-- `raw_slice_get`, `base.py:288-307`. -/
def rawSliceGet {α : Type} (G : List Char → Prog (List Char) (Nd.Arr α)) (fuel : Nat) (name : List Char) (sl : Nd.Ix) (axis : Int) (s : GSt (List Char) (Nd.Arr α)) :
    RawRes α × GSt (List Char) (Nd.Arr α) :=
  match checkSetAttr G fuel (rawName name) s with
  | Option.none => (.raised, s)
  | some (false, s') => (.none, s')
  | some (true, s') => match s'.attr (rawName name) with
    | Option.none => (.none, s')
    | some a => match Nd.slicetake a sl axis with
      | .error _ => (.raised, s')
      | .ok ret => if ret.ndim = 1 ∧ ret.shape.headD 0 = 1 then (.scalar (ret.get [0]), s') else (.arr ret, s')

end Pwtools.GL
