import Verif.Model.Common
import Mathlib.Logic.Function.Basic
/-!
# Objects which share data: `Structure.copy`, `compress`, `fit_opt`, `open_and_close`
-/
namespace Pwtools.Alias

/-! ## `Structure.copy`, `Structure.compress` -/

/-- Values of attributes: arrays of floats with the size of their type, and everything else (arrays of integers, lists, dicts, scalars). -/
inductive AVal (V : Type) where
  | floats (size : Nat) (v : V)
  | other (v : V)
  deriving DecidableEq

/-- Memory: the objects at addresses below `next`. -/
structure Heap (V : Type) where
  /-- contents -/
  cell : Nat → AVal V
  /-- first free address -/
  next : Nat

/-- An instance: for each attribute the address of its value, `none` for `None`. -/
abbrev Obj := Text → Option Nat

/-- The value of an attribute. -/
def view {V : Type} (h : Heap V) (o : Obj) (name : Text) : Option (AVal V) := (o name).map h.cell

/-- A new object in memory. -/
def alloc {V : Type} (h : Heap V) (v : AVal V) : Heap V × Nat :=
  (⟨Function.update h.cell h.next v, h.next + 1⟩, h.next)

/-- In-place change of an object (`arr[...] = ...`). -/
def write {V : Type} (h : Heap V) (a : Nat) (v : AVal V) : Heap V := { h with cell := Function.update h.cell a v }

/-- `Structure.copy`, `crys.py:2510-2526`, for the names in `attr_lst`: `None` stays, all else is copied (`val.copy()` or `copy.deepcopy(val)`: a
new object with an equal value; lists and dicts of structures contain only texts and numbers, which cannot be changed in place). -/
def copyLoop {V : Type} (src : Obj) : List Text → Heap V → Obj → Heap V × Obj
  | [], h, o => (h, o)
  | name :: rest, h, o =>
    match src name with
    | none => copyLoop src rest h (Function.update o name none)
    | some a =>
      let r := alloc h (h.cell a)
      copyLoop src rest r.1 (Function.update o name (some r.2))

/-- `copy`: a new instance starts with all attributes `None`. -/
def copy {V : Type} (attrLst : List Text) (h : Heap V) (o : Obj) : Heap V × Obj := copyLoop o attrLst h fun _ => none

/-- `Structure.compress`, `crys.py:2489-2508`: attributes in `forget` are set to `None`, float arrays of another type are replaced by a
converted array (`astype` makes a new one). `cast` is the conversion of the numbers. -/
def compressLoop {V : Type} (cast : Nat → V → V) (forget : List Text) (size : Nat) : List Text → Heap V → Obj → Heap V × Obj
  | [], h, o => (h, o)
  | name :: rest, h, o =>
    if name ∈ forget then compressLoop cast forget size rest h (Function.update o name none)
    else match view h o name with
      | some (.floats s v) =>
        if s ≠ size then
          let r := alloc h (.floats size (cast size v))
          compressLoop cast forget size rest r.1 (Function.update o name (some r.2))
        else compressLoop cast forget size rest h o
      | _ => compressLoop cast forget size rest h o

/-- `crys.compress`, `crys.py:2997-3017`: memory afterwards, the argument afterwards, the result. -/
def compress {V : Type} (cast : Nat → V → V) (attrLst forget : List Text) (size : Nat) (doCopy : Bool) (h : Heap V) (o : Obj) :
    Heap V × Obj × Obj :=
  if doCopy then
    let c := copy attrLst h o
    let r := compressLoop cast forget size attrLst c.1 c.2
    (r.1, o, r.2)
  else
    let r := compressLoop cast forget size attrLst h o
    (r.1, r.2, r.2)

/-! ## `fit_opt` -/

/-- A dict of keyword arguments. -/
abbrev Kw (V : Type) := Text → Option V

/-- `method`. -/
inductive Method where
  | de | fmin | brute
  deriving DecidableEq, Repr

/-- The keyword with the start value or the bounds. -/
def Method.key : Method → Text
  | .de => "bounds".toList
  | .fmin => "x0".toList
  | .brute => "ranges".toList

/-- `d.pop(key, default)`: the value and the dict afterwards (the dict of the caller is changed). -/
def pop {V : Type} (d : Kw V) (key : Text) (dflt : V) : V × Kw V := ((d key).getD dflt, Function.update d key none)

/-- What the optimizer is called with. -/
structure OptCall (V : Type) where
  /-- start values or bounds -/
  start : V
  /-- `disp` -/
  disp : V
  /-- `**opt_kwds` -/
  kwds : Kw V

/-- `fit_opt`, `rbf/hyperopt.py:221-243`: the call of the optimizer, and the dict `opt_kwds` of the caller afterwards. `dflt` is the default for
start values or bounds, `no` is `False`. -/
def fitOptCall {V : Type} (m : Method) (dflt no : V) (optKwds : Kw V) : OptCall V × Kw V :=
  let r := pop optKwds "disp".toList no
  let s := pop r.2 m.key dflt
  (⟨s.1, r.1, s.2⟩, s.2)

/-- Several calls in a row with the same dict object. -/
def fitOptCalls {V : Type} (no : V) : List (Method × V) → Kw V → List (OptCall V)
  | [], _ => []
  | (m, dflt) :: rest, d => (fitOptCall m dflt no d).1 :: fitOptCalls no rest (fitOptCall m dflt no d).2

/-- `fit_opt`, `rbf/hyperopt.py:207-216`, `244-247`: the keywords of the returned `Rbf`; `none` for the failed assertion that no optimized
parameter is in `rbf_kwds`. `what` is `['p']` or `['p', 'r']`. -/
def fitOptResult {V : Type} (what : List Text) (rbfKwds : Kw V) (xopt : List V) : Option (Kw V) :=
  if what.any fun k => (rbfKwds k).isSome then none
  else some ((what.zip xopt).foldl (fun d p => Function.update d p.1 (some p.2)) rbfKwds)

/-! ## `open_and_close` -/

/-- What happens to files. -/
inductive Ev where
  | opened (fn : Text) (gzip : Bool)
  | used (fn : Text)
  | closed (fn : Text)
  deriving DecidableEq, Repr

/-- First argument of the decorated function. -/
inductive Arg where
  | name (fn : Text)
  | handle (fn : Text)
  deriving DecidableEq, Repr

/-- `fn.endswith('.gz')`. -/
def isGz (fn : Text) : Bool := ".gz".toList.isSuffixOf fn

/-- `open_and_close`, `decorators.py:40-68`: events and result. `res` is what the function does with the file: a value or an exception. -/
def openAndClose {α ε : Type} (arg : Arg) (res : Except ε α) : List Ev × Except ε α :=
  match arg with
  | .name fn =>
    match res with
    | .ok v => ([.opened fn (isGz fn), .used fn, .closed fn], .ok v)
    | .error e => ([.opened fn (isGz fn), .used fn], .error e)
  | .handle fn => ([.used fn], res)

end Pwtools.Alias
