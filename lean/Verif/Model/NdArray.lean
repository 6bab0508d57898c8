import Mathlib.Algebra.BigOperators.Group.List.Basic
/-!
# Model of numpy arrays and of the axis helpers of `src/pwtools/num.py`

`slicetake`, `sliceput`, `extend_array`, `sum`.

Simplifications: an array is its shape and a function from index tuples to values, only the
values at index tuples inside the shape are the array; views and copies are not distinguished
(they are in `Model/SliceView.lean`); index arrays and `Ellipsis` in index tuples
are not modelled. numpy's own behaviour (basic slicing, `arr.sum(axis=...)`, `np.repeat`,
`None` = new axis) is written out below as numpy documents it.
-/
namespace Pwtools.Nd

/-- A numpy array: shape and values. -/
structure Arr (α : Type) where
  shape : List Nat
  get : List Nat → α

/-- `a.ndim`. -/
def Arr.ndim {α : Type} (a : Arr α) : Nat := a.shape.length

/-- Exceptions. -/
inductive NErr where
  | index      -- IndexError
  | axis       -- numpy AxisError
  | assertion  -- AssertionError
  | value      -- ValueError
  | strange    -- `Exception("axis=None + keepdims=True makes no sense")`
  deriving DecidableEq, Repr

/-- A Python `slice(start, stop, step)` object. -/
structure Sl where
  start : Option Int := none
  stop : Option Int := none
  step : Option Int := none
  deriving DecidableEq, Repr

/-- `slice.indices(n)` of CPython (`PySlice_AdjustIndices`): first index, step and number of
items. `none`: `ValueError`, step zero. Used by every `a[...]` of numpy. -/
def Sl.indices (s : Sl) (n : Nat) : Option (Int × Int × Nat) :=
  let step := s.step.getD 1
  if step = 0 then none else
  let lower : Int := if step < 0 then -1 else 0
  let upper : Int := if step < 0 then (n : Int) - 1 else n
  let adjust (x : Int) : Int := if x < 0 then max (x + n) lower else min x upper
  let start := match s.start with
    | none => if step < 0 then upper else lower
    | some x => adjust x
  let stop := match s.stop with
    | none => if step < 0 then lower else upper
    | some x => adjust x
  let count : Nat :=
    if step < 0 then (if stop < start then ((start - stop - 1) / (-step) + 1).toNat else 0)
    else (if start < stop then ((stop - start - 1) / step + 1).toNat else 0)
  some (start, step, count)

/-- One item of an index tuple: a slice object, an integer or `None` (a new axis). -/
inductive Ix where
  | sl (s : Sl)
  | int (i : Int)
  | newaxis
  deriving DecidableEq, Repr

/-- `slice(None)`. -/
def Ix.full : Ix := .sl {}

/-- Item of a Python sequence of length `n` meant by the integer `i`; `none`: `IndexError`. -/
def pyIndex (n : Nat) (i : Int) : Option Nat :=
  if 0 ≤ i then (if i < n then some i.toNat else none)
  else (if 0 ≤ i + n then some (i + n).toNat else none)

/-- numpy basic indexing `a[ixs]` for a tuple `ixs`: the shape of the result and the index tuple
of `a` belonging to an index tuple of the result. Axes without an item are taken completely. -/
def takeAll : List Nat → List Ix → Except NErr (List Nat × (List Nat → List Nat))
  | shape, [] => .ok (shape, id)
  | shape, .newaxis :: ixs =>
      match takeAll shape ixs with
      | .ok (sh, m) => .ok (1 :: sh, fun idx => m idx.tail)
      | .error e => .error e
  | [], _ :: _ => .error .index
  | n :: shape, .sl s :: ixs =>
      match s.indices n with
      | none => .error .value
      | some (start, step, count) =>
          match takeAll shape ixs with
          | .ok (sh, m) => .ok (count :: sh,
              fun idx => (start + (idx.headD 0 : Nat) * step).toNat :: m idx.tail)
          | .error e => .error e
  | n :: shape, .int i :: ixs =>
      match pyIndex n i with
      | none => .error .index
      | some j =>
          match takeAll shape ixs with
          | .ok (sh, m) => .ok (sh, fun idx => j :: m idx)
          | .error e => .error e

/-- `a[tuple(ixs)]`. -/
def Arr.index {α : Type} (a : Arr α) (ixs : List Ix) : Except NErr (Arr α) :=
  match takeAll a.shape ixs with
  | .ok (sh, m) => .ok ⟨sh, fun idx => a.get (m idx)⟩
  | .error e => .error e

/-- `lst[i] = x` for a Python list. -/
def listSet {β : Type} (l : List β) (i : Int) (x : β) : Except NErr (List β) :=
  match pyIndex l.length i with
  | some j => .ok (l.set j x)
  | none => .error .index

/-- `num.slicetake`, `num.py:419-532`, `axis=<int>` (line 510-518). -/
def slicetake {α : Type} (a : Arr α) (sl : Ix) (axis : Int) : Except NErr (Arr α) :=
  match listSet (List.replicate a.ndim Ix.full) axis sl with
  | .ok slices => a.index slices
  | .error e => .error e

/-- `num.slicetake`, `num.py:419-532`, `axis=None`: one slice object per axis. -/
def slicetakeAll {α : Type} (a : Arr α) (sl : List Ix) : Except NErr (Arr α) := a.index sl

/-- `num.sliceput`, `num.py:535-577`, `axis=None`: `a[tuple] = b` for a scalar `b`. Every
position of `a` that is hit by an index tuple of the selection gets the value `b`.
For an array `b` see `Model/SliceView.lean`. -/
def sliceputAll {α : Type} (a : Arr α) (b : α) (sl : List Ix) : Except NErr (Arr α) :=
  match takeAll a.shape sl with
  | .ok (sh, m) =>
      let hits := (sh.foldr (fun n rest => (List.range n).flatMap (fun i => rest.map (i :: ·))) [[]]).map m
      .ok ⟨a.shape, fun idx => if idx ∈ hits then b else a.get idx⟩
  | .error e => .error e

/-- `num.sliceput`, `num.py:535-577`, `axis=<int>`: the index `tmp` is a Python *list* of slice
objects (line 573-576), which numpy (1.23 and later) takes for an index array and rejects with
an `IndexError`; before, `tmp[axis]` may fail. -/
def sliceput {α : Type} (a : Arr α) (_b : α) (sl : Ix) (axis : Int) : Except NErr (Arr α) :=
  match listSet (List.replicate a.ndim Ix.full) axis sl with
  | .ok _ => .error .index
  | .error e => .error e

/-- `np.repeat(a, n, axis)` for an axis of length 1 … of any length: item `k` of the result along
the axis is item `k / n` of `a`. numpy normalises a negative axis. -/
def Arr.repeat {α : Type} (a : Arr α) (n : Nat) (axis : Int) : Except NErr (Arr α) :=
  match pyIndex a.ndim axis with
  | none => .error .axis
  | some ax => .ok ⟨a.shape.modify ax (· * n), fun idx => a.get (idx.modify ax (· / n))⟩

/-- `num.extend_array`, `num.py:580-641`. -/
def extendArray {α : Type} (arr : Arr α) (nstep : Nat) (axis : Int) : Except NErr (Arr α) :=
  if -1 ≤ axis ∧ axis ≤ arr.ndim then
    match listSet (List.replicate (arr.ndim + 1) Ix.full) axis .newaxis with
    | .error e => .error e
    | .ok sl =>
        match arr.index sl with
        | .error e => .error e
        | .ok b => b.repeat nstep axis
  else .error .assertion

variable {α : Type} [AddCommMonoid α]

/-- `arr.sum(axis=axis)` of numpy for an integer. -/
def Arr.sumAxis (a : Arr α) (axis : Int) : Except NErr (Arr α) :=
  match pyIndex a.ndim axis with
  | none => .error .axis
  | some ax => .ok ⟨a.shape.eraseIdx ax,
      fun idx => ((List.range (a.shape.getD ax 0)).map (fun k => a.get (idx.insertIdx ax k))).sum⟩

/-- Inner function `_sum` of `num.sum`, `num.py:696-705`: pop the first axis, sum over it, then
rename the remaining axes. -/
def sumLoop (a : Arr α) : List Int → Except NErr (Arr α)
  | [] => .ok a
  | axis :: rest =>
      match a.sumAxis axis with
      | .error e => .error e
      | .ok b => sumLoop b (rest.map (fun xx => if xx > axis then xx - 1 else xx))
  termination_by l => l.length

/-- All index tuples of a shape, last axis fastest. -/
def allIdx : List Nat → List (List Nat)
  | [] => [[]]
  | n :: shape => (List.range n).flatMap (fun i => (allIdx shape).map (i :: ·))

/-- `np.sum(arr, axis=None)`: sum over all items. -/
def Arr.sumFull (a : Arr α) : α := ((allIdx a.shape).map a.get).sum

/-- The argument `axis` of `num.sum`. -/
inductive AxisArg where
  | none
  | int (i : Int)
  | seq (l : List Int)

/-- `num.sum`, `num.py:644-725`. A scalar result is an array of shape `[]`. -/
def sum (arr : Arr α) (axis : AxisArg) (keepdims : Bool) : Except NErr (Arr α) :=
  match axis with
  | .none => if keepdims then .error .strange else .ok ⟨[], fun _ => arr.sumFull⟩
  | .int i => if keepdims then
      sumLoop arr (((List.range arr.ndim).map (fun (j : Nat) => (j : Int))).filter (fun xx => xx ∉ [i]))
      else arr.sumAxis i
  | .seq l => if keepdims then
      sumLoop arr (((List.range arr.ndim).map (fun (j : Nat) => (j : Int))).filter (fun xx => xx ∉ l))
      else sumLoop arr l

end Pwtools.Nd
