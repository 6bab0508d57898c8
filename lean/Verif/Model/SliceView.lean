import Verif.Model.NdArray
/-!
# Model of `num.sliceput` with arrays, and of views and copies in `num.slicetake` (`src/pwtools/num.py`)

Same arrays as in `Model/NdArray.lean`.
-/
namespace Pwtools.Nd

/-- numpy broadcasting of an assignment: the shape of the array on the right fits into the shape of the selection. Both are given from the last axis to the first one. More axes on the right side are accepted if their length is 1. -/
def bcastOk : List Nat → List Nat → Bool
  | [], _ => true
  | d :: bs, [] => decide (d = 1) && bcastOk bs []
  | d :: bs, n :: sh => decide (d = n ∨ d = 1) && bcastOk bs sh

/-- The index tuple of the array on the right side which belongs to an index tuple of the selection, from the last axis to the first one. -/
def bcastIdx : List Nat → List Nat → List Nat
  | [], _ => []
  | _ :: bs, [] => 0 :: bcastIdx bs []
  | d :: bs, i :: idx => (if d = 1 then 0 else i) :: bcastIdx bs idx

/-- `num.sliceput`, `num.py:535-577`, `axis=None`: `a[tuple] = b` for an array `b`. One entry after the other is written. -/
def sliceputArr {α : Type} (a b : Arr α) (sl : List Ix) : Except NErr (Arr α) :=
  match takeAll a.shape sl with
  | .ok (sh, m) =>
      if bcastOk b.shape.reverse sh.reverse then
        .ok ⟨a.shape, (allIdx sh).foldl (fun f idx J => if J = m idx then b.get (bcastIdx b.shape.reverse idx.reverse).reverse else f J) a.get⟩
      else .error .value
  | .error e => .error e

/-- Memory: the arrays which own their data, by number. -/
structure Mem (α : Type) where
  next : Nat
  arr : Nat → Arr α

/-- An array object: the number of the array with the data, its own shape, and where its entries are. -/
structure Ref where
  obj : Nat
  shape : List Nat
  map : List Nat → List Nat

/-- The values of an array object. -/
def Mem.read {α : Type} (h : Mem α) (r : Ref) : Arr α := ⟨r.shape, fun idx => (h.arr r.obj).get (r.map idx)⟩

/-- `r[idx] = x` for one entry. -/
def Mem.write {α : Type} (h : Mem α) (r : Ref) (idx : List Nat) (x : α) : Mem α :=
  { h with arr := fun o => if o = r.obj then { h.arr o with get := fun J => if J = r.map idx then x else (h.arr o).get J } else h.arr o }

/-- `slicetake(a, sl, axis=None, copy)`, `num.py:514-532`: `a[slices]` is a view of the same data, `.copy()` new data. -/
def slicetakeRef {α : Type} (h : Mem α) (r : Ref) (sl : List Ix) (copy : Bool) : Except NErr (Ref × Mem α) :=
  match takeAll r.shape sl with
  | .error e => .error e
  | .ok (sh, m) =>
      let v : Ref := ⟨r.obj, sh, fun idx => r.map (m idx)⟩
      if copy then .ok (⟨h.next, sh, id⟩, ⟨h.next + 1, fun o => if o = h.next then h.read v else h.arr o⟩)
      else .ok (v, h)

/-- `slicetake(a, sl, axis=<int>, copy)`, `num.py:516-532`. -/
def slicetakeRefAxis {α : Type} (h : Mem α) (r : Ref) (sl : Ix) (axis : Int) (copy : Bool) : Except NErr (Ref × Mem α) :=
  match listSet (List.replicate r.shape.length Ix.full) axis sl with
  | .ok slices => slicetakeRef h r slices copy
  | .error e => .error e

end Pwtools.Nd
