import Verif.Spec.NdArray
import Verif.Model.SliceView
/-!
# Specifications for C81 with arrays, and for C24 with views
-/
namespace Pwtools.Spec

/-- The selected positions, one list for each axis. -/
def selectedAll (shape : List Nat) (ss : List Nd.Sl) : List (List Nat) := List.zipWith (fun n s => selected n s.start s.stop s.step) shape ss

/-- `J` is the position in the array of entry `idx` of the selection. -/
def PositionOf (L : List (List Nat)) (idx J : List Nat) : Prop := J.map some = List.zipWith (fun l k => l[k]?) L idx

/-- numpy: counted from the last axis, each axis has length 1 or the length of the axis of `shape`; axes which `shape` does not have are of length 1. -/
def Broadcastable (bshape shape : List Nat) : Prop := ∀ (k d : Nat), bshape.reverse[k]? = some d → d = 1 ∨ shape.reverse[k]? = some d

/-- `bi` is the entry which belongs to `idx`: counted from the last axis, it is the same number, or 0 along an axis of length 1. -/
def BroadcastIdx (bshape idx bi : List Nat) : Prop :=
  bi.length = bshape.length ∧ ∀ k d : Nat, bshape.reverse[k]? = some d → (d = 1 ∧ bi.reverse[k]? = some 0) ∨ (d ≠ 1 ∧ bi.reverse[k]? = idx.reverse[k]?)

/-- The array objects show different entries at different index tuples (as for arrays and slices of arrays). -/
def OneToOne (r : Nd.Ref) : Prop := ∀ i j, InShape i r.shape → InShape j r.shape → r.map i = r.map j → i = j

end Pwtools.Spec
