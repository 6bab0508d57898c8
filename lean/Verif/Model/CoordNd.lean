import Verif.Model.NdArray
import Verif.Model.Cell
/-!
# `crys.coord_trans` for arrays of any rank, `crys.coord_trans3d`
-/
namespace Pwtools.Nd
open Matrix

/-- A list with the items at two positions exchanged. -/
def swapAt {β : Type} (l : List β) (i j : Nat) : List β :=
  match l[i]?, l[j]? with
  | some x, some y => (l.set i y).set j x
  | _, _ => l

/-- `a.swapaxes(i, j)`. -/
def Arr.swapaxes {α : Type} (a : Arr α) (i j : Int) : Except NErr (Arr α) :=
  match pyIndex a.ndim i, pyIndex a.ndim j with
  | some i, some j => .ok ⟨swapAt a.shape i j, fun idx => a.get (swapAt idx i j)⟩
  | _, _ => .error .axis

/-- `np.dot(a, M)` for a square matrix with as many rows as the last axis of `a` has items. -/
noncomputable def dotLast {m : Nat} (a : Arr ℝ) (M : Matrix (Fin m) (Fin m) ℝ) : Arr ℝ :=
  ⟨a.shape, fun idx => if h : idx.getLastD 0 < m then ∑ k : Fin m, a.get (idx.set (idx.length - 1) k) * M k ⟨idx.getLastD 0, h⟩ else 0⟩

/-- `_trans`, `crys.py:949-955`. -/
noncomputable def transArr {m : Nat} (a : Arr ℝ) (old new : Matrix (Fin m) (Fin m) ℝ) : Except NErr (Arr ℝ) :=
  match a.shape.getLast? with
  | none => .error .index
  | some d => if d = m then .ok (dotLast a (new.transpose⁻¹ * old.transpose).transpose) else .error .assertion

/-- `coord_trans`, `crys.py:925-946`: the result (with `copy=False` also the argument afterwards). `conv` is the conversion of numbers to the
type of the array `coords` by `_coords[:] = ...`: nothing for arrays of floats, cutting off the fractional part for arrays of integers.
Simplification: `old` and `new` are square matrices of the same size, which lines 920-925 check; `inv` does not raise (non-singular `new`). -/
noncomputable def coordTrans {m : Nat} (conv : ℝ → ℝ) (a : Arr ℝ) (old new : Matrix (Fin m) (Fin m) ℝ) (axis : Int) : Except NErr (Arr ℝ) :=
  let mx : Int := a.ndim - 1
  let axis := if axis = -1 then mx else axis
  if axis ≠ mx then do
    let b ← a.swapaxes (-1) axis
    let r ← transArr b old new
    let r' ← r.swapaxes (-1) axis
    .ok ⟨a.shape, fun idx => conv (r'.get idx)⟩
  else do
    let r ← transArr a old new
    .ok ⟨a.shape, fun idx => conv (r.get idx)⟩

/-- `a[:, ..., i, ..., :]` with the integer at axis `t`. -/
def Arr.sliceAt {α : Type} (a : Arr α) (t i : Nat) : Arr α := ⟨a.shape.eraseIdx t, fun idx => a.get (idx.insertIdx t i)⟩

/-- `np.array(ret)` for a non-empty list of arrays of the same shape. -/
def stack {α : Type} (d : α) (l : List (Arr α)) : Arr α :=
  ⟨l.length :: (l.head?.map Arr.shape).getD [], fun idx => (l[idx.headD 0]?.map fun b => b.get idx.tail).getD d⟩

/-- `np.rollaxis(a, 0, start)`: numpy adds the rank to a negative `start` and moves axis 0 to the position before `start`. -/
def rollFirst {α : Type} (a : Arr α) (start : Int) : Arr α :=
  let start := if start < 0 then start + a.ndim else start
  let pos := (if 0 < start then start - 1 else start).toNat
  ⟨(a.shape.drop 1).insertIdx pos (a.shape.headD 0), fun idx => a.get (idx.getD pos 0 :: idx.eraseIdx pos)⟩

/-- `coord_trans3d`, `crys.py:986-1008`, for a 3d array `coords` and the matrices of each step. -/
noncomputable def coordTrans3d {m : Nat} (conv : ℝ → ℝ) (a : Arr ℝ) (old new : Nat → Matrix (Fin m) (Fin m) ℝ) (axis timeaxis : Int) :
    Except NErr (Arr ℝ) :=
  match pyIndex a.ndim timeaxis with
  | none => .error .index
  | some t =>
    match (List.range (a.shape.getD t 0)).mapM fun i => coordTrans conv (a.sliceAt t i) (old i) (new i) axis with
    | .error e => .error e
    | .ok l => .ok (if timeaxis ≠ 0 then rollFirst (stack 0 l) (timeaxis + 1) else stack 0 l)

end Pwtools.Nd
