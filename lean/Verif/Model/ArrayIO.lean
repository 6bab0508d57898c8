import Verif.Model.NdArray
/-!
# Model of `src/pwtools/arrayio.py`: `writetxt`, `readtxt`, `arr2d_to_3d`

Simplifications: a file is the header entries (`shape`, `axis`; their text form is C05) and the data
lines, each line the list of its numbers; the text form of one number (`'%.18e'`) is taken to be exact.
`maxdim` has its default 3. `np.savetxt`, `np.loadtxt` are written out as numpy documents them
(`loadtxt` skips blank lines and squeezes axes of length 1).
-/
namespace Pwtools.Aio
open Pwtools.Nd

inductive AErr where
  | assertion   -- AssertionError (`assert`, `common.assert_cond`)
  | value       -- `np.savetxt`: 0d array
  | index       -- IndexError
  | noHeader    -- ConfigParser error
  deriving DecidableEq, Repr

/-- A file: header with `shape` and `axis`, and the data lines. -/
structure TxtFile (α : Type) where
  header : Option (List Nat × Int)
  lines : List (List α)

variable {α : Type} [Inhabited α]

/-- `np.savetxt(fh, arr)`: one line per row, 1d arrays one number per line. -/
def savetxt (a : Arr α) : Except AErr (List (List α)) :=
  match a.shape with
  | [n] => .ok ((List.range n).map (fun i : Nat => [a.get [i]]))
  | [r, c] => .ok ((List.range r).map (fun i : Nat => (List.range c).map (fun j : Nat => a.get [i, j])))
  | _ => .error .value

/-- `arr[tuple(sl)]` with `sl = [slice(None)]*3; sl[axis] = ind`, `arrayio.py:127-130`, for the
(normalised) axis `k`: a 2d array. -/
def chunk (a : Arr α) (k ind : Nat) : Arr α :=
  { shape := a.shape.eraseIdx k, get := fun idx => a.get (idx.insertIdx k ind) }

/-- `writetxt(fn, arr, axis, header)`, `arrayio.py:94-131`. -/
def writetxt (a : Arr α) (axis : Int) (header : Bool) : Except AErr (TxtFile α) :=
  let hdr := if header then some (a.shape, axis) else none
  if 3 < a.shape.length then .error .assertion
  else if a.shape.length < 3 then
    match savetxt a with
    | .error e => .error e
    | .ok ls => .ok ⟨hdr, ls⟩
  else
    match pyIndex 3 axis with
    | none => .error .index
    | some k =>
      match (List.range (a.shape.getD k 0)).mapM (fun ind : Nat => savetxt (chunk a k ind)) with
      | .error e => .error e
      | .ok ls => .ok ⟨hdr, ls.flatten⟩

/-- `np.loadtxt(fh)`: blank lines skipped, axes of length 1 removed. -/
def loadtxt (lines : List (List α)) : Arr α :=
  let rows := lines.filter (fun l => !l.isEmpty)
  let R := rows.length
  let C := (rows.headD []).length
  { shape := [R, C].filter (fun n => n != 1),
    get := fun idx =>
      if R = 1 ∧ C = 1 then (rows.getD 0 []).getD 0 default
      else if R = 1 then (rows.getD 0 []).getD (idx.getD 0 0) default
      else if C = 1 then (rows.getD (idx.getD 0 0) []).getD 0 default
      else (rows.getD (idx.getD 0 0) []).getD (idx.getD 1 0) default }

/-- `l[:k]` of a tuple. -/
def pyTake (l : List Nat) (k : Int) : List Nat := if k < 0 then l.take ((l.length : Int) + k).toNat else l.take k.toNat
/-- `l[k:]` of a tuple. -/
def pyDrop (l : List Nat) (k : Int) : List Nat := if k < 0 then l.drop ((l.length : Int) + k).toNat else l.drop k.toNat

/-- `arr2d_to_3d(arr, shape, axis)`, `arrayio.py:208-246`. -/
def arr2dTo3d (arr : Arr α) (shape : List Nat) (axis : Int) : Except AErr (Arr α) :=
  if arr.shape.length ≠ 2 then .error .assertion
  else if shape.length ≠ 3 then .error .assertion
  else
    let chunkShape := pyTake shape axis ++ pyDrop shape (axis + 1)
    match pyIndex 3 axis with
    | none => .error .index
    | some k =>
      let n := shape.getD k 0
      if arr.shape ≠ [chunkShape.getD 0 0 * n, chunkShape.getD 1 0] then .error .assertion
      else
        .ok { shape := shape,
              get := fun idx =>
                let ind := idx.getD k 0
                let rest := idx.eraseIdx k
                arr.get [ind * chunkShape.getD 0 0 + rest.getD 0 0, rest.getD 1 0] }

/-- `readtxt(fn, axis, shape)`, `arrayio.py:134-205`. In the first 20 lines (4 of the header, if there is
one) there must be a data line, otherwise `np.array([])` is returned. -/
def readtxt (f : TxtFile α) (axis : Option Int) (shape : Option (List Nat)) : Except AErr (Arr α) :=
  let sa : Except AErr (List Nat × Int) :=
    match shape, axis with
    | some s, some a => .ok (s, a)
    | s, a =>
      match f.header with
      | none => .error .noHeader
      | some (hs, ha) => .ok (s.getD hs, a.getD ha)
  match sa with
  | .error e => .error e
  | .ok (shape, axis) =>
    if 3 < shape.length then .error .assertion
    else
      let axis := if axis = -1 then (shape.length : Int) - 1 else axis
      let look := 20 - (if f.header.isSome then 4 else 0)
      if (f.lines.take look).all (fun l => l.isEmpty) then .ok { shape := [0], get := fun _ => default }
      else
        let readArr := loadtxt f.lines
        if shape.length ≤ 2 then .ok readArr else arr2dTo3d readArr shape axis

end Pwtools.Aio
