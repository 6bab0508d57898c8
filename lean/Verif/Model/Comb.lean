/-!
# Model of `src/pwtools/comb.py` and the sequence helpers of `src/pwtools/common.py`

Simplification used throughout: Python lists, tuples and arrays which count as
"sequences" for `common.is_seq` (`common.py:586-605`) are `Tree.node`, everything
else (numbers, strings, file handles, arbitrary objects) is `Tree.leaf`. The
difference between `list` and `tuple` is not modelled, hence `_ensure_list`
(`comb.py:49-53`), which only turns tuples into lists, is the identity.
-/

namespace Pwtools

/-- A Python value as seen by `common.is_seq` (`common.py:586-605`): `leaf` is
everything for which `is_seq` is `False` (non-iterables, `str`, file objects),
`node` is any other iterable with its items. -/
inductive Tree (α : Type) where
  | leaf (a : α) : Tree α
  | node (items : List (Tree α)) : Tree α

/-- `common.is_seq`, `common.py:586-605`. -/
def isSeq {α : Type} : Tree α → Bool
  | .leaf _ => false
  | .node _ => true

mutual
/-- What one item contributes in `common.iflatten`, `common.py:611-616`: a non-sequence is
yielded, else recurse into the item. -/
def Tree.items {α : Type} : Tree α → List α
  | .leaf a => [a]
  | .node l => flatten l
/-- `common.iflatten` / `common.flatten`, `common.py:608-621`. -/
def flatten {α : Type} : List (Tree α) → List α
  | [] => []
  | t :: rest => t.items ++ flatten rest
end

/-- The items of a sequence: what `for x in arg` runs over. -/
def Tree.children {α : Type} : Tree α → List (Tree α)
  | .leaf _ => []
  | .node l => l

/-- `common.asseq`, `common.py:644-650`: a sequence is returned as it is (here: its items), other
values become a length 1 list. -/
def asseq {α : Type} (arg : Tree α) : List (Tree α) :=
  if isSeq arg then arg.children else [arg]

/-- `itertools.product(*pools)` as given by the equivalent code in the Python
documentation:
`result = [[]]; for pool in pools: result = [x+[y] for x in result for y in pool]`.
Used at `comb.py:96`. -/
def itProduct {α : Type} (pools : List (List α)) : List (List α) :=
  pools.foldl (fun result pool => result.flatMap (fun x => pool.map (fun y => x ++ [y]))) [[]]

/-- `comb.nested_loops(lists, flatten=False)`, `comb.py:58-98`. -/
def nestedLoops {α : Type} (lists : List (List (Tree α))) : List (List (Tree α)) :=
  itProduct lists

/-- `comb.nested_loops(lists, flatten=True)`, `comb.py:96-98`. -/
def nestedLoopsFlat {α : Type} (lists : List (List (Tree α))) : List (List α) :=
  (itProduct lists).map flatten

/-- Inner loop of `unique2d`, `comb.py:36-40`: compare a row with the rows
collected so far, elementwise (`(row_a == row_u).all()`). -/
def rowIsIn {α : Type} [DecidableEq α] (row : List α) : List (List α) → Bool
  | [] => false
  | u :: us => if row = u then true else rowIsIn row us

/-- Outer loop of `unique2d`, `comb.py:35-42`. -/
def uniqueLoop {α : Type} [DecidableEq α] (uniq : List (List α)) : List (List α) → List (List α)
  | [] => uniq
  | row :: rows => if rowIsIn row uniq then uniqueLoop uniq rows else uniqueLoop (uniq ++ [row]) rows

/-- A 2d array: `nrow` rows with `ncol` entries. -/
structure Arr2 (α : Type) where
  nrow : Nat
  ncol : Nat
  rows : List (List α)

/-- The shape information is correct. -/
def Arr2.WF {α : Type} (a : Arr2 α) : Prop :=
  a.rows.length = a.nrow ∧ ∀ r ∈ a.rows, r.length = a.ncol

/-- The columns of an array, left to right. -/
def Arr2.cols {α : Type} (a : Arr2 α) : List (List α) :=
  (List.range a.ncol).map (fun j => a.rows.filterMap (fun r => r[j]?))

/-- `ndarray.T`, used at `comb.py:31,46`. -/
def Arr2.T {α : Type} (a : Arr2 α) : Arr2 α :=
  { nrow := a.ncol, ncol := a.nrow, rows := a.cols }

/-- Outcomes of `unique2d`. -/
inductive UniqErr where
  | valueError   -- illegal `what`, `comb.py:33`
  | indexError   -- `arr[0,:]` on an array without rows, `comb.py:34`
  deriving DecidableEq, Repr

/-- `comb.unique2d`, `comb.py:8-46`. `np.asarray(uniq)` has the rows `uniq` and
the column count of the input. -/
def unique2d {α : Type} [DecidableEq α] (arr : Arr2 α) (what : String) :
    Except UniqErr (Arr2 α) :=
  if what = "row" then
    match arr.rows with
    | [] => .error .indexError
    | r :: rs =>
      let u := uniqueLoop [r] (r :: rs)
      .ok { nrow := u.length, ncol := arr.ncol, rows := u }
  else if what = "col" then
    match arr.T.rows with
    | [] => .error .indexError
    | r :: rs =>
      let u := uniqueLoop [r] (r :: rs)
      .ok (Arr2.T { nrow := u.length, ncol := arr.T.ncol, rows := u })
  else .error .valueError

/-- Loop of `common.pop_from_list`, `common.py:639-640`: `lst2.index(item)`
raises `ValueError` (`none`) if the item is missing, `pop` removes that position.-/
def popLoop {α : Type} [DecidableEq α] (lst2 : List α) : List α → Option (List α)
  | [] => some lst2
  | item :: items =>
    match lst2.findIdx? (fun x => decide (x = item)) with
    | none => none
    | some i => popLoop (lst2.eraseIdx i) items

/-- `common.pop_from_list`, `common.py:624-641` (works on a deep copy, so the
input list is untouched: values are immutable here). -/
def popFromList {α : Type} [DecidableEq α] (lst items : List α) : Option (List α) :=
  popLoop lst items

end Pwtools
