import Verif.Model.NdArray
import Verif.Model.Comb
import Mathlib.Algebra.Order.Field.Basic
import Mathlib.Algebra.BigOperators.Fin
import Mathlib.Analysis.SpecialFunctions.Trigonometric.Basic
import Mathlib.Analysis.SpecialFunctions.Pow.Real
import Mathlib.LinearAlgebra.Matrix.Notation
import Mathlib.Data.Finset.Sort
/-!
# Model of `src/pwtools/num.py` (numbers and vectors) and `src/pwtools/kpath.py`

Floating point numbers are modelled by the elements of an (ordered) field or by real numbers:
rounding, overflow and NaN are not modelled. Vectors of equal length are functions from an index
type, so that the assertions on equal lengths and on `ndim` are modelled by typing.
-/
namespace Pwtools.Num
open Nd

section vec
variable {K ι : Type} [Field K]

/-- `np.cumsum(rows, axis=0)` continued from `acc`. -/
def cumsumFrom {V : Type} [Add V] (acc : V) : List V → List V
  | [] => []
  | r :: rows => (acc + r) :: cumsumFrom (acc + r) rows

/-- `np.cumsum(rows, axis=0)`. -/
def cumsum {V : Type} [Add V] : List V → List V
  | [] => []
  | r :: rows => r :: cumsumFrom r rows

/-- `num.vlinspace`, `num.py:48-74`. `none`: `AssertionError` (`num < 1`). -/
def vlinspace (a b : ι → K) (num : Nat) (endpoint : Bool) : Option (List (ι → K)) :=
  if 1 ≤ num then
    let dv := b - a
    let ddv : ι → K :=
      if endpoint then (if num = 1 then 0 else fun i => dv i / ((num - 1 : Nat) : K))
      else fun i => dv i / (num : K)
    -- ret[...] = ddv; ret[0, :] = a
    let ret := (List.replicate num ddv).set 0 a
    some (cumsum ret)
  else none

/-- `arr[lo:lo+len(rows), :] = rows` for an array given by its rows (`none`: not initialised,
`np.empty`). -/
def setRows {V : Type} (arr : Nat → Option V) (lo : Nat) (rows : List V) : Nat → Option V :=
  fun j => if lo ≤ j ∧ j < lo + rows.length then rows[j - lo]? else arr j

/-- Loop of `kpath.kpath`, `kpath.py:32-34`, for `i` from 1. -/
def kpathLoop (vecs : List (ι → K)) (N : Nat) : List Nat → (Nat → Option (ι → K)) → Option (Nat → Option (ι → K))
  | [], new => some new
  | i :: is, new =>
      match vecs[i - 1]?, vecs[i]? with
      | some a, some b =>
          match vlinspace a b N false with
          | some rows => kpathLoop vecs N is (setRows new ((i - 1) * N) rows)
          | none => none
      | _, _ => none

/-- `kpath.kpath`, `kpath.py:4-37`. `none`: an exception (no vertices: `np.empty` with a negative
size or `vecs[-1]`; `N < 1` with at least two vertices). The result is the list of rows, a row that
was never assigned is `none`. -/
def kpath (vecs : List (ι → K)) (N : Nat) : Option (List (Option (ι → K))) :=
  match vecs.getLast? with
  | none => none
  | some last =>
      let size := (vecs.length - 1) * N + 1
      match kpathLoop vecs N ((List.range (vecs.length - 1)).map (· + 1)) (fun _ => none) with
      | none => none
      | some new => some ((List.range size).map (setRows new (size - 1) [last]))
end vec

/-- `np.linalg.norm(v)` for a vector, also `np.sqrt((v**2.0).sum())`. -/
noncomputable def vnorm {d : Nat} (v : Fin d → ℝ) : ℝ := Real.sqrt (∑ i, v i ^ 2)

/-- `kpath.get_path_norm`, `kpath.py:40-56`. Without a k-point `dnorms[0] = ...` raises (`none`). -/
noncomputable def getPathNorm {d : Nat} (ks : List (Fin d → ℝ)) : Option (List ℝ) :=
  match ks with
  | [] => none
  | k0 :: rest =>
      let dnorms := vnorm k0 :: (List.zipWith (fun a b => b - a) (k0 :: rest) rest).map vnorm
      some (cumsum dnorms)

section fld
variable {K : Type} [Field K] [LinearOrder K]

/-- `np.abs(x).max()`. -/
def absMax (x : List K) : K := (x.map (fun v => |v|)).foldr max 0

/-- `num.norm_int`, `num.py:77-111`, with the integration function `func(y, x=x)`. `none`: a zero
scale or area, i.e. NaN or infinite values instead of a result. -/
def normInt (func : List K → List K → K) (y x : List K) (area : K) (scale : Bool) : Option (List K) :=
  let fx := if scale then absMax x else 1
  let fy := if scale then absMax y else 1
  if fx = 0 ∨ fy = 0 then none else
  let sx := if scale then x.map (· / fx) else x
  let sy := if scale then y.map (· / fy) else y
  let area' := func sy sx * fx * fy
  if area' = 0 then none else some (y.map (fun v => v * area / area'))

/-- `scipy.integrate.trapz(y, x=x)`. -/
def trapz : List K → List K → K
  | y0 :: y1 :: ys, x0 :: x1 :: xs => (x1 - x0) * (y0 + y1) / 2 + trapz (y1 :: ys) (x1 :: xs)
  | _, _ => 0

/-- `scipy.integrate.simps(y, x=x)` for an odd number of points (`_basic_simpson`; a division by a
zero step gives 0 there as it does here). -/
def simpsOdd : List K → List K → K
  | y0 :: y1 :: y2 :: ys, x0 :: x1 :: x2 :: xs =>
      let h0 := x1 - x0
      let h1 := x2 - x1
      (h0 + h1) / 6 * (y0 * (2 - h1 / h0) + y1 * ((h0 + h1) * ((h0 + h1) / (h0 * h1))) + y2 * (2 - h0 / h1))
        + simpsOdd (y2 :: ys) (x2 :: xs)
  | _, _ => 0

/-- `scipy.integrate.simps(y, x=x, even='avg')`: for an even number of points the average of "last
interval by the trapezoidal rule" and "first interval by the trapezoidal rule". Other rules of
later scipy versions for even numbers of points are not modelled. -/
def simps (y x : List K) : K :=
  if y.length % 2 = 1 then simpsOdd y x
  else
    let n := y.length
    (simpsOdd (y.take (n - 1)) (x.take (n - 1)) + trapz (y.drop (n - 2)) (x.drop (n - 2))
      + (simpsOdd (y.drop 1) (x.drop 1) + trapz (y.take 2) (x.take 2))) / 2

/-- `num.match_mask`, `num.py:1600-1662`: the mask and the index list. `nonzero()[1]` runs over all
pairs (value, element), `np.unique` sorts and removes duplicates, `ret.put` sets the mask. -/
def matchMask (arr values : List K) (eps : Option K) : List Bool × List Nat :=
  let hit (a v : K) : Bool := match eps with
    | none => decide (a - v = 0)
    | some e => decide (|a - v| < e)
  let idxLst := values.flatMap (fun v => (List.range arr.length).filter (fun i =>
    match arr[i]? with | some a => hit a v | none => false))
  let uniq := idxLst.toFinset.sort (· ≤ ·)
  ((List.range arr.length).map (fun i => decide (i ∈ uniq)), uniq)

/-- `num.round_up_next_multiple`, `num.py:1756-1762`, for integers. `none`: `ZeroDivisionError`. -/
def roundUp (x mult : Int) : Option Int :=
  if mult = 0 then none
  else
    let rem := Int.fmod x mult
    if rem > 0 then some (x - rem + mult) else some x

/-- `np.argmin` of a non-empty 1d array: the first position of the smallest value. -/
def argmin : List K → Nat
  | [] => 0
  | [_] => 0
  | x :: y :: rest => if x ≤ (y :: rest).getD (argmin (y :: rest)) 0 then 0 else argmin (y :: rest) + 1

/-- Reference value for column `jj` in step `ii` of `num.order_similar`, `num.py:1732-1747`: `ref`
keeps its old value when no branch is taken. The extrapolation `np.polyval(np.polyfit([0,1,2], y,
2), 3)` is the value at 3 of the parabola through the three points. -/
def osRef (order ii : Nat) (arr2 : List (List K)) (jj : Nat) (ref : K) : K :=
  let at' (i : Nat) : K := (arr2.getD i []).getD jj 0
  if ii = 0 then at' ii
  else if ii = 1 ∧ 1 ≤ order then 2 * at' ii - at' (ii - 1)
  else if 2 ≤ ii ∧ order = 2 then 3 * at' ii - 3 * at' (ii - 1) + at' (ii - 2)
  else ref

/-- Loop over the columns, `num.py:1731-1750`; carries `ref` along. -/
def osCols (order ii : Nat) (arr2 : List (List K)) (next : List K) : List Nat → K → List K × K
  | [], ref => ([], ref)
  | jj :: js, ref =>
      let ref' := osRef order ii arr2 jj ref
      let idx := argmin (next.map (fun v => |v - ref'|))
      let (row, r) := osCols order ii arr2 next js ref'
      (next.getD idx 0 :: row, r)

/-- Loop over the rows, `num.py:1729-1750`. -/
def osRows (order nj : Nat) : Nat → List (List K) → K → List (List K) → List (List K)
  | _, arr2, _, [] => arr2
  | ii, arr2, ref, next :: rest =>
      let (row, ref') := osCols order ii arr2 next (List.range nj) ref
      osRows order nj (ii + 1) (arr2 ++ [row]) ref' rest

/-- `num.order_similar`, `num.py:1665-1753`. `none`: `AssertionError`, or no rows. For
`repeat > 1` line 1752 calls itself without handing on `order`. -/
def orderSimilar (arr : List (List K)) (order : Nat) : Nat → Option (List (List K))
  | 0 => none
  | rep + 1 =>
      if 2 < order then none
      else if rep + 1 = 1 then
        match arr with
        | [] => none
        | r0 :: rest => some (osRows order r0.length 0 [r0] 0 rest)
      else orderSimilar arr 2 rep

/-- `num.DataND(a2=...)`, `num.py:1032-1106`, for an array with `ncol + 1` columns. `none`:
`AssertionError`. Result: the nd array (as association of index tuples to values in the order of
assignment) and the axes. -/
def dataND (a2 : List (List K)) (ncol : Nat) : Option (List (List Nat × K) × List (List K)) :=
  let axes := (List.range ncol).map (fun c => ((a2.map (fun row => row.getD c 0)).toFinset.sort (· ≤ ·)))
  let dims := axes.map List.length
  if dims.prod = a2.length then
    some ((itProduct (dims.map List.range)).zip (a2.map (fun row => row.getLastD 0)), axes)
  else none

end fld

/-- Number of items of an array, `arr.nbytes / arr.itemsize`. -/
def arrSize {α : Type} (a : Arr α) : Nat := a.shape.prod

/-- `num.rms`, `num.py:1109-1129`. -/
noncomputable def rms (arr : Arr ℝ) (nitems : Option ℝ) : ℝ :=
  let n : ℝ := nitems.getD (arrSize arr)
  Real.sqrt ((⟨arr.shape, fun idx => arr.get idx ^ (2 : ℝ)⟩ : Arr ℝ).sumFull / n)

/-- The number of items in `num.rms3d`, `num.py:1154-1161`: `arr[tuple(sl)]` with `sl[axis] = 0`. -/
def rms3dItems (arr : Arr ℝ) (axis : Int) : Option ℝ → Except NErr ℝ
  | some n => .ok n
  | none =>
      match slicetake arr (.int 0) axis with
      | .error e => .error e
      | .ok sub => .ok (arrSize sub)

/-- `num.rms3d`, `num.py:1132-1168`. -/
noncomputable def rms3d (arr : Arr ℝ) (axis : Int) (nitems : Option ℝ) : Except NErr (Arr ℝ) :=
  if -1 ≤ axis ∧ axis ≤ 2 ∧ arr.ndim = 3 then
    let axis := if axis = -1 then (arr.ndim : Int) - 1 else axis
    match rms3dItems arr axis nitems with
    | .error e => .error e
    | .ok n => go axis n
  else .error .assertion
where
  /-- `num.py:1162-1167` -/
  go (axis : Int) (n : ℝ) : Except NErr (Arr ℝ) :=
    let sq : Arr ℝ := ⟨arr.shape, fun idx => arr.get idx ^ (2 : ℝ)⟩
    let (s1, s2) : Int × Int := if axis = 0 then (1, 1) else if axis = 1 then (0, 1) else (0, 0)
    match sq.sumAxis s1 with
    | .error e => .error e
    | .ok t => match t.sumAxis s2 with
        | .error e => .error e
        | .ok u => .ok ⟨u.shape, fun idx => Real.sqrt (u.get idx / n)⟩

open Real in
/-- `math.radians`. -/
noncomputable def radians (x : ℝ) : ℝ := x * π / 180

open Real Matrix in
/-- `num.euler_matrix`, `num.py:1790-1839`. `none`: `AssertionError`. -/
noncomputable def eulerMatrix (phi theta psi : ℝ) (deg : Bool) : Option (Matrix (Fin 3) (Fin 3) ℝ) :=
  let phi := if deg then radians phi else phi
  let theta := if deg then radians theta else theta
  let psi := if deg then radians psi else psi
  open Classical in
  if |phi| ≤ 2 * π ∧ |theta| ≤ π ∧ |psi| ≤ 2 * π then
    let D : Matrix (Fin 3) (Fin 3) ℝ := !![cos phi, sin phi, 0; -sin phi, cos phi, 0; 0, 0, 1]
    let C : Matrix (Fin 3) (Fin 3) ℝ := !![1, 0, 0; 0, cos theta, sin theta; 0, -sin theta, cos theta]
    let B : Matrix (Fin 3) (Fin 3) ℝ := !![cos psi, sin psi, 0; -sin psi, cos psi, 0; 0, 0, 1]
    some (B * (C * D))
  else none

end Pwtools.Num
