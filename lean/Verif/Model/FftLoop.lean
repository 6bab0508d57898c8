import Verif.Model.NdArray
import Verif.Model.Signal
/-!
# `signal.fft_1d_loop`: transform along an axis, line by line
-/
namespace Pwtools.FftLoop
open Nd

/-- All index tuples of a shape in the order of `itertools.product`. -/
def product : List Nat → List (List Nat)
  | [] => [[]]
  | n :: shape => (List.range n).flatMap fun i => (product shape).map (i :: ·)

/-- `arr[tsl]`, `signal.py:199-203`: `sl` is a full slice at the axis and has the integers of `idx_tup` at the other axes, in order. -/
def line (arr : Arr ℂ) (ax : Nat) (idxTup : List Nat) : List ℂ :=
  (List.range (arr.shape.getD ax 0)).map fun k => arr.get (idxTup.insertIdx ax k)

/-- One pass of the loop, `signal.py:198-203`: `out[tsl] = fft(arr[tsl])`. -/
noncomputable def step (arr : Arr ℂ) (ax : Nat) (out : List Nat → ℂ) (idxTup : List Nat) : List Nat → ℂ :=
  fun J => if J.eraseIdx ax = idxTup then (Sig.fft (line arr ax idxTup)).getD (J.getD ax 0) 0 else out J

/-- `signal.fft_1d_loop`, `signal.py:181-204`. `junk` is the content of `np.empty`. An axis which is too large leaves no full slice, and `fft` of
a number raises, as does `fft` of an array without items. -/
noncomputable def fft1dLoop (arr : Arr ℂ) (axis : Int) (junk : List Nat → ℂ) : Except NErr (Arr ℂ) :=
  let axis : Int := if axis < 0 then (arr.ndim : Int) - 1 else axis
  let axes := (List.range arr.ndim).filter fun (ax : Nat) => (ax : Int) ≠ axis
  let idxs := product (axes.map fun ax => arr.shape.getD ax 0)
  if idxs = [] then .ok ⟨arr.shape, junk⟩
  else if 0 ≤ axis ∧ axis < arr.ndim ∧ arr.shape.getD axis.toNat 0 ≠ 0 then
    .ok ⟨arr.shape, idxs.foldl (step arr axis.toNat) junk⟩
  else .error .value

end Pwtools.FftLoop
