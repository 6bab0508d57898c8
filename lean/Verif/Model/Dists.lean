import Verif.Model.Rbf
import Verif.Model.Pydos
import Mathlib.Analysis.SpecialFunctions.Pow.Real
/-!
# Model of the distance functions: `num.distsq`, `flib.distsq`, `rbf.core.squared_dists`, `euclidean_dists`, `estimate_p`

Exact arithmetic. Arrays of points are functions of the row and the column. An exception is `none`. The routine `cdist` of scipy is
modelled by its documentation: distances of all rows, `ValueError` for a different number of columns.
-/
namespace Pwtools.Dists
open Dos Rbf

variable {M L N N' : Nat}

/-! ### num.distsq -/

/-- Iteration `jj` of the loop of `flib.distsq`, `flib.f90:327-329`. The address is `(ii,jj)`. -/
def distsqBody {N : Nat} (arrx : Nat → Fin N → ℝ) (arry : Nat → Fin N → ℝ) (nx : Nat) (jj : Nat) : List (Ins (Nat × Nat) ℝ) :=
  (List.range nx).map fun ii => .store (ii, jj) fun _ => ((List.finRange N).map fun k => (arrx ii k - arry jj k) ^ 2).sum

/-- `flib.distsq`, `flib.f90:315-332`, with any number of threads and any schedule; `dsq0` is what is in the memory of the result
before, `dsq` what is there after. The iteration variable `ii` of the sequential loop is private (OpenMP rule for Fortran). -/
def FlibDistsq {N : Nat} (arrx arry : Nat → Fin N → ℝ) (nx ny : Nat) (dsq0 dsq : Nat × Nat → ℝ) : Prop :=
  ParLoop ny (distsqBody arrx arry nx) dsq0 dsq

/-- Rows of an array, by number. -/
def rows (a : Fin M → Fin N → ℝ) (i : Nat) : Fin N → ℝ := if h : i < M then a ⟨i, h⟩ else 0

/-- `num.distsq`, `num.py:1015-1029`: a possible result. `dist = np.empty(..)` has any content. -/
def NumDistsq (arrx : Fin M → Fin N → ℝ) (arry : Fin L → Fin N' → ℝ) (res : Option (Fin M → Fin L → ℝ)) : Prop :=
  if h : N' = N then
    ∃ dist dsq, FlibDistsq (rows arrx) (rows fun j k => arry j (Fin.cast h.symm k)) M L dist dsq ∧ res = some fun (i : Fin M) (j : Fin L) => dsq (i.1, j.1)
  else res = none

/-! ### rbf.core -/

/-- Broadcasting of two axes: the common length, `none` if there is none. -/
def bcast (n m : Nat) : Option Nat := if n = m then some n else if n = 1 then some m else if m = 1 then some n else none

/-- Entry of a broadcast axis. -/
def bget {n : Nat} (v : Fin n → ℝ) (k : Nat) : ℝ :=
  if h : n = 1 then v ⟨0, by omega⟩ else if h : k < n then v ⟨k, h⟩ else 0

/-- `_np_distsq`, `rbf/core.py:87-104`: `((aa[:, None, :] - bb[None, ...])**2).sum(-1)`. -/
def npDistsq (aa : Fin M → Fin N → ℝ) (bb : Fin L → Fin N' → ℝ) : Option (Fin M → Fin L → ℝ) :=
  (bcast N N').map fun n i j => ((List.range n).map fun k => (bget (aa i) k - bget (bb j) k) ^ 2).sum

/-- scipy's `cdist(aa, bb, metric="sqeuclidean")`. -/
def cdistSq (aa : Fin M → Fin N → ℝ) (bb : Fin L → Fin N' → ℝ) : Option (Fin M → Fin L → ℝ) :=
  if h : N' = N then some fun i j => sqd (aa i) (fun k => bb j (Fin.cast h.symm k)) else none

/-- `squared_dists`, `rbf/core.py:112-116`. -/
def squaredDists (jax : Bool) (aa : Fin M → Fin N → ℝ) (bb : Fin L → Fin N' → ℝ) : Option (Fin M → Fin L → ℝ) :=
  if jax then npDistsq aa bb else cdistSq aa bb

/-- `euclidean_dists`, `rbf/core.py:119-123`. -/
noncomputable def euclideanDists (jax : Bool) (aa : Fin M → Fin N → ℝ) (bb : Fin L → Fin N' → ℝ) : Option (Fin M → Fin L → ℝ) :=
  if jax then (npDistsq aa bb).map fun d i j => √(d i j) else (cdistSq aa bb).map fun d i j => √(d i j)

/-- `edges = np.amax(xi, axis=1) - np.amin(xi, axis=1)`, `rbf/core.py:141-145`, for at least one point. -/
noncomputable def edge (points : Fin M → Fin N → ℝ) (k : Fin N) : ℝ := (⨆ i, points i k) - ⨅ i, points i k

open Classical in
/-- `estimate_p(points, method)`, `rbf/core.py:129-148`. `none` is an exception (unknown method; no points for `'scipy'`: `amax` of an
empty axis; no edge for `'scipy'`: division by zero) or, for `'mean'` with no points, `nan`. -/
noncomputable def estimateP (jax : Bool) (points : Fin M → Fin N → ℝ) (method : String) : Option ℝ :=
  if method = "mean" then
    if M = 0 then none
    else (euclideanDists jax points points).map fun d => (∑ i, ∑ j, d i j) / ((M : ℝ) * M)
  else if method = "scipy" then
    if M = 0 then none
    else
      let nz := Finset.univ.filter fun k => edge points k ≠ 0
      if nz.card = 0 then none
      else some (((∏ k ∈ nz, edge points k) / M) ^ (1 / (nz.card : ℝ)))
  else none

/-- `Rbf(points, values, rbf, r, p=method)` for a string: `Rbf.__init__`, `rbf/core.py:248-262`, with the model of `init`. -/
noncomputable def initBy (points : Fin M → Fin N → ℝ) (values : Fin M → ℝ) (rbf : Kind) (r : Option ℝ) (method : String) : Option (Obj M N) :=
  if method = "mean" then init points values rbf r .mean 0
  else if method = "scipy" then (estimateP false points "scipy").bind fun q => init points values rbf r .scipy q
  else init points values rbf r .otherStr 0

end Pwtools.Dists
