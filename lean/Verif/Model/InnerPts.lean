import Mathlib.Data.Real.Basic
/-!
# Model of `inner_points_mask`, `src/pwtools/num.py`

`points` is a 2d array with `d` columns: a list of points `Fin d → ℝ`. `scipy.spatial.Delaunay(points).convex_hull`, the
list of the facets of the hull (each a list of indices of points), is a parameter.
-/
namespace Pwtools.Inner

/-- The two ways `inner_points_mask` stops. -/
inductive IErr | assertion | index
deriving DecidableEq

/-- `(np.diff(points[:, 0]) >= 0.0).all()`, `num.py:1188`. -/
noncomputable def diffsNonneg : List ℝ → Bool
  | a :: b :: l => decide (b - a ≥ 0) && diffsNonneg (b :: l)
  | _ => true

/-- `np.unique(tri.convex_hull)`, `num.py:1195`: the sorted distinct entries. -/
def edgeIdx (hull : List (List Nat)) : List Nat := (hull.flatten.mergeSort (· ≤ ·)).eraseDups

/-- `msk.put(idx, False)`, `num.py:1196`, for indices in range. -/
def putFalse (idx : List Nat) (msk : List Bool) : List Bool := idx.foldl (fun m i => m.set i false) msk

variable {d : Nat}

/-- `num.inner_points_mask(points)`, `num.py:1171-1197`. The docstring gives the shape `(npoints, ndim)`; what is made is
one entry per point, `num.py:1186`. An empty array of points has no `msk[0]`, `num.py:1189`. -/
noncomputable def innerPointsMask (delaunay : List (Fin d → ℝ) → List (List Nat)) (points : List (Fin d → ℝ)) :
    Except IErr (List Bool) :=
  let msk := List.replicate points.length true
  if h : d = 1 then
    if diffsNonneg (points.map fun p => p ⟨0, by omega⟩) then
      if points.length = 0 then .error .index
      else .ok ((msk.set 0 false).set (points.length - 1) false)
    else .error .assertion
  else .ok (putFalse (edgeIdx (delaunay points)) msk)

/-- `points[msk]`: the rows where the mask is true, in order. -/
def rowsAt {α : Type} (points : List α) (msk : List Bool) : List α := ((points.zip msk).filter (·.2)).map (·.1)

end Pwtools.Inner
