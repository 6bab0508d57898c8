import Verif.Model.Pbc
/-!
# `crys.vmd_measure_gofr`: which frames VMD averages

VMD is not part of the model: `measure gofr` is a function of the list of frames (cell, fractional coordinates) which it loops over. The script
(`call_vmd_measure_gofr`, `crys.py:1583-1712`) only passes the arguments on. The values `first`, `last`, `step` are those documented: `first ≥ 0`,
`step ≥ 1`, `last ≥ -1`.
-/
namespace Pwtools.Gofr
open Pwtools.Cry

/-- One frame: cell and fractional coordinates. -/
structure Frame where
  /-- cell -/
  cell : Cell
  /-- fractional coordinates -/
  cf : List V3

/-- `l[start:stop:step]` for `start ≥ 0` and `step ≥ 1`; `stop` is `none` for `None`. -/
def pySlice {α : Type} (l : List α) (start : Nat) (stop : Option Nat) (step : Nat) : List α :=
  let stop := min (stop.getD l.length) l.length
  (List.range ((stop - start + (step - 1)) / step)).filterMap fun k => l[start + k * step]?

/-- The loop of VMD's `measure gofr` over frames `first`, `first + step`, …, up to `last` inclusive; `none` is `-1`, the last frame. -/
def vmdLoop {α : Type} (l : List α) (first : Nat) (last : Option Nat) (step : Nat) : List α :=
  let last := last.getD (l.length - 1)
  if l.length = 0 ∨ last < first then [] else (List.range ((last - first) / step + 1)).filterMap fun k => l[first + k * step]?

/-- Arguments of VMD other than frames. -/
structure Args (σ : Type) where
  /-- `dr` -/
  dr : ℝ
  /-- `rmax` -/
  rmax : ℝ
  /-- `sel`, `usepbc` -/
  sel : σ

/-- `vmd_measure_gofr`, `crys.py:1765-1800`. `rmax = none` is 'auto'; `last = none` is -1; `none` as result: the exception for cells which are not
orthogonal, or no step. -/
noncomputable def measure {σ R : Type} (gofr : List Frame → Args σ → R) (traj : List Frame) (dr : ℝ) (rmax : Option ℝ) (sel : σ) (first : Nat)
    (last : Option Nat) (step : Nat) (slicefirst : Bool) : Option R :=
  match traj with
  | [] => none
  | f0 :: _ =>
    let cc := cell2cc f0.cell
    open Classical in
    if max |cc.alpha - 90| (max |cc.beta - 90| |cc.gamma - 90|) > 0.1 then none
    else
      let args : Args σ := ⟨dr, rmax.getD (rmaxSmith f0.cell), sel⟩
      if slicefirst then
        let file := (pySlice (traj.map Frame.cf) first (last.map (· + 1)) step).map fun cf => (⟨f0.cell, cf⟩ : Frame)
        some (gofr (vmdLoop file 0 none 1) args)
      else some (gofr (vmdLoop traj first last step) args)

end Pwtools.Gofr
