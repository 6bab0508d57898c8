import Verif.Model.Pbc
import Mathlib.Data.Set.Card
import Mathlib.Algebra.Order.Floor.Ring
import Mathlib.Data.Real.Archimedean
/-!
# Model of `crys.rpdf` (`src/pwtools/crys.py:1076-1580`)
-/
namespace Pwtools.Rp
open Pwtools.Cry

/-! ## Arguments -/

/-- What goes wrong. -/
inductive RErr where
  | assertion | indexError | maxmem
  deriving DecidableEq, Repr

/-- A trajectory as far as `rpdf` uses it (structures are converted by `struct2traj`). -/
structure RTraj where
  symbols : List String
  coordsFrac : List (List V3)
  cell : List Cell

/-- One entry of `amask`: `slice(None)`, a bool array or a string. -/
inductive Mask where
  | all
  | bools (b : List Bool)
  | name (s : String)
  deriving DecidableEq, Repr

/-- `amask[ii] = sy==amask[ii]` for strings, `crys.py:1499-1503`. -/
def Mask.resolve (sy : List String) : Mask → Mask
  | .name s => .bools (sy.map (fun x => decide (x = s)))
  | m => m

/-- The argument `trajs`: one object, or the caller's list. -/
inductive TArg where
  | one (t : RTraj)
  | lst (l : List RTraj)

/-- `if len(l) == 1: l *= 2`: in place, so the caller's list changes. -/
def double {α : Type} : List α → List α
  | [x] => [x, x]
  | l => l

/-- The check `trajs[0]... == trajs[1]...`, `crys.py:1493-1498`. -/
def sameKind (a b : RTraj) : Prop :=
  a.symbols = b.symbols ∧ a.coordsFrac.length = b.coordsFrac.length ∧ a.cell = b.cell

/-- `if type(trajs) != type([]): trajs = [trajs]`. -/
def TArg.toList : TArg → List RTraj
  | .one t => [t]
  | .lst l => l

/-- The caller's object after `if len(trajs) == 1: trajs *= 2`. -/
def TArg.after : TArg → TArg
  | .one t => .one t
  | .lst l => .lst (double l)

open Classical in
/-- The checks and the replacement of strings, `crys.py:1491-1503`, for the two lists; the masks
after the call are the second component. -/
noncomputable def check (dup : Bool) : List RTraj → List Mask → Except RErr (RTraj × RTraj × Mask × Mask) × List Mask
  | [t0, t1], [m0, m1] =>
    if dup = true ∨ sameKind t0 t1 then
      (.ok (t0, t1, m0.resolve t0.symbols, m1.resolve t0.symbols), [m0.resolve t0.symbols, m1.resolve t0.symbols])
    else (.error .assertion, [m0, m1])
  | _, ml => (.error .assertion, ml)

/-- The argument handling, `crys.py:1478-1503`: the two trajectories and masks used (or an error),
and what the caller's `trajs` and `amask` objects are after the call. -/
noncomputable def prep (trajs : TArg) (amask : Option (List Mask)) :
    Except RErr (RTraj × RTraj × Mask × Mask) × TArg × Option (List Mask) :=
  let r := check (decide (trajs.toList.length = 1)) (double trajs.toList) (double (amask.getD [.all]))
  (r.1, trajs.after, amask.map (fun _ => r.2))

/-- `l[mask]` for one mask; `none`: `IndexError`, wrong length of the mask. -/
def Mask.pick {α : Type} (m : Mask) (l : List α) : Option (List α) :=
  match m with
  | .all => some l
  | .bools b =>
    if b.length = l.length then some (((b.zip l).filter (fun p => p.1)).map Prod.snd) else none
  | .name _ => none

/-! ## Histograms -/

/-- `len(bins) - 1` with `bins = np.arange(0, rmax+dr, dr)`, `crys.py:1523`: `np.arange` has
`ceil((stop - start) / step)` entries. -/
noncomputable def nbins (dr rmax : ℝ) : Nat := ⌈(rmax + dr) / dr⌉₊ - 1

/-- `bins[k]`. -/
noncomputable def edge (dr : ℝ) (k : Nat) : ℝ := k * dr

/-- All distance vectors (fractional), `crys.py:1534-1537`: `s` are the differences of `x` and `y`,
with `pbc` after `min_image_convention` of the whole array. -/
def Vectors {T A B : Nat} (pbc : Bool) (x : Fin T → Fin A → V3) (y : Fin T → Fin B → V3)
    (u : (Fin T × Fin A × Fin B × Fin 3) → ℝ) : Prop :=
  if pbc then MinImage (fun q : Fin T × Fin A × Fin B × Fin 3 => x q.1 q.2.1 q.2.2.2 - y q.1 q.2.2.1 q.2.2.2) u
  else u = fun q => x q.1 q.2.1 q.2.2.2 - y q.1 q.2.2.1 q.2.2.2

/-- `dists_all`, `crys.py:1539-1543`. -/
noncomputable def distsAll {T A B : Nat} (cell : Cell) (u : (Fin T × Fin A × Fin B × Fin 3) → ℝ)
    (t : Fin T) (i : Fin A) (j : Fin B) : ℝ := distOf cell (fun k => u (t, i, j, k))

open Classical in
/-- `dists_all[dists_all >= rmax] = 0.0` and then the distance mask, `crys.py:1554-1562`. -/
noncomputable def maskDist (rmax : ℝ) (dmask : Option (ℝ → Prop)) (d : ℝ) : ℝ :=
  let d1 := if d ≥ rmax then 0 else d
  match dmask with
  | none => d1
  | some p => if p d1 then d1 else 0

/-- `np.histogram(dists, bins=bins)` for one time step, entry `k`: number of values in
`[bins[k], bins[k+1])`, the last bin includes its right edge; then `hist[0] = 0` (`crys.py:1570-1572`). -/
noncomputable def hist {A B : Nat} (dr : ℝ) (nb : Nat) (d : Fin A → Fin B → ℝ) (k : Nat) : ℝ :=
  if k = 0 then 0
  else (Set.ncard {p : Fin A × Fin B | edge dr k ≤ d p.1 p.2 ∧
      (d p.1 p.2 < edge dr (k + 1) ∨ (k + 1 = nb ∧ d p.1 p.2 = edge dr (k + 1)))} : ℝ)

/-- `dups`, `crys.py:1545-1549`. -/
noncomputable def dups {A B : Nat} (normVmd : Bool) (eps : ℝ) (d : Fin A → Fin B → ℝ) : ℝ :=
  if normVmd then (Set.ncard {p : Fin A × Fin B | d p.1 p.2 < eps} : ℝ) else 0

/-- Row `k` of the result, `crys.py:1524-1580`: radius, `g(r)`, number integral. `d` are the
distances before, `md` after masking. Division by zero is 0 here. -/
noncomputable def row {T A B : Nat} (dr volume : ℝ) (nb : Nat) (normVmd : Bool) (eps : ℝ)
    (d md : Fin T → Fin A → Fin B → ℝ) (k : Nat) : ℝ × ℝ × ℝ :=
  let volShell := 4 / 3 * Real.pi * (edge dr (k + 1) ^ 3 - edge dr k ^ 3)
  (edge dr k + 1 / 2 * dr,
   (∑ t, hist dr nb (md t) k * (volume / volShell / ((A : ℝ) * B - dups normVmd eps (d t)))) / T,
   (∑ t, (∑ m ∈ Finset.range (k + 1), hist dr nb (md t) m) / A) / T)

/-- `rpdf` after the selection of atoms and steps: coordinates `x` (natoms0 atoms) and `y`
(natoms1 atoms) of `T` steps; `out` is the returned array. `rmax = none` is `'auto'`.
Simplification: the memory check is left out. -/
def IsRpdf {T A B : Nat} (cell : Cell) (volume : ℝ) (x : Fin T → Fin A → V3) (y : Fin T → Fin B → V3)
    (dr : ℝ) (rmax : Option ℝ) (dmask : Option (ℝ → Prop)) (pbc normVmd : Bool) (eps : ℝ)
    (out : List (ℝ × ℝ × ℝ)) : Prop :=
  ∃ u, Vectors pbc x y u ∧
    let rm := rmax.getD (rmaxSmith cell)
    let d := fun t i j => distsAll cell u t i j
    let md := fun t i j => maskDist rm dmask (d t i j)
    out = (List.range (nbins dr rm)).map (row dr volume (nbins dr rm) normVmd eps d md)

/-- The steps selected by `tmask` (given as list of step numbers) and the atoms selected by a mask,
`coords_frac[tmask, amask, :]`, `crys.py:1504-1513`. -/
def select (steps : List Nat) (m : Mask) (cf : List (List V3)) : Option (List (List V3)) :=
  ((steps.filterMap (fun s => cf[s]?)).map m.pick).foldr
    (fun o acc => o.bind (fun l => acc.map (l :: ·))) (some [])

/-- `rpdf(trajs, dr, rmax, amask, tmask, dmask, pbc, norm_vmd)`: what is returned; the caller's
objects afterwards are `(prep trajs amask).2`. -/
def Rpdf (trajs : TArg) (amask : Option (List Mask)) (steps : List Nat) (dr : ℝ) (rmax : Option ℝ)
    (dmask : Option (ℝ → Prop)) (pbc normVmd : Bool) (eps : ℝ)
    (out : Except RErr (List (ℝ × ℝ × ℝ))) : Prop :=
  match (prep trajs amask).1 with
  | .error e => out = .error e
  | .ok (t0, t1, m0, m1) =>
    match select steps m0 t0.coordsFrac, select steps m1 t1.coordsFrac with
    | some c0, some c1 =>
      ∃ rows, out = .ok rows ∧
        IsRpdf (T := c0.length) (A := (c0.headD []).length) (B := (c1.headD []).length)
          (t0.cell.headD 0) (volumeCell (t0.cell.headD 0))
          (fun t i => (c0.getD t []).getD i 0) (fun t j => (c1.getD t []).getD j 0)
          dr rmax dmask pbc normVmd eps rows
    | _, _ => out = .error .indexError

end Pwtools.Rp
