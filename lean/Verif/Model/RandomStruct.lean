import Verif.Model.Pbc
import Mathlib.Analysis.SpecialFunctions.Pow.Real
/-!
# Model of `src/pwtools/random.py`

The random number generator is a stream `rnd` of numbers in `[0,1)`; every function takes the
position in the stream and returns the position after it.
-/
namespace Pwtools.Rnd
open Pwtools.Cry

/-- Exceptions: `RandomStructureFail`, `ValueError: math domain error`, `KeyError`. -/
inductive RErr where
  | fail | domain | key
deriving DecidableEq, Repr

/-- The arguments of `RandomStructure(...)`, `random.py:40-49`, except `verbose`. Negative numbers of attempts act as 0. -/
structure Args where
  symbols : List String
  volScale : ℝ := 4
  angleRange : ℝ × ℝ := (60, 120)
  volRangeScale : ℝ × ℝ := (0.7, 1.3)
  lengthRangeScale : ℝ × ℝ := (0.7, 1.3)
  closeScale : ℝ := 1
  cellMaxtry : Nat := 100
  atomMaxtry : Nat := 1000

/-- The attributes set by the constructor. -/
structure RS where
  symbols : List String
  angleRange : ℝ × ℝ
  cellMaxtry : Nat
  atomMaxtry : Nat
  dijMin : Nat → Nat → ℝ
  volRange : ℝ × ℝ
  lengthRange : ℝ × ℝ

/-- `RandomStructure.__init__`, `random.py:79-95`. `covRad` is the column `cov_rad` of the periodic table. -/
noncomputable def init (covRad : String → Option ℝ) (a : Args) : Except RErr RS :=
  match a.symbols.mapM covRad with
  | none => .error .key
  | some radii =>
    let volMean := 4 / 3 * Real.pi * (radii.map fun r => r ^ (3 : ℝ)).sum * a.volScale
    let lengthMean := volMean ^ (1 / 3 : ℝ)
    .ok { symbols := a.symbols, angleRange := a.angleRange, cellMaxtry := a.cellMaxtry, atomMaxtry := a.atomMaxtry,
          dijMin := fun i j => (radii.getD j 0 + radii.getD i 0) * a.closeScale,
          volRange := (volMean * a.volRangeScale.1, volMean * a.volRangeScale.2),
          lengthRange := (lengthMean * a.lengthRangeScale.1, lengthMean * a.lengthRangeScale.2) }

/-- `numpy.random.uniform(lo, hi)` from a number in `[0,1)`. -/
def uniform (r : ℝ × ℝ) (u : ℝ) : ℝ := r.1 + (r.2 - r.1) * u

/-- `_get` in `get_random_cryst_const`, `random.py:108-112`: six random numbers. -/
def drawCC (rs : RS) (rnd : Nat → ℝ) (pos : Nat) : CrystConst :=
  ⟨uniform rs.lengthRange (rnd pos), uniform rs.lengthRange (rnd (pos + 1)), uniform rs.lengthRange (rnd (pos + 2)),
   uniform rs.angleRange (rnd (pos + 3)), uniform rs.angleRange (rnd (pos + 4)), uniform rs.angleRange (rnd (pos + 5))⟩

open Classical in
/-- The loop in `get_random_cryst_const`, `random.py:113-123`: lattice constants, `counters['cryst_const']` and the new position. `fuel` is
`cell_maxtry + 1 - cnt`. `volume_cc` raises `ValueError` for a negative number under the root. -/
noncomputable def getCC (rs : RS) (rnd : Nat → ℝ) : (fuel cnt pos : Nat) → Except RErr (CrystConst × Nat × Nat)
  | 0, _, _ => .error .fail
  | fuel + 1, cnt, pos =>
    let cc := drawCC rs rnd pos
    if ccRoot cc < 0 then .error .domain
    else if ¬ (rs.volRange.1 ≤ volumeCc cc ∧ volumeCc cc ≤ rs.volRange.2) then getCC rs rnd fuel (cnt + 1) (pos + 12)
    else .ok (cc, cnt, pos + 6)

/-- Minimum image of a fractional distance: the result of the two loops in `flib.f90:430-435` (`minImg_loops` in `Props/RandomStruct.lean`). -/
noncomputable def minImg (s : ℝ) : ℝ := s - ⌊s + 1 / 2⌋

/-- One entry of `np.sqrt(distsq)`, `random.py:158-164`, with `flib.f90:388-454`. -/
noncomputable def dist (cell : Cell) (x y : V3) : ℝ := distOf cell fun k => minImg (x k - y k)

/-- `_atoms_too_close`, `random.py:125-167`: any pair above the diagonal, among the filled rows. -/
def TooClose (rs : RS) (cell : Cell) (coords : List V3) : Prop :=
  ∃ i j, i < j ∧ j < coords.length ∧ dist cell (coords.getD i 0) (coords.getD j 0) < rs.dijMin i j

/-- `np.random.rand(3)`. -/
def rand3 (rnd : Nat → ℝ) (pos : Nat) : V3 := ![rnd pos, rnd (pos + 1), rnd (pos + 2)]

open Classical in
/-- The inner loop of `_get_random_struct`, `random.py:200-207`: the new row (`none` if the loop ends by itself), `cnt` and the new position.
`fuel` is `atom_maxtry + 1 - cnt`. -/
noncomputable def tryAtom (rs : RS) (cell : Cell) (rnd : Nat → ℝ) (coords : List V3) : (fuel cnt pos : Nat) → Option V3 × Nat × Nat
  | 0, cnt, pos => (none, cnt, pos)
  | fuel + 1, cnt, pos =>
    let x := rand3 rnd pos
    if TooClose rs cell (coords ++ [x]) then tryAtom rs cell rnd coords fuel (cnt + 1) (pos + 6)
    else (some x, cnt, pos + 3)

/-- The outer loop of `_get_random_struct`, `random.py:194-212`, for the remaining `n` atoms: coordinates, `counters['coords']` and position. -/
noncomputable def place (rs : RS) (cell : Cell) (rnd : Nat → ℝ) : (n : Nat) → (coords : List V3) → (cnts : List Nat) → (pos : Nat) →
    Except RErr (List V3 × List Nat × Nat)
  | 0, coords, cnts, pos => .ok (coords, cnts, pos)
  | n + 1, coords, cnts, pos =>
    let r : Option V3 × Nat × Nat :=
      if coords.length = 0 then (some (rand3 rnd pos), 1, pos + 3) else tryAtom rs cell rnd coords rs.atomMaxtry 1 pos
    if r.2.1 > rs.atomMaxtry then .error .fail
    else place rs cell rnd n (coords ++ [r.1.getD 0]) (cnts ++ [r.2.1]) r.2.2

/-- What `_get_random_struct` returns, with the counters. -/
structure Result where
  symbols : List String
  coordsFrac : List V3
  cell : Cell
  cellCount : Nat
  atomCounts : List Nat
  pos : Nat

/-- `_get_random_struct`, `random.py:181-216`. -/
noncomputable def getStruct (rs : RS) (rnd : Nat → ℝ) (pos : Nat) : Except RErr Result :=
  match getCC rs rnd rs.cellMaxtry 1 pos with
  | .error e => .error e
  | .ok (cc, cnt, pos) =>
    match place rs (cc2cell cc) rnd rs.symbols.length [] [] pos with
    | .error e => .error e
    | .ok (coords, cnts, pos) => .ok ⟨rs.symbols, coords, cc2cell cc, cnt, cnts, pos⟩

/-- `_get_random_struct_nofail` and `_try_random_struct`, `random.py:172-179, 218-233`: repeated calls, the generator goes on from any later
position (the number of draws of a failed call is not tracked). Only `RandomStructureFail` is caught. -/
inductive NoFail (rs : RS) (rnd : Nat → ℝ) : Nat → Except RErr Result → Prop
  | done {pos : Nat} {r : Result} : getStruct rs rnd pos = .ok r → NoFail rs rnd pos (.ok r)
  | raise {pos : Nat} {e : RErr} : getStruct rs rnd pos = .error e → e ≠ .fail → NoFail rs rnd pos (.error e)
  | again {pos pos' : Nat} {r : Except RErr Result} : getStruct rs rnd pos = .error .fail → pos < pos' → NoFail rs rnd pos' r →
      NoFail rs rnd pos r

end Pwtools.Rnd
