import Verif.Model.Pbc
import Verif.Model.Pydos
/-!
# Model of distances along trajectories, RMSD and neighbour structures
(`src/pwtools/crys.py`, `src/_ext_src/flib.f90`)
-/
namespace Pwtools.Cry
open Dos

/-! ### flib.distances_traj -/

/-- The memory of `distances_traj`, `flib.f90:497-501`: copy `c` of the work arrays `distvecs_frac`, `distvecs` and `distsq` (entries for
atoms `i`, `j`), and the result array `dists(t,i,j)`. -/
inductive DAddr where
  | frac (c i j : Nat)
  | vec (c i j : Nat)
  | sq (c i j : Nat)
  | out (t i j : Nat)
  deriving DecidableEq

/-- The pairs of atoms in the order of the loops, `flib.f90:420-424`. -/
def atomPairs (natoms : Nat) : List (Nat × Nat) := (List.range natoms).flatMap fun j => (List.range natoms).map fun i => (i, j)

/-- First part of `distsq_frac`, `flib.f90:420-439`: `distvecs_frac`. Simplified: the difference and the `while` loops for one entry are
one instruction. Every value is a vector here, a scalar is a constant vector. -/
def phaseFrac (c natoms : Nat) (d : Nat → Nat → V3) : List (Ins DAddr V3) :=
  (atomPairs natoms).flatMap fun x => [.store (.frac c x.1 x.2) fun _ => d x.1 x.2]

/-- Second part, `flib.f90:441-447`: `distvecs`. -/
def phaseVec (c natoms : Nat) (cell : Cell) : List (Ins DAddr V3) :=
  (atomPairs natoms).flatMap fun x => [.load (.frac c x.1 x.2), .store (.vec c x.1 x.2) (frac2cart cell)]

/-- Third part, `flib.f90:449-453`: `distsq`. -/
def phaseSq (c natoms : Nat) : List (Ins DAddr V3) :=
  (atomPairs natoms).flatMap fun x => [.load (.vec c x.1 x.2), .store (.sq c x.1 x.2) fun v _ => ∑ k, v k ^ 2]

/-- `dists(istep,:,:) = sqrt(distsq)`, `flib.f90:516`. -/
noncomputable def phaseOut (c t natoms : Nat) : List (Ins DAddr V3) :=
  (atomPairs natoms).flatMap fun x => [.load (.sq c x.1 x.2), .store (.out t x.1 x.2) fun v _ => Real.sqrt (v 0)]

/-- Iteration `t` of the loop in `distances_traj`, `flib.f90:512-517`, executed with copy `c` of the work arrays. -/
noncomputable def distBody (natoms : Nat) (cell : Nat → Cell) (d : Nat → Nat → Nat → V3) (c t : Nat) : List (Ins DAddr V3) :=
  phaseFrac c natoms (d t) ++ phaseVec c natoms (cell t) ++ phaseSq c natoms ++ phaseOut c t natoms

/-- `!$omp do` where the instructions may use work arrays of the thread: `copy p` is the copy which thread `p` uses. -/
def ParLoopC {α V : Type} [DecidableEq α] (copy : Nat → Nat) (n : Nat) (body : Nat → Nat → List (Ins α V)) (mem mem' : α → V) : Prop :=
  ∃ (P : Nat) (own : Fin P → List Nat) (reg : Fin P → V) (sched : List (Fin P)),
    ((List.finRange P).flatMap own).Perm (List.range n) ∧
    (∀ p, (Mach.run ⟨mem, reg, fun p => (own p).flatMap (body (copy p))⟩ sched).rest p = []) ∧
    (Mach.run ⟨mem, reg, fun p => (own p).flatMap (body (copy p))⟩ sched).mem = mem'

/-- `crys.distances_traj(traj, pbc)`, `crys.py:1859-1880`, with `_flib.distances_traj`, `flib.f90:479-520`: `dists` is a possible result.
`private(distvecs_frac, distvecs, distsq)` in line 510: every thread has its own work arrays. All arrays contain arbitrary values at first. -/
def DistancesTraj (copy : Nat → Nat) (nstep natoms : Nat) (cf : Nat → Nat → V3) (cell : Nat → Cell) (pbc : Bool)
    (dists : Nat → Nat → Nat → ℝ) : Prop :=
  ∃ (d : Nat → Nat → Nat → V3) (mem mem' : DAddr → V3),
    (∀ t i j, DistVecFrac pbc (cf t i) (cf t j) (d t i j)) ∧ ParLoopC copy nstep (distBody natoms cell d) mem mem' ∧
    dists = fun t i j => mem' (.out t i j) 0

/-- The copies with the `private` clause of the code. -/
def privateCopy (p : Nat) : Nat := p

/-- Without the clause there is one copy for all threads. -/
def sharedCopy (_ : Nat) : Nat := 0

/-! ### RMSD -/

/-- `coords -= ref[None]`, `crys.py:755-763` (`timeaxis` is 0 for a trajectory), with `ref = coords[ref_idx]`; `none`: `IndexError`. -/
noncomputable def rmsdDiff (coords : List (List V3)) (refIdx : Int) : Option (List (List V3)) :=
  match Nd.pyIndex coords.length refIdx with
  | none => none
  | some r => some (coords.map fun x => List.zipWith (fun a b => (fun k => a k - b k : V3)) x (coords.getD r []))

/-- `crys.rmsd(traj, ref_idx)`, `crys.py:723-764`, with `rms3d(..., axis=0, nitems=natoms)`, `num.py:1132-1168`, line 1163. -/
noncomputable def rmsd (coords : List (List V3)) (natoms : Nat) (refIdx : Int) : Option (List ℝ) :=
  match rmsdDiff coords refIdx with
  | none => none
  | some d => some (d.map fun x => Real.sqrt ((∑ k, (x.map fun v => v k ^ 2).sum) / (natoms : ℝ)))

/-! ### Structure of neighbours -/

/-- `num.match_mask(np.arange(natoms), ni)` for a list of indices, as the list of the positions where the mask is true. -/
def maskIdx (natoms : Nat) (ni : List Int) : List Nat := (List.range natoms).filter fun i => decide ((i : Int) ∈ ni)

/-- `crys.nearest_neighbors_struct`, `crys.py:2087-2107`: `ni` is the result of `nearest_neighbors` for the same arguments. -/
def nnStruct (st : Struct) (ni : List Nat) (idx : Int) : Struct :=
  let msk := maskIdx st.coordsFrac.length (ni.map (fun i : Nat => (i : Int)) ++ [idx])
  ⟨msk.map fun i => st.coordsFrac.getD i 0, st.cell, st.symbols.map fun l => msk.map fun i => l.getD i ""⟩

end Pwtools.Cry
