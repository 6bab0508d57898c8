import Verif.Model.Cpmd
import Verif.Spec.Cp2k
import Verif.Spec.Lammps
/-!
# Specification: the extra files of a CPMD run
-/
namespace Pwtools.Spec
variable {K : Type}

/-- The columns of the file `ENERGIES` for the kinds of MD runs listed in the documentation of the parser. -/
inductive EnergyColumns : List String → Prop
  | parrinelloRahman : EnergyColumns ["NFI", "EKINC", "EKINH", "TEMPP", "EKS", "ECLASSIC", "EHAM", "DIS", "TCPU"]
  | cp : EnergyColumns ["NFI", "EKINC", "TEMPP", "EKS", "ECLASSIC", "EHAM", "DIS", "TCPU"]
  | lanczos : EnergyColumns ["NFI", "TEMPP", "EKS", "ECLASSIC", "DIS", "TCPU"]

/-- The number in the named column. -/
def namedCol (junk : K) (cols : List String) (r : List K) (name : String) : K := ((cols.zip r).lookup name).getD junk

/-- One atom in one step of a trajectory: the step number, position, velocity, force. -/
structure AtomStep (K : Type) where
  nfi : K
  pos : K × K × K
  vel : K × K × K
  force : K × K × K

def vec (v : K × K × K) : List K := [v.1, v.2.1, v.2.2]

/-- The columns of `TRAJECTORY` and `FTRAJECTORY` (with forces). -/
def AtomStep.row (forces : Bool) (a : AtomStep K) : List K := a.nfi :: (vec a.pos ++ vec a.vel ++ if forces then vec a.force else [])

/-- The lines of a trajectory file: rows, and marks of a restart (`<<<<<<  NEW DATA  >>>>>>`, perhaps indented). -/
inductive IsTrajFile (num : Text → Option K) : List Text → List (List K) → Prop
  | nil : IsTrajFile num [] []
  | mark {n : Nat} {t : Text} {ls : List Text} {rows : List (List K)} : IsTrajFile num ls rows →
      IsTrajFile num ((List.replicate n ' ' ++ "<<<<".toList ++ t) :: ls) rows
  | row {l : Text} {v : List K} {ls : List Text} {rows : List (List K)} : ¬ Has "<<<<".toList l → '#' ∉ l → (splitWs l).map num = v.map some →
      IsTrajFile num ls rows → IsTrajFile num (l :: ls) (v :: rows)

/-- A block of a text file: a header line, three rows. -/
structure Block3 (K : Type) where
  header : Text
  rows : List (Text × List K)

def Block3.lines (b : Block3 K) : List Text := b.header :: b.rows.map Prod.fst

/-- Three rows of `ncols` numbers; `key` is in the header only. -/
structure Block3.Wf (num : Text → Option K) (key : Text) (ncols : Nat) (b : Block3 K) : Prop where
  header : ∃ a c, b.header = a ++ key ++ c
  nrows : b.rows.length = 3
  rows : ∀ r ∈ b.rows, ¬ Has "CELL".toList r.1 ∧ ¬ Has "TOTAL".toList r.1 ∧ r.2.length = ncols ∧ (splitWs r.1).map num = r.2.map some

/-- A line of words, each preceded by blanks (the first one perhaps not). -/
inductive BlankLine : Text → List Text → Prop
  | one {n : Nat} {w : Text} : ' ' ∉ w → BlankLine (List.replicate n ' ' ++ w) [w]
  | cons {n m : Nat} {w t : Text} {ws : List Text} : ' ' ∉ w → BlankLine t ws →
      BlankLine (List.replicate n ' ' ++ w ++ List.replicate (m + 1) ' ' ++ t) (w :: ws)

end Pwtools.Spec
