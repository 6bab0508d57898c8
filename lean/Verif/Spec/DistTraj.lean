import Verif.Model.Pbc
/-!
# Specifications for C96, C97
-/
namespace Pwtools.Spec
open Pwtools.Cry

/-- Sum of the squared displacements of all atoms between two frames. -/
def sqDisp (natoms : Nat) (x y : Nat → V3) : ℝ := ∑ i ∈ Finset.range natoms, ∑ k, (x i k - y i k) ^ 2

/-- `new` consists of exactly those atoms of `st` for which `want` holds, in the order of `st`, in the same cell. -/
def IsSubStruct (st new : Struct) (want : Nat → Prop) : Prop :=
  new.cell = st.cell ∧ ∃ pos : List Nat, pos.Pairwise (· < ·) ∧ (∀ i, i ∈ pos ↔ i < st.coordsFrac.length ∧ want i) ∧
    new.coordsFrac = pos.map (fun i => st.coordsFrac.getD i 0) ∧
    new.symbols = st.symbols.map fun l => pos.map fun i => l.getD i ""

end Pwtools.Spec
