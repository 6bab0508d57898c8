import Verif.Model.Gather
import Verif.Spec.Batch
/-!
# Specification for C143: results of a parameter study in its database
-/
namespace Pwtools.Spec
open Gather
variable {R D : Type}

/-- A result as an entry of a parameter set. -/
def resultEntry (c : Col R D) (d : D) : Entry R := ⟨fixSqltype c.typ, c.value d, .str [], c.name⟩

/-- What a script has to write for `n` calculations, in its order: number of the calculation and value under the name of the column. -/
def resultsOf (s : Script R D) (n : Nat) : List (Nat × Entry R) :=
  (List.range n).flatMap fun i : Nat => match s.results (i : Int) with
    | none => []
    | some d => s.cols.map fun c => (i, resultEntry c d)

/-- The expected rows with results: those of calculation `k` are added to the entries of row `k`, and to no other row. -/
def withResults (rows : List (Planned R)) (us : List (Nat × Entry R)) : List (Planned R) :=
  rows.mapIdx fun k pl => { pl with params := pl.params ++ (us.filter fun u => u.1 = k).map fun u => .leaf u.2 }

/-- The life of a study in table `T`: the expected rows and the world. Calls of `write_input` which return, in any mode; runs of gather scripts which return; scripts which raise after any number of
effects, and scripts which are killed after any number of effects. The scripts do not write to the columns of `write_input` itself. -/
inductive Life (conv : Text → SqlVal R → SqlVal R) (D : Type) (T : Text) : List (Planned R) → World R → Prop
  | start (w : World R) : w.saved = none → Life conv D T [] w
  | call (rows : List (Planned R)) (w : World R) (c : Call R) (w' : World R) : Life conv D T rows w → c.study.table = T → c.study.machines ≠ [] →
      writeInput conv c.study c.opts w = (w', none) → Life conv D T (planned rows c) w'
  | gathered (rows : List (Planned R)) (w : World R) (s : Script R D) (w' : World R) : Life conv D T rows w → s.table = T → (∀ c ∈ s.cols, c.name ∉ adminKeys) →
      gather conv s w = (w', none) → Life conv D T (withResults rows (resultsOf s rows.length)) w'
  | raised (rows : List (Planned R)) (w : World R) (s : Script R D) (k : Nat) (w' : World R) : Life conv D T rows w → w.saved ≠ none → s.table = T → (∀ c ∈ s.cols, c.name ∉ adminKeys) →
      after conv s w k = (w', none) → Life conv D T (withResults rows ((resultsOf s rows.length).take (k - s.cols.length))) (closed w')
  | killed (rows : List (Planned R)) (w : World R) (s : Script R D) (k : Nat) (w' : World R) : Life conv D T rows w → w.saved ≠ none → s.table = T → (∀ c ∈ s.cols, c.name ∉ adminKeys) →
      k ≤ s.cols.length + (resultsOf s rows.length).length → after conv s w k = (w', none) → Life conv D T rows w'

end Pwtools.Spec
