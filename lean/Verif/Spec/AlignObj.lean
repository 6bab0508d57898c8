import Verif.Model.AlignObj
import Verif.Spec.LmpData
/-!
# Specification for C182: alignment of structures and trajectories
-/
namespace Pwtools.Spec
open Pwtools.Cry

/-- `a` is the atom (or time step) which the index `i` means: counted from 0, or from the end if negative. -/
def EntryAt {α : Type} (l : List α) (i : Int) (a : α) : Prop :=
  ∃ n : Nat, l[n]? = some a ∧ (i = n ∨ i = (n : Int) - l.length)

/-- The position of an atom with fractional coordinates `s` in a time step with the cell `c`: `∑ s_k c_k`. -/
noncomputable def positionOf (c : Cell) (s : V3) : V3 := fun l => ∑ k, s k * c k l

/-- Perpendicular vectors of positive length. -/
def Perp (x y : V3) : Prop := x ≠ 0 ∧ y ≠ 0 ∧ ∑ k, x k * y k = 0

/-- Euclidean length. -/
noncomputable def vecLen (x : V3) : ℝ := Real.sqrt (∑ k, x k ^ 2)

end Pwtools.Spec
