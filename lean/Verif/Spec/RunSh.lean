import Verif.Model.RunSh
import Verif.Spec.Shell
/-!
# Specification for C181: the start script
-/
namespace Pwtools.Spec
open Pwtools.Sh

/-- The directory of calculation `i` in `h`. -/
def calcPath (h : List Char) (i : Nat) : List Char := h ++ '/' :: strNat i

/-- The job of calculation `i` is submitted in its directory. -/
def submitted (h sub job : List Char) (good : Bool) (i : Nat) : Started := ⟨calcPath h i, [sub, job], good⟩

/-- A command which is neither `cd` nor `sleep`, and one word; the job file is one word. -/
def JobWords (sub job : List Char) : Prop :=
  ShellSafe sub ∧ ShellSafe job ∧ sub ≠ "cd".toList ∧ sub ≠ "sleep".toList

/-- An existing directory with an absolute name without characters which the shell replaces. -/
def PlainDir (dirs : Disk) (h : List Char) : Prop := ShellSafe h ∧ h.head? = some '/' ∧ dirs h = true

end Pwtools.Spec
