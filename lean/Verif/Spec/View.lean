import Verif.Model.View
import Mathlib.Data.Set.Finite.Basic
/-!
# Specification for C170: viewers
-/
namespace Pwtools.Spec
open Pwtools.View

variable {D : Type}

/-- New temporary files: names that do not exist yet. -/
def FreshNames (w : World D) : Prop := ∀ fs dir pre suf n, w.temp fs dir pre suf = some n → fs n = none

/-- Finitely many files exist. -/
def FiniteFS (fs : FS) : Prop := {n | fs n ≠ none}.Finite

/-- The directory `dir` exists: there new files can be created as long as only finitely many exist. -/
def DirExists (w : World D) (dir : String) : Prop := ∀ fs, FiniteFS fs → ∀ pre suf, w.temp fs dir pre suf ≠ none

/-- A command that changes no file but `log`, which it creates. -/
def OnlyWrites (w : World D) (cmd log : String) : Prop :=
  ∀ fs, (∀ n, n ≠ log → (w.shell cmd fs).1 n = fs n) ∧ (w.shell cmd fs).1 log ≠ none

/-- The structure file and the log file get different names: the given names differ, and new names differ from them. -/
def TwoNames (w : World D) (a : Args) : Prop :=
  (∀ n, a.structfile = some n → a.logfile ≠ some n) ∧
  ∀ fs pre suf n, w.temp fs a.tmpdir pre suf = some n → a.structfile ≠ some n ∧ a.logfile ≠ some n

/-- The object shown: the given one, with symbols "H" if it has none. -/
def shownObj (o : VObj D) : VObj D :=
  { o with symbols := some (o.symbols.getD (List.replicate o.natoms "H")) }

/-- The command line promised in the docstring. -/
def shellLine (cmd options structfile logfile : String) (disp : Bool) : String :=
  if disp then cmd ++ " " ++ options ++ " " ++ structfile ++ " 2>&1 | tee " ++ logfile
  else cmd ++ " " ++ options ++ " " ++ structfile ++ " > " ++ logfile ++ " 2>&1"

end Pwtools.Spec
