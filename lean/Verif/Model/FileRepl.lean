import Verif.Model.Common
import Mathlib.Logic.Function.Basic
import Batteries.Data.List.Basic
/-!
# `common.file_template_replace` and the order of its file operations
-/
namespace Pwtools.Repl

/-- Files with their contents. -/
abbrev Files := Text → Option Text

/-- One step: afterwards the file `name` has the given content. -/
abbrev Step := Text × Text

/-- `open(name, 'w')`, `write(txt)`, `close()` (`common.file_write`, `common.py:353-359`), and `shutil.copy`: first the file is empty, then it grows;
finer than what the operating system does, which writes in blocks. -/
def writeSteps (name txt : Text) : List Step := txt.inits.map fun p => (name, p)

/-- State after some steps. -/
def run (fs : Files) (steps : List Step) : Files := steps.foldl (fun f s => Function.update f s.1 (some s.2)) fs

/-- `file_template_replace`, `common.py:484-509`: the steps, `none` for exceptions (missing file, `template_replace`), which occur before the first
step. -/
def fileReplace (fs : Files) (fn bak : Text) (dct : List (Text × TVal)) (conv : Bool) : Option (List Step) :=
  match fs fn with
  | none => none
  | some old =>
    match templateReplace old dct conv with
    | none => none
    | some txt => some ((if bak ≠ [] then writeSteps (fn ++ bak) old else []) ++ writeSteps fn txt)

end Pwtools.Repl
