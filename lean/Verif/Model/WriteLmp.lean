import Verif.Model.Common
import Mathlib.Data.List.Basic
import Mathlib.Data.List.Infix
/-!
# Model of `io.write_lammps` and of the name of the symbols file of the LAMMPS parsers

A disk maps names of files to contents. The same file is always named by the same text (no links, no `a/../b`); all directories exist and are
writable. The text of the data file, which contains the time, is a parameter (its contents: `Model/LmpData`).
-/
namespace Pwtools.WriteLmp

/-- Names and contents of the files. -/
abbrev Disk := Text → Option Text

/-- `os.path.dirname` (posix), as used in `io.py:245` and `parse.py:262`: all up to the last slash, then without trailing slashes unless there are
only slashes. -/
def dirname (p : Text) : Text :=
  let head := (p.reverse.dropWhile (fun c => c != '/')).reverse
  if head.all (fun c => c == '/') then head else (head.reverse.dropWhile (fun c => c == '/')).reverse

/-- `os.path.join` (posix) of two arguments, as used in `io.py:246` and `parse.py:2238`. -/
def join (a b : Text) : Text :=
  if b.head? = some '/' then b else if a = [] ∨ a.getLast? = some '/' then a ++ b else a ++ '/' :: b

/-- The name `lmp.struct.symbols`, `io.py:228`, `parse.py:2238`. -/
def symbolsName : Text := "lmp.struct.symbols".toList

/-- `common.file_write`, `common.py:353-359`, as a sequence of states of one file: empty, then growing until it is complete. -/
def writeSteps (fn txt : Text) : List (Text × Text) := txt.inits.map (fun t => (fn, t))

/-- `io.write_lammps(filename, struct, symbolsbasename)`, `io.py:228-248`: the symbols first, then the data file with the text `data`. -/
def writeLammps (filename : Text) (symbols : List Text) (data : Text) (symbolsbasename : Text := symbolsName) : List (Text × Text) :=
  let dr := dirname filename
  let fn := join dr symbolsbasename
  writeSteps fn (joinSep ['\n'] symbols) ++ writeSteps filename data

/-- The disk after some changes. -/
def run (d : Disk) (steps : List (Text × Text)) : Disk := steps.foldl (fun d s => fun n => if n = s.1 then some s.2 else d n) d

/-- `symbols` of a `LammpsTextMDOutputFile(filename)` if the symbols file exists, `parse.py:262` (`basedir`), `2238`, `2414-2416`; `none`: it does not, and other
files are tried. -/
def readSymbols (d : Disk) (filename : Text) : Option (List Text) := (d (join (dirname filename) symbolsName)).map splitWs

end Pwtools.WriteLmp
