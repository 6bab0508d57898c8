import Verif.Model.WriteLmp
/-!
# Specification for C185: files of structures for LAMMPS
-/
namespace Pwtools.Spec
open Pwtools

/-- A plain name of a file, without directory. -/
def PlainName (f : Text) : Prop := f ≠ [] ∧ '/' ∉ f

/-- A name of a directory: nothing (the current one), the root, or a text which does not end in a slash. -/
def DirName (d : Text) : Prop := d = ['/'] ∨ d.getLast? ≠ some '/'

/-- The name of the file `f` in the directory `d`. -/
def inDir (d f : Text) : Text := if d = [] then f else if d = ['/'] then '/' :: f else d ++ '/' :: f

/-- Symbols of atoms: words without white space. -/
def GoodSymbols (s : List Text) : Prop := ∀ t ∈ s, t ≠ [] ∧ ∀ c ∈ t, isPySpace c = false

end Pwtools.Spec
