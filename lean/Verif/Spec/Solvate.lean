import Verif.Model.Solvate
/-!
# Specification for C178: `solvate.sh`
-/
namespace Pwtools.Spec
open Pwtools.Solv

variable {C : Type}

/-- `-h` occurs nowhere in the command line. -/
def NoHelp (args : List Name) : Prop := ¬ "-h".toList <:+: joinArgs args

/-- The user names a file of molecules. -/
def GivesCi (args : List Name) : Prop := "-ci ".toList <:+: joinArgs args

/-- Names of files the script may remove: logs and backups. -/
def LogOrBackup (f : Name) : Prop := (".log".toList <:+ f ∧ ¬ ".".toList <+: f) ∨ "#".toList <+: f

/-- `foo.pdb`, where `.pdb` occurs only at the end. -/
def PdbName (a name : Name) : Prop := a = name ++ ".pdb".toList ∧ ¬ ".pdb".toList <:+: name

/-- `foo_gmx.pdb`, `foo_gmx.cif`, `foo_gmx.cif.txt`. -/
def outputs (name : Name) : List Name :=
  [name ++ "_gmx.pdb".toList, name ++ "_gmx.cif".toList, name ++ "_gmx.cif.txt".toList]

/-- What the three programs make of the input `x` and the molecule `ci`: nothing, if one of them fails. -/
def pipeline (P : Progs C) (opts : List Name) (x ci : Option C) : Option (C × C × C) :=
  match P.gmx opts x ci with
  | none => none
  | some g => match P.pdb2cif g with
    | none => none
    | some c => (P.cif2any c).map (fun t => (g, c, t))

end Pwtools.Spec
