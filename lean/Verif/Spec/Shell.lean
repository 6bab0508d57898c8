import Verif.Model.Shell
/-!
# Specification for C180: names in shell commands
-/
namespace Pwtools.Spec
open Pwtools.Sh

/-- Characters with a meaning for the shell anywhere. -/
def shellChars : List Char := " \t\n;|&<>()'\"\\$`*?[".toList

/-- A name which is one word and not changed by the shell: not empty, no such characters, no `~` or `#` at the beginning. -/
def ShellSafe (s : List Char) : Prop :=
  s ≠ [] ∧ (∀ c ∈ s, c ∉ shellChars) ∧ s.head? ≠ some '~' ∧ s.head? ≠ some '#'

/-- The word `s`, nothing in which is replaced. -/
def litWord (s : List Char) : Tok := .word (s.map (fun c => (c, false)))

/-- The rest of a command after a name: nothing, or it begins with a blank or an operator. -/
def EndsWord (s : List Char) : Prop := s = [] ∨ ∃ c t, s = c :: t ∧ c ∈ " \t\n;|&<>()".toList

/-- `f` is the directory `a` itself or in it, at any depth. -/
def InTree (a f : List Char) : Prop := f = a ∨ ∃ t, f = a ++ '/' :: t

end Pwtools.Spec
