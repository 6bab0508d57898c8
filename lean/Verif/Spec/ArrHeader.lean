import Verif.Model.ArrHeader
/-!
# Specification for C117
-/
namespace Pwtools.Spec
open Hdr

/-- A text without blanks at its ends. -/
def Trimmed (t : Text) : Prop := (∀ c ∈ t.head?, isPySpace c = false) ∧ ∀ c ∈ t.getLast?, isPySpace c = false

/-- Names and values which an ini file can hold: names in lower case without delimiters, brackets and comment signs; values without comment signs;
no blanks at the ends; each name once. -/
structure GoodCfg (com : Char) (cfg : Cfg) : Prop where
  secs : (cfg.map Prod.fst).Nodup
  sec : ∀ s ∈ cfg, s.1 ≠ [] ∧ com ∉ s.1 ∧ ']' ∉ s.1
  opts : ∀ s ∈ cfg, (s.2.map Prod.fst).Nodup
  opt : ∀ s ∈ cfg, ∀ o ∈ s.2, o.1 ≠ [] ∧ Trimmed o.1 ∧ (∀ c ∈ o.1, c ≠ '=' ∧ c ≠ ':' ∧ c.toLower = c) ∧
    (∀ c ∈ o.1.head?, c ≠ '[' ∧ c ≠ ';' ∧ c ≠ '#') ∧ com ∉ o.1 ∧ Trimmed o.2 ∧ com ∉ o.2

end Pwtools.Spec
