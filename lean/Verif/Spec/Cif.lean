import Verif.Model.Common
/-!
# Specification for C103 (CIF files)
-/
namespace Pwtools.Spec

/-- The text `t` of a CIF file stands for the number text `n`: `n` itself or, with a standard uncertainty, `n(...)`. -/
def CifNumber (n t : Text) : Prop :=
  n ≠ [] ∧ '(' ∉ n ∧ (t = n ∨ ((∀ c ∈ n, c.isDigit = true ∨ c ∈ ['.', 'e', 'E', 'd', 'D', '+', '-']) ∧ ∃ su, t = n ++ '(' :: su))

/-- The label `t` of an atom begins with the letters `s`, followed by something which is not a letter (a number, a charge) or nothing. -/
def CifLabel (s t : Text) : Prop :=
  s ≠ [] ∧ (∀ c ∈ s, c.isAlpha = true) ∧ ∃ rest, t = s ++ rest ∧ ∀ c, rest.head? = some c → c.isAlpha = false

end Pwtools.Spec
