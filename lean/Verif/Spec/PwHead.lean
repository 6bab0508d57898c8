import Verif.Spec.ScfOut
import Verif.Spec.PwOut
import Verif.Spec.Phonon
import Mathlib.Data.List.Forall2
/-!
# Specification for C119, C120: lines of a pw.x output
-/
namespace Pwtools.Spec
variable {K : Type}

/-- A word: not empty, without white space. -/
def WordText (w : Text) : Prop := w ≠ [] ∧ ∀ c ∈ w, isPySpace c = false

/-- A line with `lattice parameter`. -/
def AlatLike (l : Text) : Prop := ∃ a b, l = a ++ "lattice parameter".toList ++ b

/-- `... = <x> a.u.`; nothing but white space behind it. -/
structure AlatLine (num : Text → Option K) (l : Text) (x : K) : Prop where
  like : AlatLike l
  text : ∃ p s w t u, l = p ++ '=' :: (s ++ w ++ t ++ "a.u.".toList ++ u) ∧ BlankText s ∧ WordText w ∧ '=' ∉ w ∧ BlankText t ∧ t ≠ [] ∧ BlankText u ∧ num w = some x

/-- The line above the cell vectors: `crystal ... axes ... units ... alat` or `... a_0`. -/
def AxesLike (l : Text) : Prop := ∃ a b c d e unit, (unit = "alat".toList ∨ unit = "a_0".toList) ∧
  l = a ++ ("crystal".toList ++ (b ++ ("axes".toList ++ (c ++ ("units".toList ++ (d ++ (unit ++ e)))))))

/-- The line above the atoms: `site ... atom ... positions ... units ... )`. -/
def SiteLike (l : Text) : Prop := ∃ a b c d e f,
  l = a ++ ("site".toList ++ (b ++ ("atom".toList ++ (c ++ ("positions".toList ++ (d ++ ("units".toList ++ (e ++ (")".toList ++ f)))))))))

/-- The line of an atom: the second word is the symbol; the numbers are in the last pair of parentheses. -/
def HeadAtomLine (num : Text → Option K) (l : Text) (a : Text × List K) : Prop :=
  (splitWs l)[1]? = some a.1 ∧ ∃ p body t, l = p ++ '(' :: (body ++ ')' :: t) ∧ '(' ∉ body ∧ BlankText t ∧ NumLine num body a.2

/-- A line with `number of k points=`. -/
def PointsLike (l : Text) : Prop := ∃ a b, l = a ++ "number of k points=".toList ++ b

/-- `number of k points= <n>`, then no digit and no other `points=`. -/
def PointsLine (l : Text) (n : Nat) : Prop := ∃ a s b, l = a ++ "number of k points=".toList ++ (s ++ strNat n ++ b) ∧ BlankText s ∧
  (∀ c, b.head? = some c → c.isDigit = false) ∧ '=' ∉ b

/-- `file` is made of lines which have `P` with some value, and of lines with `Q`; `xs` are the values, in order. -/
inductive Interleaved {α : Type} (P : Text → α → Prop) (Q : Text → Prop) : List Text → List α → Prop
  | nil : Interleaved P Q [] []
  | other {l ls xs} : Q l → Interleaved P Q ls xs → Interleaved P Q (l :: ls) xs
  | hit {l x ls xs} : P l x → Interleaved P Q ls xs → Interleaved P Q (l :: ls) (x :: xs)

/-- A line with `CELL_PARAMETERS`. -/
def CellLike (l : Text) : Prop := ∃ a b, l = a ++ "CELL_PARAMETERS".toList ++ b

/-- The characters of numbers. -/
def NumChar (c : Char) : Prop := c.isDigit = true ∨ c ∈ ".eEdD+-".toList

/-- `CELL_PARAMETERS (alat= <x>)`. -/
structure FactorLine (num : Text → Option K) (l : Text) (x : K) : Prop where
  text : ∃ a b c s w r, l = a ++ "CELL_PARAMETERS".toList ++ b ++ "alat".toList ++ c ++ '=' :: (s ++ w ++ r) ∧ BlankText s ∧
    w ≠ [] ∧ (∀ c ∈ w, NumChar c) ∧ (∀ c, r.head? = some c → ¬ NumChar c) ∧ '=' ∉ r ∧ num w = some x

/-- A line with `Ekin ... T ... Etot`. -/
def EkinLike (l : Text) : Prop := ∃ u v w x, l = u ++ "Ekin".toList ++ v ++ "T".toList ++ w ++ "Etot".toList ++ x

/-- A line with the number of iterations. -/
def IterLike (l : Text) : Prop := ∃ a b, l = a ++ "convergence has been achieved in".toList ++ b

end Pwtools.Spec
