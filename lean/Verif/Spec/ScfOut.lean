import Verif.Model.ScfOut
import Mathlib.Data.List.Forall2
/-!
# Specifications for C110, C111, C112
-/
namespace Pwtools.Spec
open Scf Gr
variable {K : Type}

/-- A line with `w` in it. -/
def HasText (w l : Text) : Prop := ∃ a b, l = a ++ w ++ b

/-- A line with the words `ws` in this order, without overlap, anything between them. -/
def HasInOrder : List Text → Text → Prop
  | [], _ => True
  | w :: ws, l => ∃ a b, l = a ++ (w ++ b) ∧ HasInOrder ws b

/-- A line with three words separated by blanks (one or more). -/
def HasSpaced3 (u v w l : Text) : Prop :=
  ∃ a n m b, l = a ++ (u ++ (List.replicate (n + 1) ' ' ++ (v ++ (List.replicate (m + 1) ' ' ++ (w ++ b)))))

/-- A line of white space only. -/
def WhiteLine (l : Text) : Prop := ∀ c ∈ l, isPySpace c = true

/-- A line whose words are the given numbers. -/
def NumLine (num : Text → Option K) (l : Text) (v : List K) : Prop := (splitWs l).map num = v.map some

/-- A line of a table: `before` words, a symbol, then numbers. -/
def AtomLine (num : Text → Option K) (before : Nat) (l : Text) (sym : Text) (v : List K) : Prop :=
  (splitWs l)[before]? = some sym ∧ ((splitWs l).drop (before + 1)).map num = v.map some

/-- A line with three numbers, then a symbol and nothing else. -/
def ScaleLine (num : Text → Option K) (l : Text) (v : List K) (sym : Text) : Prop :=
  ∃ ws, splitWs l = ws ++ [sym] ∧ ws.map num = v.map some ∧ v.length = 3

/-- A line with `STRESS TENSOR` and, after it, `GPa`. -/
def StressTitle (l : Text) : Prop := ∃ a b c, l = a ++ "STRESS TENSOR".toList ++ b ++ "GPa".toList ++ c

/-- A line which begins with blanks and then one of the letters X, Y, Z. -/
def AxisLine (c : Char) (l : Text) : Prop := ∃ n rest, l = List.replicate (n + 1) ' ' ++ c :: rest ∧ 'X' ∉ rest ∧ 'Y' ∉ rest ∧ 'Z' ∉ rest

/-- A line which does not: it does not begin with a blank, or the first other character is another one. -/
def NoAxis (l : Text) : Prop := ∀ n c rest, l = List.replicate (n + 1) ' ' ++ c :: rest → c ≠ 'X' ∧ c ≠ 'Y' ∧ c ≠ 'Z'

/-- The column titles `X  Y  Z`. -/
def XYZTitle (l : Text) : Prop :=
  ∃ a n m b, l = a ++ ('X' :: (List.replicate (n + 1) ' ' ++ ('Y' :: (List.replicate (m + 1) ' ' ++ ('Z' :: b)))))

end Pwtools.Spec
