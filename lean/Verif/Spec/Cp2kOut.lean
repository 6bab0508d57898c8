import Verif.Spec.PwHead
/-!
# Specification for C123: lines of a CP2K output file
-/
namespace Pwtools.Spec
variable {K : Type}

/-- A run of blanks. -/
def Blanks (t : Text) : Prop := t ≠ [] ∧ ∀ c ∈ t, c = ' '

/-- A word without blanks. -/
def NoBlank (w : Text) : Prop := w ≠ [] ∧ ' ' ∉ w

/-- A row of the table of forces: number of the atom, number of the kind, symbol, then the numbers. -/
def ForceRow (num : Text → Option K) (l : Text) (v : List K) : Prop :=
  ∃ b1 i b2 k b3 s b4 rest, l = b1 ++ (i ++ (b2 ++ (k ++ (b3 ++ (s ++ (b4 ++ rest)))))) ∧ Blanks b1 ∧ NoBlank i ∧ Blanks b2 ∧ NoBlank k ∧ Blanks b3 ∧ NoBlank s ∧
    Blanks b4 ∧ rest.head? ≠ some ' ' ∧ NumLine num rest v ∧ v.length = 3

/-- A table of forces, without blank lines: the line `ATOMIC FORCES in`, column titles, one row per atom, and other text. -/
structure ForceTable (num : Text → Option K) (na : Nat) (lines : List Text) (F : List (List K)) : Prop where
  parts : ∃ hd ti R B, lines = hd :: ti :: (R ++ B) ∧ HasText "ATOMIC FORCES in".toList hd ∧ (HasText "Kind".toList ti ∧ ¬ HasText "ATOMIC FORCES in".toList ti) ∧ R.length = na ∧
    List.Forall₂ (ForceRow num) R F ∧ (∀ l ∈ R, ¬ HasText "ATOM".toList l ∧ ¬ HasText "--".toList l ∧ ¬ HasText "Kind".toList l) ∧
    ∀ l ∈ B, ¬ HasText "ATOMIC FORCES in".toList l

/-- `out` is text with blank lines in any places; without them it is other text and then the tables. -/
def IsForceOut (num : Text → Option K) (na : Nat) (out : List Text) (Fs : List (List (List K))) : Prop :=
  ∃ lines A Ts, Interleaved (fun l x => l = x ∧ ¬ BlankText l) BlankText out lines ∧ lines = A ++ List.flatten Ts ∧
    (∀ l ∈ A, ¬ HasText "ATOMIC FORCES in".toList l) ∧ List.Forall₂ (ForceTable num na) Ts Fs

end Pwtools.Spec
