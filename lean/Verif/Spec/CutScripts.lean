import Verif.Model.Grep
/-!
# Specifications for C100: files with one block of lines per time step
-/
namespace Pwtools.Spec

/-- A file: some lines at the start, then the blocks of the steps. -/
def stepFile (head : List Text) (steps : List (Nat × List Text)) : List Text := head ++ steps.flatMap Prod.snd

/-- The file without the steps from `s` on. -/
def stepFileBefore (s : Nat) (head : List Text) (steps : List (Nat × List Text)) : List Text :=
  stepFile head (steps.filter fun b => decide (b.1 < s))

/-- The numbers of the steps ascend. -/
def Ascending (steps : List (Nat × List Text)) : Prop := steps.Pairwise fun a b => a.1 < b.1

/-- A text of white space, not empty. -/
def IsBlank (ws : Text) : Prop := ws ≠ [] ∧ ∀ c ∈ ws, isPySpace c = true

/-- A line which begins with the number of the step: `   8401   ...`. -/
def StepLine (n : Nat) (l : Text) : Prop := ∃ ws c tail, IsBlank ws ∧ isPySpace c = true ∧ l = ws ++ strNat n ++ c :: tail

/-- A block of numbered lines (one per step, or one per atom); lines without a number (`<<<< NEW DATA >>>>`) may follow. -/
def LineBlock (n : Nat) (ls : List Text) : Prop :=
  ∃ l rest, ls = l :: rest ∧ StepLine n l ∧ ∀ l' ∈ rest, StepLine n l' ∨ ∀ m, ¬ StepLine m l'

/-- No digits. -/
def NoDigit (t : Text) : Prop := ∀ c ∈ t, c.isDigit = false

/-- A block with a headline: `   CELL PARAMETERS at Step:   8401`. -/
def HeadBlock (key : Text) (n : Nat) (ls : List Text) : Prop :=
  ∃ u v w b rest, ls = (u ++ key ++ v ++ "Step".toList ++ w ++ strNat n ++ b) :: rest ∧
    NoDigit u ∧ NoDigit key ∧ NoDigit v ∧ NoDigit w ∧ NoDigit b ∧ ∀ l ∈ rest, isInfix key l = false

/-- The number of atoms: `      64`. -/
def CountLine (na : Nat) (l : Text) : Prop := ∃ j k, l = List.replicate (j + 1) ' ' ++ strNat na ++ List.replicate k ' '

/-- The comment line in CP2K's `xyz` files: ` i =     8401, time = ...`. -/
def CommentLine (n : Nat) (l : Text) : Prop :=
  ∃ ws c tail, IsBlank ws ∧ isPySpace c = true ∧ l = " i =".toList ++ ws ++ strNat n ++ [',', c] ++ tail ∧ isInfix "i =".toList tail = false

/-- A block of CP2K's `xyz` files. -/
def Cp2kBlock (na n : Nat) (ls : List Text) : Prop :=
  ∃ c m rest, ls = c :: m :: rest ∧ CountLine na c ∧ CommentLine n m ∧ ∀ l ∈ rest, isInfix "i =".toList l = false

/-- The comment line in CPMD's `TRAJEC.xyz`: `  STEP:     8401`. -/
def StepComment (n : Nat) (l : Text) : Prop :=
  ∃ ws ws' tail, IsBlank ws ∧ IsBlank ws' ∧ NoDigit tail ∧ l = ws ++ "STEP:".toList ++ ws' ++ strNat n ++ tail

/-- A block of `TRAJEC.xyz`. -/
def CpmdBlock (n : Nat) (ls : List Text) : Prop :=
  ∃ c m rest, ls = c :: m :: rest ∧ StepComment n m ∧ isInfix "STEP:".toList c = false ∧ ∀ l ∈ rest, isInfix "STEP:".toList l = false

end Pwtools.Spec
