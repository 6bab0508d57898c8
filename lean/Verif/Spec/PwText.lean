import Verif.Model.Common
/-!
# Specification of text files made of lines and words
-/
namespace Pwtools.Spec

/-- `txt` is a file with these lines, each ended by a line feed. -/
def IsLines (txt : Text) (lines : List Text) : Prop :=
  txt = (lines.map fun l => l ++ ['\n']).flatten ∧ ∀ l ∈ lines, '\n' ∉ l

/-- A word: some characters, none of them white space. -/
def IsWord (t : Text) : Prop := t ≠ [] ∧ ∀ c ∈ t, isPySpace c = false

/-- White space only (possibly nothing). -/
def Blank (t : Text) : Prop := ∀ c ∈ t, isPySpace c = true

/-- A header line of a matdyn.x frequency file: `... nbnd = <nbnd> , nks = <nks> / ...` with arbitrary white space
between the parts. -/
structure Header (line : Text) (nbnd nks : Nat) where
  pre : Text
  post : Text
  w : Fin 9 → Text
  blank : ∀ i, Blank (w i)
  w0 : w 0 ≠ []
  eq : line = pre ++ (w 0 ++ ("nbnd".toList ++ (w 1 ++ ('=' :: (w 2 ++ (strNat nbnd ++ (w 3 ++ (',' :: (w 4 ++ ("nks".toList ++
    (w 5 ++ ('=' :: (w 6 ++ (strNat nks ++ (w 7 ++ ('/' :: post))))))))))))))))
  /-- Nothing that could be a second header follows. -/
  post_b : 'b' ∉ post

/-- Fortran input of a logical value: an optional point, then `t` or `f` (upper or lower case); what follows does not count. -/
def fortranLogical (t : Text) : Option Bool :=
  match (if t.head? = some '.' then t.tail else t).head? with
  | some 't' => some true
  | some 'T' => some true
  | some 'f' => some false
  | some 'F' => some false
  | _ => none

end Pwtools.Spec
