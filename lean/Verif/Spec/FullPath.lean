import Verif.Model.Common
/-!
# What a path names

A place in the tree of directories (without links) is the list of the names on the way from the root.
-/
namespace Pwtools.Spec

/-- Where one gets from the place `dir` with the components of a path: nothing and `.` stay, `..` goes one level up (and stays at the root),
every other name goes one level down. -/
def goPath (dir : List Text) : List Text → List Text
  | [] => dir
  | c :: r =>
    if c = [] ∨ c = ".".toList then goPath dir r
    else if c = "..".toList then goPath dir.dropLast r
    else goPath (dir ++ [c]) r

/-- The path `p`, used in the directory `dir`, names the place `place`: components are what is between slashes, and a path which starts with a
slash starts at the root. -/
def PathNames (dir : List Text) (p : Text) (place : List Text) : Prop :=
  ∃ l, l ≠ [] ∧ (∀ c ∈ l, '/' ∉ c) ∧ p = joinSep ['/'] l ∧ goPath (if p.head? = some '/' then [] else dir) l = place

/-- The text starts with exactly two slashes (posix leaves the meaning of such paths open; usually it is that of one slash). -/
def TwoSlashes (p : Text) : Prop := ∃ t, p = '/' :: '/' :: t ∧ t.head? ≠ some '/'

/-- The canonical text of a place. -/
def placeText (place : List Text) : Text := '/' :: joinSep ['/'] place

end Pwtools.Spec
