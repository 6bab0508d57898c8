import Verif.Spec.PwHead
/-!
# Specification for C136 (PDB files)
-/
namespace Pwtools.Spec

/-- A number as Fortran or C prints it: digits, point, signs, exponent. -/
def PdbNum (x : Text) : Prop :=
  (∀ c ∈ x, c.isDigit = true ∨ c ∈ ['.', '+', '-', 'e', 'E', 'd', 'D']) ∧ ∃ c ∈ x, c ≠ '+' ∧ c ≠ '-'

/-- One record of an atom, `ATOM` or `HETATM`, up to the end of its line; for example

`ATOM      2  CA  ALA A   1      11.104   6.134  -6.504  1.00  0.00           C`

`serial`: the number of the atom; `name`: the letters at the beginning of the name of the atom; `residue`: the rest of the name, residue, chain and number
of the residue; `x`, `y`, `z`: coordinates; `rest`: what follows, and the end of the line. -/
structure PdbAtom where
  kind : Text
  serial : Text
  name : Text
  residue : Text
  gap : Text
  x : Text
  gap1 : Text
  y : Text
  gap2 : Text
  z : Text
  rest : Text

/-- The text of the record. -/
def PdbAtom.text (a : PdbAtom) : Text :=
  a.kind ++ (a.serial ++ (a.name ++ (a.residue ++ (a.gap ++ (a.x ++ (a.gap1 ++ (a.y ++ (a.gap2 ++ (a.z ++ a.rest)))))))))

/-- No record of an atom begins within the text, which is empty or ends with the end of a line. -/
def PdbQuiet (t : Text) : Prop :=
  ¬ "ATOM".toList <:+: t ∧ ¬ "HETATM".toList <:+: t ∧ (t = [] ∨ t.getLast? = some '\n')

/-- The record has fields which are separated by blanks. `residue` has no special characters: no primes in names of atoms, no negative number of the residue. The
first coordinate has a point or a sign, and at least two blanks before it. -/
structure PdbAtom.Wf (a : PdbAtom) : Prop where
  kind : a.kind = "ATOM".toList ∨ a.kind = "HETATM".toList
  serial : a.serial ≠ [] ∧ ∀ c ∈ a.serial, isPySpace c = true ∨ c.isDigit = true
  name : a.name ≠ [] ∧ ∀ c ∈ a.name, c.isAlpha = true
  residue : (∀ c ∈ a.residue, isPySpace c = true ∨ c.isAlpha = true ∨ c.isDigit = true) ∧ ∀ c, a.residue.head? = some c → c.isAlpha = false
  gap : BlankText a.gap ∧ 2 ≤ a.gap.length
  x : PdbNum a.x ∧ ∃ c ∈ a.x, c = '.' ∨ c = '+' ∨ c = '-'
  gap1 : BlankText a.gap1 ∧ a.gap1 ≠ []
  y : PdbNum a.y
  gap2 : BlankText a.gap2 ∧ a.gap2 ≠ []
  z : PdbNum a.z
  rest : PdbQuiet a.rest ∧ ∃ c, a.rest.head? = some c ∧ isPySpace c = true

/-- A PDB file with these records of atoms; what comes before, between and behind them is anything without such records. -/
def IsPdb (atoms : List PdbAtom) (txt : Text) : Prop :=
  ∃ pre post, txt = pre ++ (atoms.flatMap PdbAtom.text ++ post) ∧ PdbQuiet pre ∧ ¬ "ATOM".toList <:+: post ∧ ¬ "HETATM".toList <:+: post ∧ ∀ a ∈ atoms, a.Wf

/-- The record of the cell, `CRYST1`, six numbers, and anything behind them. -/
structure PdbCell where
  gap : Text
  words : List (Text × Text)

/-- Each number is followed by its blanks. -/
def PdbCell.text (a : PdbCell) : Text := "CRYST1".toList ++ (a.gap ++ a.words.flatMap fun w => w.1 ++ w.2)

/-- Six numbers with blanks between them, and at least two blanks before the first one. -/
structure PdbCell.Wf (a : PdbCell) : Prop where
  gap : BlankText a.gap ∧ 2 ≤ a.gap.length
  words : ∀ w ∈ a.words, PdbNum w.1 ∧ BlankText w.2 ∧ w.2 ≠ []
  six : a.words.length = 6

/-- The first record `CRYST1` of the text, at the beginning of a line. -/
def HasPdbCell (a : PdbCell) (txt : Text) : Prop :=
  ∃ pre post, txt = pre ++ (a.text ++ post) ∧ ¬ "CRYST1".toList <:+: pre ∧ (pre = [] ∨ pre.getLast? = some '\n')

/-- The name of an element from the name of an atom: two letters are an element with a small second letter. -/
def pdbSymbol (name : Text) : Text := if name.length = 2 then name.take 1 ++ (name.drop 1).map Char.toLower else name

end Pwtools.Spec
