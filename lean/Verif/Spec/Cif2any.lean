import Verif.Spec.PwHead
/-!
# Specification for C137: what the programs read from their input files

Numbers are compared as words of the text.
-/
namespace Pwtools.Spec

/-- A number as it is printed: a word which begins with a digit or a minus sign. -/
def NumWord (w : Text) : Prop := WordText w ∧ ∃ c, w.head? = some c ∧ (c.isDigit = true ∨ c = '-')

/-- A chemical symbol: a word which begins with a capital letter. -/
def SymWord (w : Text) : Prop := WordText w ∧ ∃ c, w.head? = some c ∧ c.isUpper = true

/-- The lines of a text. -/
def linesOf (txt : Text) : List Text := splitSepAux '\n' [] [] txt

/-- ABINIT: `n` words behind a keyword, independent of lines. -/
def abGet (key : String) (n : Nat) (ws : List Text) : List Text := ((ws.dropWhile fun w => decide (w ≠ key.toList)).drop 1).take n

/-- The ABINIT input file describes a crystal with these lengths and angles and these atoms (atomic number, fractional coordinates), in order: `znucl` has `ntypat` atomic numbers,
`typat` has a number of a type for every atom, counted from 1. -/
def AbinitInput (txt : Text) (acell angdeg : List Text) (atoms : List (Nat × List Text)) : Prop :=
  ∃ (nt : Nat) (typat znucl : List Nat),
    abGet "natom" 1 (splitWs txt) = [strNat atoms.length] ∧ abGet "ntypat" 1 (splitWs txt) = [strNat nt] ∧
    typat.length = atoms.length ∧ abGet "typat" atoms.length (splitWs txt) = typat.map strNat ∧
    znucl.length = nt ∧ abGet "znucl" nt (splitWs txt) = znucl.map strNat ∧
    abGet "acell" 3 (splitWs txt) = acell ∧ abGet "angdeg" 3 (splitWs txt) = angdeg ∧
    abGet "xred" (3 * atoms.length) (splitWs txt) = atoms.flatMap Prod.snd ∧
    ∀ (i : Nat) (a : Nat × List Text), atoms[i]? = some a → a.2.length = 3 ∧ ∃ t, typat[i]? = some (t + 1) ∧ znucl[t]? = some a.1

/-- CPMD: the lines of the section `&ATOMS` up to `&END`, with these atoms (symbol, coordinates). For each species: the name of the pseudopotential, a line with settings, the
number of atoms and their coordinates. -/
inductive CpmdAtoms : List Text → List (Text × List Text) → Prop
  | nil (rest : List Text) : CpmdAtoms ("&END".toList :: rest) []
  | species (sym settings count : Text) (coords rest : List Text) (atoms : List (Text × List Text)) (h : splitWs count = [strNat coords.length]) (hr : CpmdAtoms rest atoms) :
    CpmdAtoms (("*".toList ++ sym ++ ".psp".toList) :: settings :: count :: (coords ++ rest)) (coords.map (fun l => (sym, splitWs l)) ++ atoms)

/-- The CPMD input file: lattice constants (absolute, in Bohr and degree) and atoms. -/
def CpmdInput (txt : Text) (cc : List Text) (atoms : List (Text × List Text)) : Prop :=
  ∃ pre cell rest, linesOf txt = pre ++ "    CELL ABSOLUTE DEGREE".toList :: (cell ++ "&END".toList :: [] :: "&ATOMS".toList :: rest) ∧
    "    CELL ABSOLUTE DEGREE".toList ∉ pre ∧ "    SCALE".toList ∈ pre ∧ cell.flatMap splitWs = cc ∧ CpmdAtoms rest atoms

/-- The lines of a file which begin with a word. -/
def linesWith (key : String) (txt : Text) : List (List Text) := ((linesOf txt).map splitWs).filter fun w => decide (w.head? = some key.toList)

/-- The CP2K input file: lengths (Angstrom) and angles of the cell, atoms in scaled coordinates, and a `&kind` for each of the symbols. -/
def Cp2kInput (txt : Text) (abc angles : List Text) (atoms : List (Text × List Text)) (kinds : List Text) : Prop :=
  linesWith "abc" txt = ["abc".toList :: abc] ∧ linesWith "alpha_beta_gamma" txt = ["alpha_beta_gamma".toList :: angles] ∧
  linesWith "&kind" txt = kinds.map (fun k => ["&kind".toList, k]) ∧
  ∃ pre post, (linesOf txt).map splitWs =
      pre ++ ["&coord".toList] :: ["scaled".toList, "t".toList] :: (atoms.map (fun a => a.1 :: a.2) ++ ["&end".toList, "coord".toList] :: post) ∧
    ["&coord".toList] ∉ pre

/-- PWscf: a card and the lines behind it, as words, up to an empty line, the next card or the end of the file. -/
def PwCard (txt : Text) (card : List String) (rows : List (List Text)) : Prop :=
  ∃ pre post, (linesOf txt).map splitWs = pre ++ card.map String.toList :: (rows ++ post) ∧ card.map String.toList ∉ pre ∧
    (post = [] ∨ post.head? = some [] ∨ post.head? = some ["ATOMIC_POSITIONS".toList, "crystal".toList])

/-- The value of a line `key = value`. -/
def asAssign : List Text → Option (Text × Text)
  | [k, e, v] => if e = "=".toList then some (k, v) else none
  | _ => none

/-- The lines `key = value` of a text. -/
def assigns (txt : Text) : List (Text × Text) := ((linesOf txt).map splitWs).filterMap asAssign

end Pwtools.Spec
