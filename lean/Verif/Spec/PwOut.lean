import Verif.Model.PwOut
/-!
# Specification: the output file of a pw.x run as a sequence of blocks
-/
namespace Pwtools.Spec
variable {K : Type}

/-- The kinds of lines the parser looks for. -/
inductive Key where
  | pos | cell | stress | energy | forceHead | force
  deriving DecidableEq

/-- What a line of the kind contains. -/
def Matches : Key → Text → Prop
  | .pos, l => ∃ a b, l = a ++ "ATOMIC_POSITIONS".toList ++ b
  | .cell, l => ∃ a b, l = a ++ "CELL_PARAMETERS".toList ++ b
  | .stress, l => ∃ a b, l = a ++ "P=".toList ++ b
  | .energy, l => ∃ b, l = '!' :: b
  | .forceHead, l => ∃ a b i j k, l = a ++ ("Forces".toList ++ (List.replicate (i + 1) ' ' ++ ("acting".toList ++
      (List.replicate (j + 1) ' ' ++ ("on".toList ++ (List.replicate (k + 1) ' ' ++ ("atoms".toList ++ b)))))))
  | .force, l => ∃ a b c d, l = a ++ ("atom".toList ++ (b ++ ("type".toList ++ (c ++ ("force".toList ++ d)))))

/-- A line of exactly one kind. -/
def Only (k : Key) (l : Text) : Prop := ∀ k', Matches k' l ↔ k' = k

/-- A line of none of the kinds. -/
def Quiet (l : Text) : Prop := ∀ k, ¬ Matches k l

/-- `--` does not occur in the line. -/
def NoDash (l : Text) : Prop := ∀ a b, l ≠ a ++ "--".toList ++ b

/-- The words in these columns (counted from 1) are these numbers. -/
def Row (num : Text → Option K) (cols : List Nat) (l : Text) (v : List K) : Prop :=
  cols.map (fun i => (splitWs l)[i - 1]?.bind num) = v.map some

/-- The line with the number of atoms: `... number ... atoms/cell ... = <na> ...`, with no second `=`. -/
structure NatomsLine (l : Text) (na : Nat) where
  (a b c w d : Text)
  eq : l = a ++ ("number".toList ++ (b ++ ("atoms/cell".toList ++ (c ++ ('=' :: (w ++ (strNat na ++ d)))))))
  blank : w ≠ [] ∧ ∀ x ∈ w, isPySpace x = true
  digit : ∀ x, d.head? = some x → x.isDigit = false
  last : '=' ∉ d

/-- A line which the parser could take for the line with the number of atoms. -/
def NatomsLike (l : Text) : Prop := ∃ a b c, l = a ++ ("number".toList ++ (b ++ ("atoms/cell".toList ++ c)))

/-- The parts of an output file: an energy line; positions, cell and stress (a header and rows of numbers); forces (a header, then
force lines mixed with other text); other text. -/
inductive Block (K : Type) where
  | other (l : Text)
  | energy (l : Text) (e : K)
  | positions (h : Text) (rows : List (Text × List K))
  | cell (h : Text) (rows : List (Text × List K))
  | stress (h : Text) (rows : List (Text × List K))
  | forces (h : Text) (body : List (Text × Option (List K)))

/-- The lines of a block. -/
def Block.lines : Block K → List Text
  | .other l => [l]
  | .energy l _ => [l]
  | .positions h rows | .cell h rows | .stress h rows => h :: rows.map Prod.fst
  | .forces h body => h :: body.map Prod.fst

/-- A well-formed block of a run with `na` atoms. -/
def Block.Wf (num : Text → Option K) (na : Nat) : Block K → Prop
  | .other l => Quiet l
  | .energy l e => Only .energy l ∧ Row num [5] l [e]
  | .positions h rows => Only .pos h ∧ rows.length = na ∧ ∀ r ∈ rows, Quiet r.1 ∧ NoDash r.1 ∧ Row num [2, 3, 4] r.1 r.2
  | .cell h rows => Only .cell h ∧ rows.length = 3 ∧
      ∀ r ∈ rows, Quiet r.1 ∧ NoDash r.1 ∧ r.2.length = 3 ∧ (splitWs r.1).map num = r.2.map some
  | .stress h rows => Only .stress h ∧ rows.length = 3 ∧ ∀ r ∈ rows, Quiet r.1 ∧ NoDash r.1 ∧ Row num [4, 5, 6] r.1 r.2
  | .forces h body => Only .forceHead h ∧ ∀ r ∈ body, match r.2 with
      | none => Quiet r.1
      | some v => Only .force r.1 ∧ Row num [7, 8, 9] r.1 v

/-- The values in the blocks. -/
def Block.pos? : Block K → Option (List (List K))
  | .positions _ rows => some (rows.map Prod.snd)
  | _ => none
def Block.cell? : Block K → Option (List (List K))
  | .cell _ rows => some (rows.map Prod.snd)
  | _ => none
def Block.stress? : Block K → Option (List (List K))
  | .stress _ rows => some (rows.map Prod.snd)
  | _ => none
def Block.energy? : Block K → Option K
  | .energy _ e => some e
  | _ => none
def Block.forces? : Block K → Option (List (List K))
  | .forces _ body => some (body.filterMap Prod.snd)
  | _ => none

/-- `file` is the output of a run with `na` atoms: text, the line with the number of atoms, blocks. -/
structure IsPwOut (num : Text → Option K) (na : Nat) (blocks : List (Block K)) (file : List Text) where
  pre : List Text
  natLine : Text
  eq : file = pre ++ natLine :: blocks.flatMap Block.lines
  quiet : ∀ l ∈ pre, Quiet l
  noNat : ∀ l ∈ pre, ¬ NatomsLike l
  quietNat : Quiet natLine
  isNat : NatomsLine natLine na
  wf : ∀ b ∈ blocks, b.Wf num na

/-- One structure of the run with all that pw.x computes for it: energy, forces, stress, each once, in any order and between other
text; `p?` is its position block (the first structure has none). -/
def IsPwStep (p? : Option (List (List K))) (e : K) (f s : List (List K)) (blocks : List (Block K)) : Prop :=
  blocks.filterMap Block.pos? = p?.toList ∧ blocks.filterMap Block.energy? = [e] ∧ blocks.filterMap Block.forces? = [f] ∧
    blocks.filterMap Block.stress? = [s]

/-- White space only (possibly nothing). -/
def Blank' (t : Text) : Prop := ∀ c ∈ t, isPySpace c = true

/-- The name of a unit: no white space, no brackets, no `=`. -/
def IsUnit (u : Text) : Prop := u ≠ [] ∧ ∀ c ∈ u, isPySpace c = false ∧ c ≠ '(' ∧ c ≠ ')' ∧ c ≠ '{' ∧ c ≠ '}' ∧ c ≠ '='

/-- A header line of a block: the key, then nothing, a unit, a unit in brackets, or `(unit=...`. -/
inductive UnitLine (key : Text) : Text → Option Text → Prop where
  | none (w w' : Text) (h : Blank' w ∧ Blank' w') : UnitLine key (w ++ (key ++ w')) none
  | unit (w w' w'' u o c : Text) (h : Blank' w ∧ Blank' w' ∧ Blank' w'' ∧ w' ≠ []) (hu : IsUnit u)
      (hb : (o, c) = ([], []) ∨ (o, c) = (['('], [')']) ∨ (o, c) = (['{'], ['}'])) :
      UnitLine key (w ++ (key ++ (w' ++ (o ++ (u ++ (c ++ w'')))))) (some u)
  | eqn (w w' u rest : Text) (h : Blank' w ∧ Blank' w' ∧ w' ≠ []) (hu : IsUnit u) :
      UnitLine key (w ++ (key ++ (w' ++ ('(' :: (u ++ ('=' :: rest)))))) (some u)

/-- An array with every entry multiplied. -/
def scaled [Mul K] (s : K) (a : List (List (List K))) : List (List (List K)) := a.map fun m => m.map fun r => r.map fun x => x * s

end Pwtools.Spec
