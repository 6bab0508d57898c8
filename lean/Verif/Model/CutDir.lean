import Verif.Model.CutScripts
/-!
# Model of the runs of `bin/cut-cp2k.sh` and `bin/cut-cpmd.sh` in a directory

The commands of the scripts as a list of atomic effects on the directory, so that a crash can be anywhere between two of them. GNU sed with
`-i.bak` writes the result to a temporary file, renames the file to its backup name and then renames the temporary file. The patterns and
their effects on the text are in `Model/CutScripts.lean`.
-/
namespace Pwtools.Cut
open Pwtools.Gr

/-- Endings of names: the file, `.bak`, `.bak2`. -/
inductive Sfx | main | bak | bak2
deriving DecidableEq

/-- A directory: the contents (lines) of the files which exist. -/
abbrev Dir (F : Type) := F → Sfx → Option (List Text)

/-- The directory and the temporary file of sed, with the name it will get. -/
structure St (F : Type) where
  dir : Dir F
  tmp : Option (F × List Text)

/-- Atomic effects. -/
inductive Op (F : Type)
  /-- The temporary file is complete, the file is renamed to its backup name. -/
  | toBak (f : F) (s : Sfx) (g : List Text → List Text)
  /-- The temporary file gets the name of the file. -/
  | put (f : F)
  /-- `sed -i` without a backup: the file is replaced by the temporary file in one step. -/
  | inPlace (f : F) (g : List Text → List Text)

variable {F : Type} [DecidableEq F]

/-- Write a file. -/
def Dir.set (d : Dir F) (f : F) (s : Sfx) (c : Option (List Text)) : Dir F := fun f' s' => if f' = f ∧ s' = s then c else d f' s'

/-- Execution of an effect. Files which do not exist are skipped (`[ -f $fn ]`). -/
def Op.exec (st : St F) : Op F → St F
  | .toBak f s g =>
    match st.dir f .main with
    | none => st
    | some c => ⟨(st.dir.set f s (some c)).set f .main none, some (f, g c)⟩
  | .put f =>
    match st.tmp with
    | some (f', c) => if f' = f then ⟨st.dir.set f .main (some c), none⟩ else st
    | none => st
  | .inPlace f g =>
    match st.dir f .main with
    | none => st
    | some c => ⟨st.dir.set f .main (some (g c)), st.tmp⟩

/-- A run from a directory. -/
def runOps (ops : List (Op F)) (d : Dir F) : St F := ops.foldl Op.exec ⟨d, none⟩

/-- What is in the directory if the script is killed after `k` effects. -/
def crash (ops : List (Op F)) (k : Nat) (d : Dir F) : Dir F := (runOps (ops.take k) d).dir

/-! ### cut-cp2k.sh -/

/-- The files of `cut-cp2k.sh:87-94`. -/
inductive Cp2kFile | cell | ener | stress | frc | pos | vel
deriving DecidableEq

/-- What the arguments and the restart file give for `step_to_cut`, `cut-cp2k.sh:97-107`. -/
inductive StepArg
  /-- the script stops with an error message -/
  | refused
  | num (n : Nat)
  /-- `step_to_cut` is the empty text (`bc` prints nothing but an error message) -/
  | empty
  /-- not modelled: more than one line with `STEP_START_VAL`, or a value which is no number -/
  | other

/-- `cut-cp2k.sh:97-107`. `arg` is the second argument, `restart` the lines of the restart file if it exists. -/
def stepOf (arg : Option Nat) (restart : Option (List Text)) : StepArg :=
  match arg, restart with
  | some n, _ => .num n
  | none, none => .refused
  | none, some ls =>
    match (ls.filter (isInfix "STEP_START_VAL".toList)).map fun l => (splitWs l)[1]?.getD [] with
    | [] => .empty
    | [[]] => .empty
    | [t] => if t.all Char.isDigit then .num (Nat.ofDigitChars 10 t 0 + 1) else .other
    | _ => .other

/-- `^\s+\s+`: the pattern of `cut-cp2k.sh:114` with an empty step. -/
def lineReEmpty (l : Text) : Bool := 2 ≤ (l.takeWhile isPySpace).length

/-- `i =\s+,\s+`: the pattern of `cut-cp2k.sh:125` with an empty step. -/
def xyzReEmpty (l : Text) : Bool := l.tails.any fun t =>
  let r := t.drop 3
  let d := r.dropWhile isPySpace
  "i =".toList.isPrefixOf t && (r.takeWhile isPySpace != []) && (d.head? = some ',') && ((d.drop 1).head?.any isPySpace)

/-- `if tail -n1 $fn | egrep -q ...; then sed -i -re '$d' $fn; fi`, `cut-cp2k.sh:126-128`. -/
def dropCount (natoms : Text) (f : List Text) : List Text :=
  match f.getLast? with
  | none => f
  | some l => if countRe natoms l then f.dropLast else f

/-- The two loops, `cut-cp2k.sh:112-132`, with the patterns for lines and for `xyz` files. -/
def cp2kOps (pl px : Text → Bool) (natoms : Text) : List (Op Cp2kFile) :=
  [.cell, .ener, .stress].flatMap (fun f => [.toBak f .bak (sedCut pl), .put f]) ++
  [.frc, .pos, .vel].flatMap fun f => [.toBak f .bak (sedCut px), .put f, .inPlace f (dropCount natoms)]

/-- `cut-cp2k.sh [-s] <dir> [<step>]`: the effects. The number of atoms is read before the second loop (`cut-cp2k.sh:120`); as the first loop
does not change the file, it is taken from the directory at the start. Without this file `head` fails and `natoms` is empty. -/
def cp2kScript (simulate : Bool) (arg : Option Nat) (restart : Option (List Text)) (d : Dir Cp2kFile) : List (Op Cp2kFile) :=
  if simulate then [] else
  let natoms := natomsText ((d .pos .main).getD [])
  match stepOf arg restart with
  | .num n => cp2kOps (lineRe n) (xyzRe n) natoms
  | .empty => cp2kOps lineReEmpty xyzReEmpty natoms
  | _ => []

/-! ### cut-cpmd.sh -/

/-- The files of `cut-cpmd.sh:104-109`. -/
inductive CpmdFile | cell | energies | stress | trajectory | ftrajectory | xyz
deriving DecidableEq

/-- The loop of `cut-cpmd.sh:86-111`. -/
def cpmdOps (step : Nat) : List (Op CpmdFile) :=
  [.toBak .cell .bak (cpmdHeader "CELL PARAMETERS".toList step), .put .cell,
   .toBak .energies .bak (cpmdLines step), .put .energies,
   .toBak .stress .bak (cpmdHeader "TOTAL STRESS".toList step), .put .stress,
   .toBak .trajectory .bak (cpmdLines step), .put .trajectory,
   .toBak .ftrajectory .bak (cpmdLines step), .put .ftrajectory,
   .toBak .xyz .bak (sedCut (stepRe step)), .put .xyz,
   .toBak .xyz .bak2 List.dropLast, .put .xyz]

/-- `cut-cpmd.sh [-s] [--not-inplace] <dir> <step>`: with `-s` nothing is executed, with `--not-inplace` sed prints. -/
def cpmdScript (simulate notInplace : Bool) (step : Nat) : List (Op CpmdFile) := if simulate || notInplace then [] else cpmdOps step

end Pwtools.Cut
