import Verif.Model.Shell
import Verif.Model.Common
/-!
# Model of the start script `run.sh`: `batch.py`

The text is made as in `ParameterStudy.write_input` and split by the shell as in `Model/Shell.lean`. Of the shell those parts are modelled
which the script uses: `here=$(pwd)`, lists with `&&`, `cd`, `sleep`, the value of `$here` (split at blanks, since it is not quoted) and any other
command, which is a submission. A submission gets the current directory and succeeds or not; it neither makes nor removes directories.
Directory names are not normalised.
-/
namespace Pwtools.Sh

/-- The first line, `batch.py:562`. -/
def hereLine : List Char := "here=$(pwd)\n".toList

/-- `"cd %i && %s %s && cd $here && sleep %i\n"`, `batch.py:584-585`. -/
def runLine (sub job : List Char) (sleep idx : Nat) : List Char :=
  "cd ".toList ++ strNat idx ++ " && ".toList ++ sub ++ " ".toList ++ job ++ " && cd $here && sleep ".toList ++ strNat sleep ++ "\n".toList

/-- The text of `run.sh`, `batch.py:562-588`; `idxs` are the numbers of the calculations of the call. -/
def runTxt (sub job : List Char) (sleep : Nat) (idxs : List Nat) : List Char :=
  hereLine ++ (idxs.map (runLine sub job sleep)).flatten

/-- Put `x` in front of the first part. -/
def consHead {α : Type} (x : α) : List (List α) → List (List α)
  | [] => [[x]]
  | p :: l => (x :: p) :: l

/-- The lines of a script (what `/bin/sh` does with the text of `batch.py:588`). -/
def splitLines : List Tok → List (List Tok)
  | [] => [[]]
  | .op '\n' :: l => [] :: splitLines l
  | t :: l => consHead t (splitLines l)

/-- A list of commands joined by `&&` (as in `batch.py:584`); `none`: it has other operators, which are not modelled. -/
def andList : List Tok → Option (List (List Word))
  | [] => some [[]]
  | .word w :: l => (andList l).map (consHead w)
  | .op '&' :: .op '&' :: l => (andList l).map ([] :: ·)
  | .op _ :: _ => none

/-- Field splitting of a replaced `$here`, `batch.py:584`. -/
def fields : List Char → List (List Char)
  | [] => []
  | c :: s =>
    if isBlank c || c == '\n' then fields s
    else match s with
      | [] => [[c]]
      | d :: _ => if isBlank d || d == '\n' then [c] :: fields s else consHead c (fields s)

/-- The word `$here`, `batch.py:584`. -/
def hereWord : Word := ('$', true) :: "here".toList.map (fun c => (c, false))

/-- The arguments which a word becomes; other replacements than `$here` are not modelled (the word is used as it is). -/
def expand (here : List Char) (w : Word) : List (List Char) := if w = hereWord then fields here else [w.map (·.1)]

/-- One start of a command: where, the command with its arguments, and whether it succeeded. -/
structure Started where
  dir : List Char
  cmd : List (List Char)
  ok : Bool
deriving DecidableEq

/-- The shell which runs the script: current directory and what has been started. -/
structure Shell where
  cwd : List Char
  log : List Started
deriving DecidableEq

/-- `cd`: one argument which is a directory, otherwise it fails (`batch.py:584`). -/
def cdTo (dirs : Disk) (cwd : List Char) : List (List Char) → Option (List Char)
  | [a] =>
    let p := if a.head? = some '/' then a else cwd ++ '/' :: a
    if dirs p then some p else none
  | _ => none

/-- One command of a line of `batch.py:584`. `ok n dir`: does a command succeed which is started in `dir` after `n` others. -/
def simple (ok : Nat → List Char → Bool) (dirs : Disk) (here : List Char) (ws : List Word) (s : Shell) : Bool × Shell :=
  match ws.flatMap (expand here) with
  | [] => (true, s)
  | c :: as =>
    if c = "cd".toList then match cdTo dirs s.cwd as with
      | some p => (true, { s with cwd := p })
      | none => (false, s)
    else if c = "sleep".toList then (true, s)
    else (ok s.log.length s.cwd, { s with log := s.log ++ [⟨s.cwd, c :: as, ok s.log.length s.cwd⟩] })

/-- `a && b && ...`, `batch.py:584`: stop at the first command which fails. -/
def execAnd (ok : Nat → List Char → Bool) (dirs : Disk) (here : List Char) : List (List Word) → Shell → Shell
  | [], s => s
  | c :: l, s => match simple ok dirs here c s with
    | (true, t) => execAnd ok dirs here l t
    | (false, t) => t

/-- The lines one after the other; a failed line does not end the script (there is no `set -e`, `batch.py:562`). -/
def execLines (ok : Nat → List Char → Bool) (dirs : Disk) (here : List Char) : List (List Tok) → Shell → Option Shell
  | [], s => some s
  | l :: ls, s => (andList l).bind (fun a => execLines ok dirs here ls (execAnd ok dirs here a s))

/-- Running `run.sh` (`batch.py:562-588`) with the text `txt` by `/bin/sh` in `s.cwd`. `none`: it has syntax which is not modelled. -/
def runScript (ok : Nat → List Char → Bool) (dirs : Disk) (txt : List Char) (s : Shell) : Option Shell :=
  if hereLine.isPrefixOf txt then (tokens (txt.drop hereLine.length)).bind (fun ts => execLines ok dirs s.cwd (splitLines ts) s)
  else (tokens txt).bind (fun ts => execLines ok dirs [] (splitLines ts) s)

end Pwtools.Sh
