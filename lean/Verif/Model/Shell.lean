/-!
# Model of the shell commands which pwtools makes from names: `common.py`, `batch.py`, `parse.py`

`/bin/sh -c` splits the text into words and operators. This is modelled for blanks, quotes, backslashes and operators; characters which
start an expansion or a comment (`$`, backquote, `*`, `?`, `[`, and `~`, `#` at the beginning of a word) are only marked, what they
expand to is not modelled. Text is a list of characters. Names are not normalised (`a//b`, `./a`).
-/
namespace Pwtools.Sh

/-- A word: characters, marked if the shell may replace them (`/bin/sh`, used by `common.py:669, 711`). -/
abbrev Word := List (Char × Bool)

/-- Words and operators. -/
inductive Tok
  | word (w : Word)
  | op (c : Char)
deriving DecidableEq

/-- Where the shell is: outside of quotes, in `'`, in `"`, after a backslash outside or inside of `"`. -/
inductive Mode | plain | single | double | esc | desc
deriving DecidableEq

/-- Blanks. -/
def isBlank (c : Char) : Bool := c == ' ' || c == '\t'

/-- Operators; a newline ends a command. -/
def isOp (c : Char) : Bool := c == ';' || c == '|' || c == '&' || c == '<' || c == '>' || c == '(' || c == ')' || c == '\n'

/-- Beginnings of expansions and comments; `first`: at the beginning of a word. -/
def isActive (first : Bool) (c : Char) : Bool :=
  c == '$' || c == '`' || c == '*' || c == '?' || c == '[' || (first && (c == '~' || c == '#'))

/-- The end of a word. -/
def flush : Option Word → List Tok
  | none => []
  | some w => [.word w]

/-- One more character of a word. -/
def push (acc : Option Word) (x : Char × Bool) : Option Word := some (acc.getD [] ++ [x])

/-- Splitting of a command by `/bin/sh` (POSIX, sections 2.2 and 2.3), as started by `subprocess` with `shell=True` in `common.py:669, 711`.
`none`: the text ends within quotes or after a backslash. -/
def lex (m : Mode) (acc : Option Word) : List Char → Option (List Tok)
  | [] => match m with
    | .plain => some (flush acc)
    | _ => none
  | c :: s => match m with
    | .plain =>
      if c = '\'' then lex .single (some (acc.getD [])) s
      else if c = '"' then lex .double (some (acc.getD [])) s
      else if c = '\\' then lex .esc acc s
      else if isBlank c then (lex .plain none s).map (flush acc ++ ·)
      else if isOp c then (lex .plain none s).map (flush acc ++ [.op c] ++ ·)
      else lex .plain (push acc (c, isActive acc.isNone c)) s
    | .single => if c = '\'' then lex .plain acc s else lex .single (push acc (c, false)) s
    | .double =>
      if c = '"' then lex .plain acc s
      else if c = '\\' then lex .desc acc s
      else lex .double (push acc (c, c == '$' || c == '`')) s
    | .esc => if c = '\n' then lex .plain acc s else lex .plain (push acc (c, false)) s
    | .desc =>
      if c = '\n' then lex .double acc s
      else if c = '$' || c = '`' || c = '"' || c = '\\' then lex .double (push acc (c, false)) s
      else lex .double (push (push acc ('\\', false)) (c, false)) s

/-- What the shell sees of a command. -/
def tokens (cmd : List Char) : Option (List Tok) := lex .plain none cmd

/-- The literal text of a word, if nothing is replaced in it. -/
def literal (w : Word) : Option (List Char) := if w.all (fun x => !x.2) then some (w.map (·.1)) else none

/-- `backtick`, `common.py:703-718`: `out`, `err` and `code` are what the command writes and its exit status. `none` is an exception. -/
def backtick (out err : List Char) (_code : Nat) : Option (List Char) := if err.all Char.isWhitespace then some out else none

/-- The names of the files and directories there are. -/
abbrev Disk := List Char → Bool

/-- `f` is `a` or below it. -/
def atOrBelow (a f : List Char) : Bool := f == a || (a ++ ['/']).isPrefixOf f

/-- `rm -r`: what is named is removed with everything below it; the result is `false` if something named does not exist. -/
def rm : List (List Char) → Disk → Bool × Disk
  | [], d => (true, d)
  | a :: as, d =>
    let r := rm as (fun f => d f && !atOrBelow a f)
    (d a && r.1, r.2)

/-- The arguments of a command without operators and replacements. -/
def args : List Tok → Option (List (List Char))
  | [] => some []
  | .word w :: l => match literal w, args l with
    | some a, some as => some (a :: as)
    | _, _ => none
  | .op _ :: _ => none

/-- `common.system("rm -r %s" %calc_dir)`, `batch.py:561`, `common.py:656-669`: the first component tells if there is no exception (exit status not 0).
`none`: the command is not (only) `rm -r` of literal names, or one of them looks like an option; what it does is not modelled. -/
def systemRm (dir : List Char) (d : Disk) : Option (Bool × Disk) :=
  match (tokens ("rm -r ".toList ++ dir)).bind args with
  | some (p :: o :: as) => if p = "rm".toList ∧ o = "-r".toList ∧ as.all (fun a => a.head? != some '-') then some (rm as d) else none
  | _ => none

/-- `ParameterStudy.write_input(mode='w', backup=False)` on an existing calculation directory, `batch.py:557-561`. -/
def clearCalcDir (dir : List Char) (d : Disk) : Option (Bool × Disk) := if d dir then systemRm dir d else some (true, d)

/-- `"grep '^!' %s | %s '{print $5}'" %(self.filename, AWK)`, `parse.py:688`. -/
def etotCmd (fn awk : List Char) : List Char := "grep '^!' ".toList ++ fn ++ " | ".toList ++ awk ++ " '{print $5}'".toList

/-- `"grep -c %s %s" %(key, self.filename)`, `parse.py:674, 937, 959`. -/
def countCmd (key fn : List Char) : List Char := "grep -c ".toList ++ key ++ " ".toList ++ fn

/-- `"%s %s %s > %s 2>&1" %(self.cmd, options, structfile, logfile)`, `visualize.py:125`, without options. -/
def viewCmd (cmd struct log : List Char) : List Char := cmd ++ "  ".toList ++ struct ++ " > ".toList ++ log ++ " 2>&1".toList

end Pwtools.Sh
