import Verif.Model.Common
import Mathlib.Data.List.Infix
/-!
# Model of the shell tools the parsers in `src/pwtools/parse.py` call: grep, awk, and of `np.fromstring`, `np.loadtxt`

A file is the list of its lines (without line feeds). Number texts are read by a function `num : Text → Option K`
(`float(...)`), an arbitrary parameter of the model.
-/
namespace Pwtools.Gr

/-- Exceptions. -/
inductive PErr where
  | value | type | assertion | attr | zeroDiv | index
  deriving DecidableEq, Repr

/-- What a getter does: it raises, returns `None`, or returns a value. -/
abbrev Res (α : Type) := Except PErr (Option α)

/-- Matching of the regular expression `w1.*w2.*...` (literal words) on a line: the words occur in this order without overlap. -/
def hasSeq : List Text → Text → Bool
  | [], _ => true
  | w :: ws, l => l.tails.any fun t => w.isPrefixOf t && hasSeq ws (t.drop w.length)

/-- Matching of `w1[ ]+w2[ ]+...` at the start of a line. -/
def spacedPrefix : List Text → Text → Bool
  | [], _ => true
  | [w], l => w.isPrefixOf l
  | w :: ws, l => w.isPrefixOf l && (l.drop w.length).head? = some ' ' && spacedPrefix ws ((l.drop w.length).dropWhile (· = ' '))

/-- Matching of `w1[ ]+w2[ ]+...` on a line. -/
def hasSpaced (ws : List Text) (l : Text) : Bool := l.tails.any (spacedPrefix ws)

/-- `grep -A<n>`: every matching line and the `n` lines after it; groups which are not adjacent are separated by a line `--`.
`cnt` lines of context are still to be printed, `started`: something has been printed, `gap`: lines have been left out since. -/
def grepA (n : Nat) (p : Text → Bool) : List Text → Nat → Bool → Bool → List Text
  | [], _, _, _ => []
  | l :: ls, cnt, started, gap =>
    if p l then (if started && gap then ["--".toList] else []) ++ l :: grepA n p ls n true false
    else match cnt with
      | c + 1 => l :: grepA n p ls c true false
      | 0 => grepA n p ls 0 started true

/-- `grep -A<n> KEY file | grep -v -e KEY -e '--'`. -/
def grepAfter (n : Nat) (key : Text) (file : List Text) : List Text :=
  (grepA n (isInfix key) file 0 false false).filter fun l => !isInfix key l && !isInfix "--".toList l

/-- The words of `awk '{print $i $j ...}'` on a line (1-based column numbers; a missing column prints nothing). Simplified: white
space is that of `str.split()`, awk only splits at blanks and tabs. -/
def awk (cols : List Nat) (l : Text) : List Text := (cols.map fun i => (splitWs l).getD (i - 1) []).filter (· ≠ [])

variable {K : Type}

/-- `np.fromstring(txt, sep=' ')`: the numbers up to the first word which is not a number. -/
def fromString (num : Text → Option K) : List Text → List K
  | [] => []
  | w :: ws => match num w with
    | some x => x :: fromString num ws
    | none => []

/-- The parts of length `m` of a list, `n` of them. -/
def chunks (m : Nat) (xs : List K) (n : Nat) : List (List K) := (List.range n).map fun i => (xs.drop (i * m)).take m

/-- `traj_from_txt(txt, shape=(n,m,k))`, `parse.py:173-207`, with the words of `txt`; a wrong number of numbers is a `ValueError` of
`reshape`. -/
def trajFromTxt (num : Text → Option K) (words : List Text) (n m k : Nat) : Res (List (List (List K))) :=
  if words = [] then .ok none
  else
    let xs := fromString num words
    if xs.length = n * m * k then .ok (some ((chunks (m * k) xs n).map fun c => chunks k c m)) else .error .value

/-- `np.loadtxt` of lines of words: empty lines are skipped, all others must have the same number of words, all numbers. Simplified: no
comments. -/
def loadRows (num : Text → Option K) (rows : List (List Text)) : Except PErr (List (List K)) :=
  let rows := rows.filter (· ≠ [])
  match rows.mapM (fun r => r.mapM num) with
  | none => .error .value
  | some vals => if vals.all (fun v => v.length = (vals.headD []).length) then .ok vals else .error .value

/-- `arr1d_from_txt`, `parse.py:209-214`, for at most one word per line. -/
def arr1d (num : Text → Option K) (rows : List (List Text)) : Res (List K) :=
  if rows.flatten = [] then .ok none
  else match loadRows num rows with
    | .error e => .error e
    | .ok vals => .ok (some vals.flatten)

/-- `arr2d_from_txt`, `parse.py:216-221`: rows; one column gives a 1d array, which `np.atleast_2d` makes a single row. -/
def arr2d (num : Text → Option K) (rows : List (List Text)) : Res (List (List K)) :=
  if rows.flatten = [] then .ok none
  else match loadRows num rows with
    | .error e => .error e
    | .ok vals => if (vals.headD []).length = 1 then .ok (some [vals.flatten]) else .ok (some vals)

end Pwtools.Gr
