import Verif.Model.WriteLmp
/-!
# Model of `common.fullpath`, `common.fullpathjoin`

`os.path` of posix systems: `posixpath.expanduser`, `join`, `normpath`, `abspath`. The current directory is a text which starts with `/`; the
home directories are a function of the name of the user (the empty name: `$HOME`, or the entry of the current user).
-/
namespace Pwtools.FullPath
open WriteLmp

/-- `path.split('/')` in `os.path.normpath`, called by `common.py:372`. -/
def split : Text → List Text
  | [] => [[]]
  | c :: t =>
    if c = '/' then [] :: split t
    else
      match split t with
      | [] => [[c]]
      | x :: xs => (c :: x) :: xs

/-- One turn of the loop over the components in `os.path.normpath`, called by `common.py:372`; `abs`: the path starts with `/`. -/
def normStep (abs : Bool) (acc : List Text) (c : Text) : List Text :=
  if c = [] ∨ c = ['.'] then acc
  else if c ≠ ['.', '.'] ∨ (abs = false ∧ acc = []) ∨ acc.getLast? = some ['.', '.'] then acc ++ [c]
  else acc.dropLast

/-- The number of slashes at the start which `os.path.normpath` keeps: two are kept, three or more are one. -/
def initialSlashes (p : Text) : Nat :=
  if p.head? ≠ some '/' then 0
  else if p.take 2 = ['/', '/'] ∧ p.take 3 ≠ ['/', '/', '/'] then 2 else 1

/-- `os.path.normpath`, called by `common.py:372`. -/
def normpath (p : Text) : Text :=
  if p = [] then ['.']
  else
    let k := initialSlashes p
    let comps := (split p).foldl (normStep (decide (k ≠ 0))) []
    let r := List.replicate k '/' ++ joinSep ['/'] comps
    if r = [] then ['.'] else r

/-- `os.path.abspath`, called by `common.py:372`. -/
def abspath (cwd p : Text) : Text := normpath (if p.head? = some '/' then p else join cwd p)

/-- `os.path.expanduser`, called by `common.py:372`: `home name` is the home directory of a user. -/
def expanduser (home : Text → Option Text) (p : Text) : Text :=
  match p with
  | '~' :: t =>
    let name := t.takeWhile (fun c => c != '/')
    let rest := t.dropWhile (fun c => c != '/')
    match home name with
    | none => p
    | some h =>
      let r := (h.reverse.dropWhile (fun c => c == '/')).reverse ++ rest
      if r = [] then ['/'] else r
  | _ => p

/-- `common.fullpath`, `common.py:370-372`. -/
def fullpath (cwd : Text) (home : Text → Option Text) (s : Text) : Text := abspath cwd (expanduser home s)

/-- `common.fullpathjoin` of two names, `common.py:375-376`. -/
def fullpathjoin (cwd : Text) (home : Text → Option Text) (a b : Text) : Text := fullpath cwd home (join a b)

end Pwtools.FullPath
