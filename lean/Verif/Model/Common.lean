/-!
# Model of `src/pwtools/common.py` (strings, template_replace, backup, converters)

Text is `List Char` (a Python `str` is a sequence of code points). Files and
directories are opaque contents; printing (warnings, `disp`) is not modelled.
-/
namespace Pwtools

abbrev Text := List Char

/-- `str(n)` for a non-negative int: decimal digits. -/
def strNat (n : Nat) : Text := Nat.toDigits 10 n

/-- `str(i)` for an int. -/
def strInt : Int → Text
  | .ofNat n => strNat n
  | .negSucc n => '-' :: strNat (n + 1)

/-- The characters on which `str.split()` splits and which `str.strip()` removes
(Unicode white space as listed by `str.isspace`). -/
def isPySpace (c : Char) : Bool :=
  let n := c.toNat
  (9 ≤ n && n ≤ 13) || (28 ≤ n && n ≤ 32) || n == 0x85 || n == 0xa0 || n == 0x1680 ||
  (0x2000 ≤ n && n ≤ 0x200a) || n == 0x2028 || n == 0x2029 || n == 0x202f || n == 0x205f ||
  n == 0x3000

/-- `st.split()`: maximal runs of non white space. `cur` is the token being read. -/
def splitWsAux (cur : Text) : Text → List Text
  | [] => if cur = [] then [] else [cur]
  | c :: cs =>
    if isPySpace c then (if cur = [] then splitWsAux [] cs else cur :: splitWsAux [] cs)
    else splitWsAux (cur ++ [c]) cs

/-- `st.split()`. -/
def splitWs (st : Text) : List Text := splitWsAux [] st

/-- `st.split(sep)` for the non-empty separator `s :: ss`: the leftmost separator ends the
current token, the search continues behind it. -/
def splitSepAux (s : Char) (ss : Text) (cur : Text) : Text → List Text
  | [] => [cur]
  | c :: cs =>
    if (s :: ss).isPrefixOf (c :: cs) then cur :: splitSepAux s ss [] (cs.drop ss.length)
    else splitSepAux s ss (cur ++ [c]) cs
termination_by st => st.length
decreasing_by all_goals simp <;> omega

/-- `sep.join(parts)`. -/
def joinSep (sep : Text) : List Text → Text
  | [] => []
  | [p] => p
  | p :: q :: ps => p ++ sep ++ joinSep sep (q :: ps)

/-- `common.seq2str`, `common.py:225-227`. `func` is a total conversion to text. -/
def seq2str {α : Type} (seq : List α) (func : α → Text) (sep : Text := [' ']) : Text :=
  joinSep sep (seq.map func)

/-- `list(map(func, l))` where `func` may raise (`none`). -/
def mapE {α β : Type} (func : α → Option β) : List α → Option (List β)
  | [] => some []
  | a :: as => match func a with
    | none => none
    | some b => match mapE func as with
      | none => none
      | some bs => some (b :: bs)

/-- `common.str2seq`, `common.py:230-236`. `sep = none` is white space splitting, the empty
separator is a `ValueError` (`none`). -/
def str2seq {α : Type} (st : Text) (func : Text → Option α) (sep : Option Text := none) :
    Option (List α) :=
  match sep with
  | none => mapE func (splitWs st)
  | some [] => none
  | some (s :: ss) => mapE func (splitSepAux s ss [] st)

/-- `int(text)` restricted to an optional sign followed by ASCII decimal digits
(white space, underscores and non-ASCII digits are not modelled: `none`). -/
def parseInt : Text → Option Int
  | [] => none
  | '-' :: ds => if ds ≠ [] ∧ ds.all Char.isDigit then some (-(Nat.ofDigitChars 10 ds 0 : Nat)) else none
  | '+' :: ds => if ds ≠ [] ∧ ds.all Char.isDigit then some (Nat.ofDigitChars 10 ds 0 : Nat) else none
  | ds => if ds.all Char.isDigit then some (Nat.ofDigitChars 10 ds 0 : Nat) else none

/-! ## template_replace -/

/-- Python values that can stand in the dict of `template_replace`: a `str`, a `float`
(with its `"%.16e"` text) or anything else (with its `repr`). -/
inductive TVal where
  | str (s : Text)
  | flt (e16 : Text)
  | other (r : Text)

/-- `common.frepr(var, ffmt="%.16e")`, `common.py:193-222`. -/
def frepr : TVal → Text
  | .flt e => e
  | .str s => s
  | .other r => r

/-- `key in txt` for strings. -/
def isInfix (key : Text) : Text → Bool
  | [] => key.isEmpty
  | c :: cs => key.isPrefixOf (c :: cs) || isInfix key cs

/-- `txt.replace(key, val)` for the non-empty key `k :: ks`: leftmost non overlapping
occurrences. -/
def replaceNE (k : Char) (ks val : Text) : Text → Text
  | [] => []
  | c :: cs =>
    if (k :: ks).isPrefixOf (c :: cs) then val ++ replaceNE k ks val (cs.drop ks.length)
    else c :: replaceNE k ks val cs
termination_by st => st.length
decreasing_by all_goals simp <;> omega

/-- `txt.replace(key, val)`; for the empty key Python inserts `val` before every character
and at the end. -/
def pyReplace (txt key val : Text) : Text :=
  match key with
  | [] => txt.flatMap (fun c => val ++ [c]) ++ val
  | k :: ks => replaceNE k ks val txt

/-- The loop of `template_replace(..., mode='txt')`, `common.py:449-478`: the test
`tst_key in txt` uses the original text, the replacement works on `new_txt`. `none` is the
exception "dict vals must be strings". -/
def templateLoop (txt : Text) (conv : Bool) (newTxt : Text) : List (Text × TVal) → Option Text
  | [] => some newTxt
  | (key, val) :: rest =>
    if isInfix key txt then
      if conv then templateLoop txt conv (pyReplace newTxt key (frepr val)) rest
      else match val with
        | .str s => templateLoop txt conv (pyReplace newTxt key s) rest
        | _ => none
    else templateLoop txt conv newTxt rest

/-- `common.template_replace(txt, dct, conv, mode='txt')`, `common.py:380-481`; `dct` is the
list of items in iteration order. -/
def templateReplace (txt : Text) (dct : List (Text × TVal)) (conv : Bool) : Option Text :=
  templateLoop txt conv txt dct

/-! ## backup -/

/-- What a path can be for `common.backup`, `common.py:527-533`. -/
inductive FNode (C : Type) where
  | file (c : C)
  | dir (c : C)
  | special
  deriving DecidableEq

/-- A directory listing: names with what they are. Simplification: only the directory
containing `src` is modelled, `src` is a plain name without a trailing slash, dangling
symlinks do not occur. -/
abbrev Fs (C : Type) := List (Text × FNode C)

/-- `os.path.exists` / reading a path. -/
def Fs.get {C : Type} (fs : Fs C) (name : Text) : Option (FNode C) := List.lookup name fs

/-- Create or overwrite a path (`shutil.copy`, `shutil.copytree`, writing a file). -/
def Fs.set {C : Type} (fs : Fs C) (name : Text) (n : FNode C) : Fs C :=
  (name, n) :: fs.filter (fun e => e.1 ≠ name)

/-- Remove a path. -/
def Fs.del {C : Type} (fs : Fs C) (name : Text) : Fs C := fs.filter (fun e => e.1 ≠ name)

/-- The name tried in round `idx`, `common.py:535,538`. -/
def backupName (src pre : Text) (idx : Nat) : Text := src ++ pre ++ strNat idx

/-- The `while` loop, `common.py:536-538`. `none` stands for "fuel used up" (never
happens with the fuel given below, see `C03_backup`). -/
def backupIdx {C : Type} (fs : Fs C) (src pre : Text) : Nat → Nat → Option Nat
  | 0, _ => none
  | fuel + 1, idx =>
    if (fs.get (backupName src pre idx)).isSome then backupIdx fs src pre fuel (idx + 1)
    else some idx

inductive BackupErr where
  | notFileOrDir
  | diverges

/-- `common.backup`, `common.py:512-543`. -/
def backup {C : Type} (fs : Fs C) (src : Text) (pre : Text := ['.']) : Except BackupErr (Fs C) :=
  match fs.get src with
  | none => .ok fs
  | some .special => .error .notFileOrDir
  | some node =>
    match backupIdx fs src pre (fs.length + 1) 0 with
    | none => .error .diverges
    | some idx => .ok (fs.set (backupName src pre idx) node)

/-! ## tobool, toslice, ffloat -/

/-- The Python types these converters distinguish. -/
inductive PyVal where
  | bool (b : Bool)
  | int (i : Int)
  | str (s : Text)
  | bytes (b : Text)
  | other

inductive ConvErr where
  | exception | assertionError | typeError
  deriving DecidableEq

/-- `common.tobool`, `common.py:111-150`. In Python 3 a `bytes` value never equals a `str`,
so both membership tests in the list of strings are false. -/
def tobool : PyVal → Except ConvErr Bool
  | .bool b => .ok b
  | .bytes _ => .error .exception
  | .int i => if i ≠ 0 then .ok true else .ok false
  | .str _ => .error .exception
  | .other => .error .exception

/-- `common.toslice`, `common.py:65-108`. Only `bytes` pass the assertion;
`bytes.startswith('-')` with a `str` argument raises `TypeError`. The success type is left
open: it is never used. -/
def toslice (R : Type) : PyVal → Except ConvErr R
  | .bytes _ => .error .typeError
  | _ => .error .assertionError

/-- `common.ffloat`, `common.py:153-190`. Only `bytes` pass the assertion; `'d' in st` with
`bytes` on the right raises `TypeError`. -/
def ffloat (R : Type) : PyVal → Except ConvErr R
  | .bytes _ => .error .typeError
  | _ => .error .assertionError

end Pwtools
