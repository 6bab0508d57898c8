import Verif.Model.Common
import Mathlib.Algebra.Order.Field.Rat
import Mathlib.Algebra.Order.Group.Unbundled.Abs
import Mathlib.Algebra.Field.Rat
import Mathlib.Algebra.Order.Group.Abs
/-!
# Model of the text builders and readers in `src/pwtools/pwscf.py`, `src/pwtools/io.py` and `common.str_arr`

Numbers are rationals; the conversion of a number to text (`'%.16e' % x`, numpy's `str(x)`) is a parameter. `none` is an
exception. `np.empty` gives arbitrary content (`junk`).
-/
namespace Pwtools.Pw

/-! ### K-points -/

/-- A Python sequence of ints: list, tuple or numpy array. -/
inductive PySeq where
  | list (l : List Int)
  | tuple (l : List Int)
  | array (l : List Int)

/-- `list(x)`. -/
def PySeq.toList : PySeq → List Int
  | .list l => l
  | .tuple l => l
  | .array l => l

/-- numpy's `a + b` of 1d arrays with broadcasting. -/
def arrAdd (a b : List Int) : Option (List Int) :=
  if a.length = b.length then some (List.zipWith (· + ·) a b)
  else match a, b with
    | [x], b => some (b.map (x + ·))
    | a, [y] => some (a.map (· + y))
    | _, _ => none

/-- `x + y`. -/
def PySeq.add : PySeq → PySeq → Option (List Int)
  | .list a, .list b => some (a ++ b)
  | .tuple a, .tuple b => some (a ++ b)
  | .list _, .tuple _ => none
  | .tuple _, .list _ => none
  | a, b => arrAdd a.toList b.toList

/-- `kpoints_str`, `pwscf.py:115-120`. -/
def kpointsStr (lst : List Int) (base : Text) : Text :=
  joinSep [','] (lst.zipIdx.map fun q => base ++ strNat (q.2 + 1) ++ ['='] ++ strInt q.1)

/-- `kpoints_str_pwin`, `pwscf.py:124-133`. -/
def kpointsStrPwin (lst shift : PySeq) : Option Text :=
  (lst.add shift).map fun l => joinSep [' '] (l.map strInt)

/-- The argument `lst` of `kpoints_str_pwin_full`. -/
inductive KArg where
  | str (t : Text)
  | seq (s : PySeq)

/-- `kpoints_str_pwin_full`, `pwscf.py:137-152`. A string that is not `'gamma'`: `str + list` is a `TypeError`. -/
def kpointsStrPwinFull (lst : KArg) (shift : PySeq) (gamma : Bool) : Option Text :=
  match lst with
  | .str t =>
    if t = "gamma".toList then some "K_POINTS gamma".toList else none
  | .seq s =>
    let l := s.toList
    if l = [1, 1, 1] ∧ gamma then some "K_POINTS gamma".toList
    else (kpointsStrPwin (.list l) shift).map fun t => "K_POINTS automatic\n".toList ++ t

/-- `bool2str`, `pwscf.py:156-158`. -/
def bool2str (x : Bool) : Text := if x then ".true.".toList else ".false.".toList

/-! ### Arrays and atoms as text -/

/-- `fix_eps` on one entry, `common.py:243-260`. -/
def fixEps (eps x : Rat) : Rat := if |x| ≤ eps then 0 else x

/-- `str_arr` of a 1d array, `common.py:301-304`. `num` formats one number. -/
def strArr1 (num : Rat → Text) (delim : Text) (eps : Rat) (row : List Rat) : Text :=
  let row := if eps > 0 then row.map (fixEps eps) else row
  joinSep delim (row.map num)

/-- `str_arr` of a 2d array, `common.py:301-302`, `305-312`. -/
def strArr2 (num : Rat → Text) (delim : Text) (eps : Rat) (arr : List (List Rat)) : Text :=
  let arr := if eps > 0 then arr.map fun row => row.map (fixEps eps) else arr
  joinSep ['\n'] (arr.map fun row => joinSep delim (row.map num))

/-- `atpos_str`, `pwscf.py:39-47`. -/
def atposStr (num : Rat → Text) (delim : Text) (eps : Rat) (symbols : List Text) (coords : List (List Rat)) : Option Text :=
  if symbols.length = coords.length then
    some (joinSep ['\n'] (List.zipWith (fun s row => s ++ delim ++ strArr1 num delim eps row) symbols coords))
  else none

/-- Assignment of a string to an entry of an array of dtype `U32`. -/
def u32 (t : Text) : Text := t.take 32

/-- `arr[:,0] = symbols`: a list of one symbol is broadcast, other lengths are refused. -/
def bcast (symbols : List Text) (nrows : Nat) : Option (List Text) :=
  if symbols.length = nrows then some symbols
  else match symbols with
    | [s] => some (List.replicate nrows s)
    | _ => none

/-- `atpos_str_fast`, `pwscf.py:50-85`. `npstr` is numpy's conversion of a number. -/
def atposStrFast (npstr : Rat → Text) (symbols : List Text) (coords : List (List Rat)) : Option Text :=
  (bcast symbols coords.length).map fun syms =>
    (List.zipWith (fun s row => joinSep [' ', ' '] (u32 s :: row.map (fun x => u32 (npstr x))) ++ ['\n']) syms coords).flatten

/-- `atspec_str`, `pwscf.py:88-112`. `masses` as text (`str(mass)`). -/
def atspecStr (symbols masses pseudos : List Text) : Option Text :=
  if symbols.length = masses.length ∧ masses.length = pseudos.length then
    some (joinSep ['\n'] ((symbols.zip (masses.zip pseudos)).map fun q => q.1 ++ ['\t'] ++ q.2.1 ++ ['\t'] ++ q.2.2))
  else none

/-- A trajectory, as far as the writers use it. Each entry of `coords` has `natoms` rows. -/
structure Tr where
  natoms : Nat
  symbols : List Text
  coords : List (List (List Rat))
  cell : List (List (List Rat))
  forces : Option (List (List (List Rat)))

/-- The text of one step in `write_xyz`, `io.py:175-179`. -/
def xyzStep (npstr : Rat → Text) (t : Tr) (name : Text) (istep : Nat) (coords : List (List Rat)) : Option Text :=
  (atposStrFast npstr t.symbols coords).map fun a =>
    strNat t.natoms ++ ['\n'] ++ (name ++ ['.'] ++ strNat (istep + 1)) ++ ['\n'] ++ a

/-- The loop `xyz_str += ...`, `io.py:173-179`, from step `istep`. -/
def xyzLoop (npstr : Rat → Text) (t : Tr) (name : Text) : Nat → List (List (List Rat)) → Text → Option Text
  | _, [], acc => some acc
  | i, c :: cs, acc =>
    match xyzStep npstr t name i c with
    | none => none
    | some s => xyzLoop npstr t name (i + 1) cs (acc ++ s)

/-- `write_xyz`, `io.py:156-180`: the text that is written (for a `Trajectory`). -/
def writeXyz (npstr : Rat → Text) (t : Tr) (name : Text) : Option Text := xyzLoop npstr t name 0 t.coords []

/-- `ccf` of one step, `io.py:213-216`: coordinates and forces side by side. `conv` is `eV/Ha`. -/
def ccfRow (conv : Rat) (c f : List Rat) : List Rat := c ++ f.map (· * conv)

/-- `ccf`. -/
def ccf (conv : Rat) (t : Tr) : List (List (List Rat)) :=
  match t.forces with
  | some fs => List.zipWith (fun c f => List.zipWith (ccfRow conv) c f) t.coords fs
  | none => t.coords

/-- The text of one step in `write_axsf`, `io.py:219-224`. -/
def axsfStep (num npstr : Rat → Text) (eps : Rat) (t : Tr) (istep : Nat) (cell rows : List (List Rat)) : Option Text :=
  (atposStrFast npstr t.symbols rows).map fun a =>
    "\nPRIMVEC ".toList ++ strNat (istep + 1) ++ ['\n'] ++ strArr2 num (List.replicate 4 ' ') eps cell ++
    "\nPRIMCOORD ".toList ++ strNat (istep + 1) ++ ['\n'] ++ strNat t.natoms ++ " 1\n".toList ++ a

/-- The loop in `write_axsf`. -/
def axsfLoop (num npstr : Rat → Text) (eps : Rat) (t : Tr) : Nat → List (List (List Rat) × List (List Rat)) → Text → Option Text
  | _, [], acc => some acc
  | i, c :: cs, acc =>
    match axsfStep num npstr eps t i c.1 c.2 with
    | none => none
    | some s => axsfLoop num npstr eps t (i + 1) cs (acc ++ s)

/-- `write_axsf`, `io.py:183-225`: the text that is written (for a `Trajectory`). -/
def writeAxsf (num npstr : Rat → Text) (eps conv : Rat) (t : Tr) : Option Text :=
  axsfLoop num npstr eps t 0 (t.cell.zip (ccf conv t)) ("ANIMSTEPS ".toList ++ strNat t.coords.length ++ "\nCRYSTAL".toList)

/-! ### matdyn.x frequencies -/

/-- `\s*` and then the literal text `p`: the rest of the text. -/
def skipLit (p : Text) (s : Text) : Option Text :=
  let s := s.dropWhile isPySpace
  if p.isPrefixOf s then some (s.drop p.length) else none

/-- `\s*([0-9]+)`: the number and the rest. -/
def skipNum (s : Text) : Option (Nat × Text) :=
  let s := s.dropWhile isPySpace
  let d := s.takeWhile Char.isDigit
  if d = [] then none else some (Nat.ofDigitChars 10 d 0, s.dropWhile Char.isDigit)

/-- `\s+nbnd\s*=\s*([0-9]+)\s*,\s*nks\s*=\s*([0-9]+)\s*/` at the start of a text. All parts end where the next one has to
begin, so there is nothing to try again (no backtracking). -/
def hdrAt (s : Text) : Option (Nat × Nat) :=
  match s with
  | [] => none
  | c :: _ =>
    if isPySpace c then do
      let s ← skipLit "nbnd".toList s
      let s ← skipLit ['='] s
      let (nbnd, s) ← skipNum s
      let s ← skipLit [','] s
      let s ← skipLit "nks".toList s
      let s ← skipLit ['='] s
      let (nks, s) ← skipNum s
      let _ ← skipLit ['/'] s
      some (nbnd, nks)
    else none

/-- `.*` in front of it (greedy): the last place where it matches, `pwscf.py:513-517`. (`.` does not match a line
feed; the text is one line.) -/
def hdr : Text → Option (Nat × Nat)
  | [] => hdrAt []
  | c :: cs => match hdr cs with
    | some r => some r
    | none => hdrAt (c :: cs)

/-- An array of `n` rows as a function of the row number. -/
abbrev Rows := Nat → List Rat

/-- The loop, `pwscf.py:524-526`, `ii` counting up to `n`. A row number `≥ nks` is an `IndexError`. -/
def freqLoop (items : List Rat) (nbnd nks : Nat) (kf : Rows × Rows) : Nat → Option (Rows × Rows)
  | 0 => some kf
  | ii + 1 =>
    match freqLoop items nbnd nks kf ii with
    | none => none
    | some (k, f) =>
      if ii < nks then
        let step := 3 + nbnd
        some (Function.update k ii ((items.drop (ii * step)).take 3),
              Function.update f ii ((items.drop (ii * step + 3)).take (step - 3)))
      else none

/-- `read_matdyn_freq`, `pwscf.py:437-527`. `tofloat` is the conversion of a word to a number. The result: `nks`, `nbnd`,
`kpoints`, `freqs`. -/
def readMatdynFreq (tofloat : Text → Option Rat) (junkK junkF : Rows) (lines : List Text) : Option (Nat × Nat × Rows × Rows) :=
  match lines with
  | [] => none
  | l0 :: rest =>
    match hdr l0 with
    | none => none
    | some (nbnd, nks) =>
      match mapE tofloat (splitWs (joinSep [' '] rest)) with
      | none => none
      | some items =>
        (freqLoop items nbnd nks (junkK, junkF) (items.length / (3 + nbnd))).map fun kf => (nks, nbnd, kf.1, kf.2)

end Pwtools.Pw
