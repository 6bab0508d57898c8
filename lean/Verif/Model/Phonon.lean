import Verif.Model.Grep
/-!
# Model of the phonon mode readers in `src/pwtools/pwscf.py`

A file is the list of its lines. Number texts are read by `num : Text → Option K`, an arbitrary parameter. A complex number is the pair of
its real and imaginary part. `sed -r` expressions are modelled by what they do to one line.
-/
namespace Pwtools.Ph
open Pwtools.Gr

variable {K : Type}

/-- The texts before and after the last occurrence of a character (greedy `.*c` in the `sed` expressions of `pwscf.py:226-283`). -/
def splitLast (c : Char) : Text → Option (Text × Text)
  | [] => none
  | x :: xs => match splitLast c xs with
    | some (a, b) => some (x :: a, b)
    | none => if x = c then some ([], xs) else none

/-- The text after the last match of `q\s*=`. -/
def afterQ : Text → Option Text
  | [] => none
  | x :: xs => match afterQ xs with
    | some r => some r
    | none =>
      if x = 'q' then match xs.dropWhile isPySpace with
        | [] => none
        | y :: r => if y = '=' then some r else none
      else none

/-- `grep 'q.*='`, `pwscf.py:226`. -/
def isQ (l : Text) : Bool := hasSeq ["q".toList, "=".toList] l

/-- `sed -re 's/.*q\s*=(.*)/\1/'`, `pwscf.py:226`. -/
def sedQ (l : Text) : Text := (afterQ l).getD l

/-- `grep '^[ ]*('`, `pwscf.py:230`. -/
def isVec (l : Text) : Bool := (l.dropWhile (· = ' ')).head? = some '('

/-- `sed -re 's/^\s*\((.*)\)/\1/g'`, `pwscf.py:230`: text after the last `)` is kept; a line which does not match is kept. -/
def sedVec (l : Text) : Text :=
  match l.dropWhile isPySpace with
  | [] => l
  | c :: r =>
    if c = '(' then match splitLast ')' r with
      | some (body, rest) => body ++ rest
      | none => l
    else l

/-- `grep omega`, `pwscf.py:239`. -/
def isOmega (l : Text) : Bool := isInfix "omega".toList l

/-- `sed -re 's/.*omega.*=.*\[.*=(.*)\s*\[.*/\1/g'`, `pwscf.py:239-240`: the text between the last `=` before the last `[` and that `[`. -/
def sedOmega (l : Text) : Text :=
  match splitLast '[' l with
  | none => l
  | some (u, _) => match splitLast '=' u with
    | none => l
    | some (p, g) => if hasSeq ["omega".toList, "=".toList, "[".toList] p then g else l

/-- One row of `vecs_flat`, `pwscf.py:234-237`: `r[0] + 1j*r[1]`, `r[2] + 1j*r[3]`, `r[4] + 1j*r[5]`; too few columns are an `IndexError`. -/
def cplx : List K → Option (List (K × K))
  | a :: b :: c :: d :: e :: f :: _ => some [(a, b), (c, d), (e, f)]
  | _ => none

/-- `vecs_flat.flatten()`, `pwscf.py:230-238` and `pwscf.py:273-281`, for the lines that `grep` prints. -/
def flatVecs (num : Text → Option K) (lines : List Text) : Except PErr (List (K × K)) :=
  match arr2d num (lines.map fun l => splitWs (sedVec l)) with
  | .error e => .error e
  | .ok none => .error .attr
  | .ok (some rows) => match rows.mapM cplx with
    | none => .error .index
    | some v => .ok v.flatten

/-- `np.fromstring(...)` of the `omega` lines, `pwscf.py:239-241`. -/
def omegas (num : Text → Option K) (file : List Text) : List K :=
  fromString num ((file.filter isOmega).flatMap fun l => splitWs (sedOmega l))

/-- `reshape(n, m)`. -/
def reshape2 {A : Type} (xs : List A) (n m : Nat) : Except PErr (List (List A)) :=
  if xs.length = n * m then .ok (chunks m xs n) else .error .value

/-- `reshape(n, m, k)`. -/
def reshape3 {A : Type} (xs : List A) (n m k : Nat) : Except PErr (List (List (List A))) :=
  if xs.length = n * m * k then .ok ((chunks (m * k) xs n).map fun c => chunks k c m) else .error .value

/-- `reshape(n, m, k, l)`. -/
def reshape4 {A : Type} (xs : List A) (n m k l : Nat) : Except PErr (List (List (List (List A)))) :=
  if xs.length = n * m * k * l then
    .ok ((chunks (m * k * l) xs n).map fun c => (chunks (k * l) c m).map fun d => chunks l d k)
  else .error .value

/-- What `read_matdyn_modes` and `read_all_dyn` return. -/
structure Modes (K : Type) where
  qpoints : List (List K)
  freqs : List (List K)
  vecs : List (List (List (List (K × K))))

/-- What `read_dyn` returns. -/
structure Modes1 (K : Type) where
  qpoint : List K
  freqs : List K
  vecs : List (List (List (K × K)))

/-- `read_matdyn_modes`, `pwscf.py:161-242`; `natoms = none` is an `AssertionError`. -/
def readMatdynModes (num : Text → Option K) (file : List Text) (natoms : Option Nat) : Except PErr (Modes K) :=
  match natoms with
  | none => .error .assertion
  | some na =>
    match arr2d num ((file.filter isQ).map fun l => splitWs (sedQ l)) with
    | .error e => .error e
    | .ok none => .error .attr
    | .ok (some qs) =>
      match flatVecs num (file.filter isVec) with
      | .error e => .error e
      | .ok flat =>
        match reshape4 flat qs.length (3 * na) na 3 with
        | .error e => .error e
        | .ok vecs =>
          match reshape2 (omegas num file) qs.length (3 * na) with
          | .error e => .error e
          | .ok freqs => .ok ⟨qs, freqs, vecs⟩

/-- `egrep 'q.*=.*\('`, `pwscf.py:269`. -/
def isDynQ (l : Text) : Bool := hasSeq ["q".toList, "=".toList, "(".toList] l

/-- `sed -re 's/.*q\s*=.*\((.*)\)/\1/'`, `pwscf.py:269`. -/
def sedDynQ (l : Text) : Text :=
  match splitLast ')' l with
  | none => l
  | some (u, rest) => match splitLast '(' u with
    | none => l
    | some (p, g) => if (afterQ p).isSome then g ++ rest else l

/-- `read_dyn`, `pwscf.py:245-285`. The frequencies are not reshaped. -/
def readDyn (num : Text → Option K) (file : List Text) (natoms : Option Nat) : Except PErr (Modes1 K) :=
  match natoms with
  | none => .error .assertion
  | some na =>
    let q := match (file.filter isDynQ).getLast? with
      | none => []
      | some l => fromString num (splitWs (sedDynQ l))
    if q.length ≠ 3 then .error .assertion
    else match flatVecs num ((file.filter fun l => !isQ l).filter isVec) with
      | .error e => .error e
      | .ok flat => match reshape3 flat (3 * na) na 3 with
        | .error e => .error e
        | .ok vecs => .ok ⟨q, omegas num file, vecs⟩

/-- `freqs[iq,...] = ff`, `pwscf.py:317`: an array of length one is broadcast. -/
def assignRow (n : Nat) (ff : List K) : Except PErr (List K) :=
  match ff with
  | [x] => .ok (List.replicate n x)
  | _ => if ff.length = n then .ok ff else .error .value

/-- The loop of `read_all_dyn`, `pwscf.py:288-319`, over the contents of the files `base1`, `base2`, ... -/
def readAllDyn (num : Text → Option K) (files : List (List Text)) (na : Nat) : Except PErr (Modes K) :=
  match files with
  | [] => .ok ⟨[], [], []⟩
  | f :: fs => match readDyn num f (some na) with
    | .error e => .error e
    | .ok m => match assignRow (3 * na) m.freqs with
      | .error e => .error e
      | .ok row => match readAllDyn num fs na with
        | .error e => .error e
        | .ok r => .ok ⟨m.qpoint :: r.qpoints, row :: r.freqs, m.vecs :: r.vecs⟩

/-- `sed -re '/PRIMCO.*/{N;d;}'`, `pwscf.py:361`: a line with `PRIMCO` and the next line are deleted (GNU sed prints the line when it is
the last one). -/
def sedDrop : List Text → List Text
  | [] => []
  | [l] => [l]
  | l :: m :: ls => if isInfix "PRIMCO".toList l then sedDrop ls else l :: sedDrop (m :: ls)

/-- `grep -A<n> 'mode.*cm-1' file | grep -v mode`, `pwscf.py:365`, `pwscf.py:416`. -/
def modeTable (n : Nat) (file : List Text) : List Text :=
  (grepA n (hasSeq ["mode".toList, "cm-1".toList]) file 0 false false).filter fun l => !isInfix "mode".toList l

/-- What `read_dynmat` returns (real vectors). -/
structure ModesR (K : Type) where
  qpoint : List K
  freqs : List K
  vecs : List (List (List K))

/-- `read_dynmat`, `pwscf.py:322-368`. -/
def readDynmat [Zero K] (num : Text → Option K) (out axsf : List Text) (natoms : Option Nat) : Except PErr (ModesR K) :=
  match natoms with
  | none => .error .assertion
  | some na =>
    let xs := fromString num ((sedDrop (grepA (na + 1) (isInfix "PRIMCO".toList) axsf 0 false false)).flatMap (awk [5, 6, 7]))
    match reshape3 xs (3 * na) na 3 with
    | .error e => .error e
    | .ok vecs => .ok ⟨[0, 0, 0], fromString num ((modeTable (3 * na) out).flatMap (awk [2])), vecs⟩

/-- `read_dynmat_ir_raman`, `pwscf.py:371-427`: the table, or for `cols` the named columns (`None` for a missing one). -/
def readIrRaman (num : Text → Option K) (out : List Text) (natoms : Option Nat) :
    Res (List (List K)) :=
  match natoms with
  | none => .error .assertion
  | some na => arr2d num ((modeTable (3 * na) out).map splitWs)

/-- The dict of `read_dynmat_ir_raman` for `cols`, `pwscf.py:421-427`. -/
def irRamanCols (num : Text → Option K) (out : List Text) (natoms : Option Nat) (cols : List (Nat × Text)) :
    Except PErr (List (Text × Option (List K))) :=
  match readIrRaman num out natoms with
  | .error e => .error e
  | .ok none => .error .attr
  | .ok (some arr) =>
    cols.mapM fun c =>
      if (arr.headD []).length ≥ c.1 + 1 then
        match arr.mapM fun r => r[c.1]? with
        | some v => .ok (c.2, some v)
        | none => .error .index
      else .ok (c.2, none)

end Pwtools.Ph
