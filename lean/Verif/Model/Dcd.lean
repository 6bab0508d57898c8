/-!
# Model of `src/pwtools/dcd.py` and of the reader in `src/_ext_src/dcd.f90`

A file is a list of bytes. Floating point numbers are decoded from their 4 or 8 bytes by functions
`f4`, `f8`, which are parameters (the bytes are not interpreted here).
-/
namespace Pwtools.Dcd

abbrev Bytes := List UInt8

inductive DErr where
  | indexError   -- no header: `np.fromfile(...)[0]`
  | valueError   -- negative `natoms` in the dtype
  | assertion    -- `calculated nstep is not int`
  | stop         -- the Fortran code stops the program
  deriving DecidableEq, Repr

/-- Little endian bytes as unsigned number. -/
def le : Bytes → Nat
  | [] => 0
  | x :: xs => x.toNat + 256 * le xs

/-- `'i4'`: 32 bit signed, little endian (the code supports nothing else, `dcd.f90:5-9`). -/
def i4 (b : Bytes) : Int := if le b < 2 ^ 31 then (le b : Int) else (le b : Int) - 2 ^ 32

/-- Split a record according to the sizes of its fields (numpy structured dtype). -/
def fields : List Nat → Bytes → List Bytes
  | [], _ => []
  | n :: ns, b => b.take n :: fields ns (b.drop n)

/-- An array field: `n` items of `size` bytes. -/
def chunks (size : Nat) : Nat → Bytes → List Bytes
  | 0, _ => []
  | n + 1, b => b.take size :: chunks size n (b.drop size)

/-- Sizes of `HEADER_TYPES`, `dcd.py:43-58`. -/
def headerSizes : List Nat := [4, 4, 4 * 9, 4, 4 * 10, 4, 4, 4, 80, 80, 4, 4, 4, 4]

/-- `np.fromfile(fd, HEADER_DTYPE, 1)[0]['natoms']`, `dcd.py:107-108`, `179-180`, and the position
after the header. -/
def readNatoms (b : Bytes) : Except DErr (Int × Bytes) :=
  if b.length < headerSizes.sum then .error .indexError
  else .ok (i4 ((fields headerSizes b).getD 12 []), b.drop headerSizes.sum)

/-- One step: cell constants and coordinates. -/
structure Step (F8 F4 : Type) where
  crystConst : List F8
  coords : List (F4 × F4 × F4)
  deriving DecidableEq

/-- `[a,b,c,alpha,beta,gamma]` from the order in the file, `dcd.py:137-142`, `212-217`. -/
def perm {α : Type} (c : List α) : List α := [0, 2, 5, 4, 3, 1].filterMap (fun i => c[i]?)

/-- `coords[:,0] = x` and so on, `dcd.py:134-136`, `218-221`. -/
def coords {α : Type} (x y z : List α) : List (α × α × α) := x.zip (y.zip z)

/-- `cryst_const[:,3:] = np.arccos(cryst_const[:,3:])*180.0/np.pi`, one row, `dcd.py:149`, `223`;
`acos` stands for the conversion of one number. -/
def convAngles {α : Type} (acos : α → α) (c : List α) : List α := c.take 3 ++ (c.drop 3).map acos

variable {F8 F4 : Type} (f8 : Bytes → F8) (f4 : Bytes → F4) (acos : F8 → F8)

/-! ## `read_dcd_data_ref` -/

/-- Sizes of `data_dtype`, `dcd.py:110-123`. -/
def refSizes (n : Nat) : List Nat := [4, 6 * 8, 4, 4, 4 * n, 4, 4, 4 * n, 4, 4, 4 * n, 4]

/-- One pass through the loop body, `dcd.py:133-144`. -/
def refStep (n : Nat) (b : Bytes) : Step F8 F4 :=
  let f := fields (refSizes n) b
  { crystConst := perm ((chunks 8 6 (f.getD 1 [])).map f8),
    coords := coords ((chunks 4 n (f.getD 4 [])).map f4) ((chunks 4 n (f.getD 7 [])).map f4)
      ((chunks 4 n (f.getD 10 [])).map f4) }

/-- The loop, `dcd.py:124-144`: `np.fromfile` returns nothing if less than one item is left. -/
def refLoop (n : Nat) (b : Bytes) : List (Step F8 F4) :=
  if h : b.length < (refSizes n).sum then []
  else refStep f8 f4 n (b.take (refSizes n).sum) :: refLoop n (b.drop (refSizes n).sum)
termination_by b.length
decreasing_by
  simp only [refSizes, List.sum_cons, List.length_drop] at *
  omega

/-- `read_dcd_data_ref(fn, convang)`, `dcd.py:81-150`. Without any step and with `convang` the array
is 1d and `cryst_const[:,3:]` fails. -/
def readRef (b : Bytes) (convang : Bool) : Except DErr (List (Step F8 F4)) :=
  match readNatoms b with
  | .error e => .error e
  | .ok (natoms, rest) =>
    if natoms < 0 then .error .valueError
    else
      let steps := refLoop f8 f4 natoms.toNat rest
      if convang then
        if steps = [] then .error .indexError
        else .ok (steps.map (fun s => { s with crystConst := convAngles acos s.crystConst }))
      else .ok steps

/-! ## `read_dcd_data` -/

/-- Sizes of the fields of one step, `dcd.py:198-208`. -/
def fastSizes (n : Nat) : List Nat := [4, 8 * 6, 4 * 2, 4 * n, 4 * 2, 4 * n, 4 * 2, 4 * n, 4]

/-- One row of the arrays, `dcd.py:209-221`. -/
def fastStep (n : Nat) (b : Bytes) : Step F8 F4 :=
  let f := fields (fastSizes n) b
  { crystConst := perm ((chunks 8 6 (f.getD 1 [])).map f8),
    coords := coords ((chunks 4 n (f.getD 3 [])).map f4) ((chunks 4 n (f.getD 5 [])).map f4)
      ((chunks 4 n (f.getD 7 [])).map f4) }

/-- `read_dcd_data(fn, convang)`, `dcd.py:153-224`. The float division is exact (for files smaller
than 2^53 bytes). A header without any step gives empty arrays. -/
def readFast (b : Bytes) (convang : Bool) : Except DErr (List (Step F8 F4)) :=
  match readNatoms b with
  | .error e => .error e
  | .ok (natoms, rest) =>
    -- bytes per step: `4 + 6*8 + 7*4 + 3*4*natoms*1.0`
    let size : Int := 4 + 6 * 8 + 7 * 4 + 3 * 4 * natoms
    if (rest.length : Int) % size ≠ 0 then .error .assertion
    else if natoms < 0 then .error .valueError
    else
      let nstep := ((rest.length : Int) / size).toNat
      let steps := (chunks (fastSizes natoms.toNat).sum nstep rest).map (fastStep f8 f4 natoms.toNat)
      .ok (if convang then steps.map (fun s => { s with crystConst := convAngles acos s.crystConst })
           else steps)

/-! ## The Fortran reader (`read_dcd_data_f`, `dcd.py:227-256`)

Fortran unformatted sequential files: each record is its length, the data, its length. -/

/-- One `read(unt) items` of `n` bytes: the items and the rest of the file. `none`: any error or end of
file. Simplification: markers are checked; no records above 2 GB. -/
def readRec (n : Nat) (b : Bytes) : Option (Bytes × Bytes) :=
  let len := (i4 (b.take 4)).toNat
  if b.length < 8 + len then none
  else if i4 (b.take 4) < 0 ∨ (b.drop (4 + len)).take 4 ≠ b.take 4 then none
  else if len < n then none
  else some (((b.drop 4).take len).take n, b.drop (8 + len))

/-- `read_dcd_header_from_unit`, `dcd.f90:31-136`: nstep, natoms and the rest. -/
def readHeaderF (b : Bytes) : Option (Int × Int × Bytes) :=
  match readRec 84 b with
  | none => none
  | some (r1, b1) =>
    match readRec 164 b1 with
    | none => none
    | some (_, b2) =>
      match readRec 4 b2 with
      | none => none
      | some (r3, b3) => some (i4 ((r1.drop 4).take 4), i4 r3, b3)

/-- The four reads of one step, `dcd.f90:182-185`. -/
def readStepF (n : Nat) (b : Bytes) : Option ((Bytes × Bytes × Bytes × Bytes) × Bytes) :=
  match readRec (6 * 8) b with
  | none => none
  | some (c, b1) =>
    match readRec (4 * n) b1 with
    | none => none
    | some (x, b2) =>
      match readRec (4 * n) b2 with
      | none => none
      | some (y, b3) =>
        match readRec (4 * n) b3 with
        | none => none
        | some (z, b4) => some ((c, x, y, z), b4)

/-- The loop of `get_dcd_file_info`, `dcd.f90:306-326`: number of steps until the end of file.
Simplification: a step cut off stops the program here (in the code the step is counted and reading it
stops the program later). -/
def walk (n : Nat) : Nat → Bytes → Option Nat
  | 0, _ => none
  | fuel + 1, b =>
    if b = [] then some 0
    else match readStepF n b with
      | none => none
      | some (_, rest) => (walk n fuel rest).map (· + 1)

/-- `read_dcd_data_from_unit`, `dcd.f90:139-205`. -/
def readStepsF (convang : Bool) (n : Nat) : Nat → Bytes → Option (List (Step F8 F4))
  | 0, _ => some []
  | k + 1, b =>
    match readStepF n b with
    | none => none
    | some ((c, x, y, z), rest) =>
      let cc := (chunks 8 6 c).map f8
      let p := [0, 2, 5].filterMap (fun i => cc[i]?)
      let q := [4, 3, 1].filterMap (fun i => cc[i]?)
      (readStepsF convang n k rest).map
        ({ crystConst := p ++ (if convang then q.map acos else q),
           coords := coords ((chunks 4 n x).map f4) ((chunks 4 n y).map f4) ((chunks 4 n z).map f4) } :: ·)

/-- `read_dcd_data_f(fn, convang, nstephdr)`, `dcd.py:255-256` with `dcd.f90:208-331`. -/
def readF (b : Bytes) (convang nstephdr : Bool) : Except DErr (List (Step F8 F4)) :=
  match readHeaderF b with
  | none => .error .stop
  | some (nstepHdr, natoms, rest) =>
    match (if nstephdr then some nstepHdr else (walk natoms.toNat (rest.length + 1) rest).map (fun k => (k : Int))) with
    | none => .error .stop
    | some nstep =>
      if nstep ≤ 0 then .error .stop
      else if natoms ≤ 0 then .error .stop
      else match readStepsF f8 f4 acos convang natoms.toNat nstep.toNat rest with
        | none => .error .stop
        | some s => .ok s

end Pwtools.Dcd
