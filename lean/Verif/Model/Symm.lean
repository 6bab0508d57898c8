import Verif.Model.Common
import Verif.Model.AtomicData
import Mathlib.Data.Real.Basic
/-!
# `symmetry.py`: comparison of structures and the interface to spglib

spglib itself is not modelled: `findPrimitive` and `getSpacegroup` are arbitrary functions.
-/
namespace Pwtools.Symm

/-- A structure as far as `symmetry.py` uses it. `cell` are the nine numbers of the cell. -/
structure St where
  /-- `symbols` -/
  symbols : List String
  /-- `volume` -/
  volume : ℝ
  /-- `cryst_const` -/
  crystConst : List ℝ
  /-- `coords_frac`, one row per atom -/
  coordsFrac : List (List ℝ)
  /-- `cell` -/
  cell : List ℝ

/-- `np.allclose(x, y)` for numbers: `|x - y| <= atol + rtol * |y|` with the defaults of numpy. -/
noncomputable def close (x y : ℝ) : Prop := |x - y| ≤ 1 / 10 ^ 8 + 1 / 10 ^ 5 * |y|

/-- `np.allclose` for 1d arrays: `none` for the exception if the shapes do not fit (arrays of length one, which numpy would stretch, do not occur). -/
noncomputable def allclose1 (a b : List ℝ) : Option Prop :=
  if a.length = b.length then some (∀ p ∈ a.zip b, close p.1 p.2) else none

/-- `np.allclose` for the 2d arrays `coords_frac`. -/
noncomputable def allclose2 (a b : List (List ℝ)) : Option Prop :=
  if a.length = b.length then some (∀ p ∈ a.zip b, ∀ q ∈ p.1.zip p.2, close q.1 q.2) else none

open Classical in
/-- `ret and x` where `x` is not evaluated if `ret` is false. -/
noncomputable def andThen (ret : Option Prop) (x : Option Prop) : Option Prop :=
  match ret with
  | none => none
  | some r => if r then x else some False

/-- `is_same_struct`, `symmetry.py:8-25`. `spg` is `spglib_get_spacegroup`. `none` is an exception. -/
noncomputable def isSame {S : Type} (spg : St → S) (a b : St) : Option Prop :=
  let r1 := andThen (some True) (some (a.symbols = b.symbols))
  let r2 := andThen r1 (some (a.symbols.length = b.symbols.length))
  let r3 := andThen r2 (some (close a.volume b.volume))
  let r4 := andThen r3 (allclose1 a.crystConst b.crystConst)
  let r5 := andThen r4 (allclose2 a.coordsFrac b.coordsFrac)
  andThen r5 (some (spg a = spg b))

/-- `Structure.get_spglib`, `crys.py`, with `get_znucl`: `none` for `KeyError`. -/
def struct2spglib (s : St) : Option (List ℝ × List (List ℝ) × List Nat) :=
  (s.symbols.mapM Atomic.numbers).map fun z => (s.cell, s.coordsFrac, z)

/-- `spglib2struct`, `symmetry.py:28-50`: `none` for `IndexError`. `mk` is the `Structure` constructor, which derives all else from cell,
coordinates and symbols. -/
def spglib2struct (mk : List ℝ → List (List ℝ) → List String → St) (t : List ℝ × List (List ℝ) × List Nat) : Option St :=
  (t.2.2.mapM fun z => Atomic.symbols[z]?).map (mk t.1 t.2.1)

open Classical in
/-- `spglib_get_primitive`, `symmetry.py:60-99`: outer `none` for exceptions, inner `none` for `None`. -/
noncomputable def getPrimitive {S : Type} (spg : St → S) (mk : List ℝ → List (List ℝ) → List String → St)
    (findPrimitive : List ℝ × List (List ℝ) × List Nat → List ℝ × List (List ℝ) × List Nat) (s : St) : Option (Option St) := do
  let t ← struct2spglib s
  let c ← spglib2struct mk (findPrimitive t)
  let same ← isSame spg c s
  pure (if same then none else some c)

/-- `spglib_get_spacegroup`, `symmetry.py:127-133`, on the text returned by spglib: `none` for exceptions. -/
def parseSpg (ret : Text) : Option (Int × Text) :=
  match splitWs ret with
  | sym :: num :: _ => (parseInt (pyReplace (pyReplace num "(".toList []) ")".toList [])).map fun n => (n, sym)
  | _ => none

end Pwtools.Symm
