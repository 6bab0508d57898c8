import Mathlib.Analysis.SpecialFunctions.Trigonometric.Inverse
import Mathlib.LinearAlgebra.Matrix.NonsingularInverse
import Mathlib.LinearAlgebra.Matrix.Determinant.Basic
import Mathlib.Data.Matrix.Mul
/-!
# Model of the unit cell functions of `src/pwtools/crys.py`

Real numbers instead of floats; vectors are functions `Fin 3 → ℝ`, a cell is a 3 × 3 matrix with
the cell vectors as rows.
-/
namespace Pwtools.Cry

/-- A vector with three components. -/
abbrev V3 := Fin 3 → ℝ
/-- `cell`: the rows are the cell vectors. -/
abbrev Cell := Matrix (Fin 3) (Fin 3) ℝ

/-- `np.dot` of two vectors. -/
def dot {n : Nat} (x y : Fin n → ℝ) : ℝ := ∑ i, x i * y i
/-- `numpy.linalg.norm` of a vector. -/
noncomputable def norm {n : Nat} (x : Fin n → ℝ) : ℝ := Real.sqrt (dot x x)
/-- `np.cross`. -/
def cross (x y : V3) : V3 := ![x 1 * y 2 - x 2 * y 1, x 2 * y 0 - x 0 * y 2, x 0 * y 1 - x 1 * y 0]

/-- `crys.angle`, `crys.py:25-34` (degrees). Division by a zero norm (NaN in the program) is 0
here; the theorems exclude zero vectors. -/
noncomputable def angle (x y : V3) : ℝ := Real.arccos (dot x y / norm x / norm y) * 180 / Real.pi

/-- `crys.volume_cell`, `crys.py:42-79`. -/
noncomputable def volumeCell (cell : Cell) : ℝ := |cell.det|

/-- `cryst_const`: a, b, c, alpha, beta, gamma. -/
structure CrystConst where
  a : ℝ
  b : ℝ
  c : ℝ
  alpha : ℝ
  beta : ℝ
  gamma : ℝ

/-- The expression under the root in `volume_cc`, `crys.py:122-123`. -/
noncomputable def ccRoot (cc : CrystConst) : ℝ :=
  1 + 2 * Real.cos (cc.alpha * Real.pi / 180) * Real.cos (cc.beta * Real.pi / 180) * Real.cos (cc.gamma * Real.pi / 180)
    - Real.cos (cc.alpha * Real.pi / 180) ^ 2 - Real.cos (cc.beta * Real.pi / 180) ^ 2
    - Real.cos (cc.gamma * Real.pi / 180) ^ 2

/-- `crys.volume_cc`, `crys.py:100-123`. -/
noncomputable def volumeCc (cc : CrystConst) : ℝ := cc.a * cc.b * cc.c * Real.sqrt (ccRoot cc)

/-- `crys.cell2cc`, `crys.py:145-176`. -/
noncomputable def cell2cc (cell : Cell) : CrystConst :=
  ⟨Real.sqrt (∑ k, cell 0 k ^ 2), Real.sqrt (∑ k, cell 1 k ^ 2), Real.sqrt (∑ k, cell 2 k ^ 2),
   angle (cell 1) (cell 2), angle (cell 0) (cell 2), angle (cell 0) (cell 1)⟩

/-- `crys.cc2cell`, `crys.py:197-249`. -/
noncomputable def cc2cell (cc : CrystConst) : Cell :=
  let alpha := cc.alpha * Real.pi / 180
  let beta := cc.beta * Real.pi / 180
  let gamma := cc.gamma * Real.pi / 180
  let va : V3 := ![cc.a, 0, 0]
  let vb : V3 := ![cc.b * Real.cos gamma, cc.b * Real.sin gamma, 0]
  let cx := cc.c * Real.cos beta
  let cy := cc.c * (Real.cos alpha - Real.cos beta * Real.cos gamma) / Real.sin gamma
  let cz := Real.sqrt (cc.c ^ 2 - cy ^ 2 - cx ^ 2)
  let vc : V3 := ![cx, cy, cz]
  Matrix.of ![va, vb, vc]

/-- `crys.recip_cell`, `crys.py:271-309`. -/
noncomputable def recipCell (cell : Cell) : Cell :=
  let vol := volumeCell cell
  Matrix.of ![fun k => 2 * Real.pi / vol * cross (cell 1) (cell 2) k,
              fun k => 2 * Real.pi / vol * cross (cell 2) (cell 0) k,
              fun k => 2 * Real.pi / vol * cross (cell 0) (cell 1) k]

/-- PWscf `celldm`: a, b/a, c/a, cos(alpha), cos(beta), cos(gamma). -/
structure Celldm where
  d1 : ℝ
  d2 : ℝ
  d3 : ℝ
  d4 : ℝ
  d5 : ℝ
  d6 : ℝ

/-- `crys.cc2celldm`, `crys.py:452-475`. -/
noncomputable def cc2celldm (cc : CrystConst) (fac : ℝ) : Celldm :=
  ⟨cc.a * fac, cc.b / cc.a, cc.c / cc.a, Real.cos (cc.alpha * Real.pi / 180), Real.cos (cc.beta * Real.pi / 180),
   Real.cos (cc.gamma * Real.pi / 180)⟩

/-- `crys.celldm2cc`, `crys.py:479-498`. -/
noncomputable def celldm2cc (d : Celldm) (fac : ℝ) : CrystConst :=
  let a := d.d1 * fac
  ⟨a, d.d2 * a, d.d3 * a, Real.arccos d.d4 / Real.pi * 180, Real.arccos d.d5 / Real.pi * 180,
   Real.arccos d.d6 / Real.pi * 180⟩

/-- `np.round`: to the nearest integer, halves to even. -/
noncomputable def npRound (x : ℝ) : Int :=
  let f := ⌊x⌋
  if x - f < 1 / 2 then f else if 1 / 2 < x - f then f + 1 else if f % 2 = 0 then f else f + 1

/-- Exceptions of the cell functions. -/
inductive CErr where
  | assertion | exception | unbound
deriving DecidableEq, Repr

/-- Point count along one axis in `grid_in_cell`, `crys.py:370-376`: rounding, `even`, `minpoints`. -/
noncomputable def gridCount (normi h : ℝ) (minpoints : Int) (even : Bool) : Int :=
  let size := npRound (normi / h)
  let size := if even then size + size % 2 else size
  if size < minpoints then minpoints else size

/-- `crys.grid_in_cell(cell, h=h, …, fullout=True)`, `crys.py:364-384`: sizes and spacings. -/
noncomputable def gridInCell (cell : Cell) (h : ℝ) (minpoints : Int) (even : Bool) :
    Except CErr ((Fin 3 → Int) × (Fin 3 → ℝ)) :=
  if 0 ≤ minpoints then
    let norms := fun i => Real.sqrt (∑ k, cell i k ^ 2)
    let size := fun i => gridCount (norms i) h minpoints even
    if size 0 = 0 ∨ size 1 = 0 ∨ size 2 = 0 then .error .exception
    else .ok (size, fun i => norms i * 1 / (size i : ℝ))
  else .error .assertion

/-- `crys.grid_in_cell(cell, size=size)`, `crys.py:385-387`. -/
noncomputable def gridSpacing (cell : Cell) (size : Fin 3 → Int) : Fin 3 → ℝ :=
  fun i => Real.sqrt (∑ k, cell i k ^ 2) * 1 / (size i : ℝ)

/-- `crys.kgrid`, `crys.py:390-448`. -/
noncomputable def kgrid (cell : Cell) (h : ℝ) (minpoints : Int) (even : Bool) :
    Except CErr ((Fin 3 → Int) × (Fin 3 → ℝ)) := gridInCell (recipCell cell) h minpoints even

/-! ### Voigt notation -/

/-- `crys.tensor2voigt`, `crys.py:3356-3376`. -/
def tensor2voigt {R : Type} (t : Fin 3 → Fin 3 → R) : Fin 6 → R :=
  ![t 0 0, t 1 1, t 2 2, t 1 2, t 0 2, t 0 1]

/-- `crys.voigt2tensor`, `crys.py:3379-3402`. -/
def voigt2tensor {R : Type} (v : Fin 6 → R) : Fin 3 → Fin 3 → R :=
  ![![v 0, v 5, v 4], ![v 5, v 1, v 3], ![v 4, v 3, v 2]]

/-- `crys.tensor2voigt3d`, `crys.py:3432-3453`. -/
def tensor2voigt3d {R : Type} {n : Nat} (t : Fin n → Fin 3 → Fin 3 → R) : Fin n → Fin 6 → R :=
  fun s => ![t s 0 0, t s 1 1, t s 2 2, t s 1 2, t s 0 2, t s 0 1]

/-- `crys.voigt2tensor3d`, `crys.py:3405-3429`. -/
def voigt2tensor3d {R : Type} {n : Nat} (v : Fin n → Fin 6 → R) : Fin n → Fin 3 → Fin 3 → R :=
  fun s => ![![v s 0, v s 5, v s 4], ![v s 5, v s 1, v s 3], ![v s 4, v s 3, v s 2]]

/-! ### Coordinate transformations -/

/-- `crys._trans` for one vector, `crys.py:949-955`:
`np.dot(coords, np.dot(inv(new.T), old.T).T)`. -/
noncomputable def trans {m : Nat} (v : Fin m → ℝ) (old new : Matrix (Fin m) (Fin m) ℝ) : Fin m → ℝ :=
  Matrix.vecMul v (new.transpose⁻¹ * old.transpose).transpose

/-- `_flib.frac2cart` for one atom, `flib.f90:553-563`, and `np.dot(coords_frac, cell)` in
`Structure.get_coords`, `crys.py:2590-2592`. -/
def frac2cart (cell : Cell) (s : V3) : V3 := Matrix.vecMul s cell

/-- `_flib.cart2frac` for one atom, `flib.f90:566-577`: `dgesv` solves `transpose(cell) x = coords`
(for a non-singular cell; a singular cell gives unspecified numbers, here `0`). -/
noncomputable def cart2frac (cell : Cell) (r : V3) : V3 := Matrix.mulVec (cell.transpose)⁻¹ r

/-- `frac2cart_traj` / `cart2frac_traj`, `flib.f90:580-603`: per time step. -/
noncomputable def frac2cartTraj (steps : List (Cell × List V3)) : List (List V3) :=
  steps.map (fun p => p.2.map (frac2cart p.1))
/-- See `frac2cartTraj`. -/
noncomputable def cart2fracTraj (steps : List (Cell × List V3)) : List (List V3) :=
  steps.map (fun p => p.2.map (cart2frac p.1))

/-! ### `align_cart` -/

/-- The new cartesian system from `x` and `y`, `crys.py:3340-3342`. -/
noncomputable def cartFrom (x y : V3) : Cell :=
  let xx : V3 := fun k => x k / norm x
  let yy : V3 := fun k => y k / norm y
  Matrix.of ![xx, yy, cross xx yy]

/-- `np.allclose(inv(cart), cart.T, atol=eps)` with the default `rtol=1e-5`, `crys.py:3344`. -/
def allclose (a b : Cell) (eps : ℝ) : Prop := ∀ i j, |a i j - b i j| ≤ eps + 1 / 100000 * |b i j|

open Classical in
/-- `crys.align_cart(obj, cart=cart)`, `crys.py:3343-3353`, for one structure: cell and fractional
coordinates of the new object. -/
noncomputable def alignCart (cell : Cell) (coordsFrac : List V3) (cart : Cell) (eps : ℝ) : Except CErr (Cell × List V3) :=
  if 0 < eps ∧ ¬ allclose cart⁻¹ cart.transpose eps then .error .assertion
  else .ok (cell * cart.transpose, coordsFrac)

end Pwtools.Cry
