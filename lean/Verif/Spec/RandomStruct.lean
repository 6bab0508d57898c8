import Verif.Model.Cell
/-!
# Specification for random structures (C92)
-/
namespace Pwtools.Spec
open Pwtools.Cry

/-- Distance of two atoms with fractional coordinates `x`, `y` when the second one is moved by the lattice vector `n`. -/
noncomputable def latticeDist (cell : Cell) (x y : V3) (n : Fin 3 → Int) : ℝ :=
  Real.sqrt (∑ k, (∑ i, (x i - (y i + (n i : ℝ))) * cell i k) ^ 2)

/-- Lengths, angles and volume of a cell lie in the given ranges. -/
structure CellInRange (cell : Cell) (len ang vol : ℝ × ℝ) : Prop where
  lengths : ∀ i, len.1 ≤ Real.sqrt (∑ k, cell i k ^ 2) ∧ Real.sqrt (∑ k, cell i k ^ 2) ≤ len.2
  angles : ∀ i j, i ≠ j → ang.1 ≤ angle (cell i) (cell j) ∧ angle (cell i) (cell j) ≤ ang.2
  volume : vol.1 ≤ |cell.det| ∧ |cell.det| ≤ vol.2

/-- A stream of random numbers in `[0,1)`. -/
def IsStream (rnd : Nat → ℝ) : Prop := ∀ n, 0 ≤ rnd n ∧ rnd n < 1

end Pwtools.Spec

namespace Pwtools.Spec
open Pwtools.Cry

/-- Volume of the spheres with the given radii, scaled. -/
noncomputable def meanVolume (radii : List ℝ) (scale : ℝ) : ℝ := (radii.map fun r => 4 / 3 * Real.pi * r ^ 3).sum * scale

/-- No two different atoms, the second one taken in any of its periodic images, are closer than `close` times the sum of their radii;
`cut` is an upper limit up to which this is required. -/
def NotClose (cell : Cell) (coordsFrac : List V3) (radii : List ℝ) (close : ℝ) (cut : ℝ → ℝ) : Prop :=
  ∀ i j, i < coordsFrac.length → j < coordsFrac.length → i ≠ j → ∀ n,
    cut (close * (radii.getD i 0 + radii.getD j 0)) ≤ latticeDist cell (coordsFrac.getD i 0) (coordsFrac.getD j 0) n

end Pwtools.Spec
