import Verif.Model.Cell
/-!
# Specification for C186: grids for convergence studies
-/
namespace Pwtools.Spec
open Pwtools.Cry

/-- The cell with the axis `i` multiplied by `n i`: that of a supercell, or the same cell in another unit of length. -/
def stretched (n : Fin 3 → ℝ) (cell : Cell) : Cell := Matrix.of fun i k => n i * cell i k

end Pwtools.Spec
