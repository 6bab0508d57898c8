import Verif.Model.Pbc
import Mathlib.Data.Set.Card
/-!
# Specification for `rpdf`

`d i j` is the distance of atom `i` of the first and atom `j` of the second selection.
-/
namespace Pwtools.Spec
/-- Number of pairs whose distance satisfies `P`. -/
noncomputable def pairs {A B : Nat} (d : Fin A → Fin B → ℝ) (P : ℝ → Prop) : ℝ :=
  (Set.ncard {p : Fin A × Fin B | P (d p.1 p.2)} : ℝ)

/-- The distance mask is satisfied (no mask: always). -/
def maskOk (dmask : Option (ℝ → Prop)) (r : ℝ) : Prop := ∀ p, dmask = some p → p r

open Pwtools.Cry in
/-- Distance of atom `x` to the periodic image of atom `y` shifted by lattice vector `-n`
(fractional coordinates `x`, `y`). -/
noncomputable def imageDist (cell : Cell) (x y : V3) (n : Fin 3 → Int) : ℝ :=
  Real.sqrt (∑ k, (∑ l, (x l - y l + (n l : ℝ)) * cell l k) ^ 2)
end Pwtools.Spec
