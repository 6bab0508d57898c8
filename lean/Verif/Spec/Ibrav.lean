import Mathlib.Data.Real.Basic
import Mathlib.Algebra.Ring.Int.Parity
import Mathlib.Data.Fin.VecNotation
/-!
# Specification: Bravais lattices
-/
namespace Pwtools.Spec

/-- The lattice with the basis vectors `v`: all integer combinations. -/
def lattice (v : Fin 3 → Fin 3 → ℝ) : Set (Fin 3 → ℝ) :=
  {r | ∃ x y z : ℤ, r = fun k => x * v 0 k + y * v 1 k + z * v 2 k}

/-- Box `a × b × c` along the axes, simple. -/
def simpleBox (a b c : ℝ) : Set (Fin 3 → ℝ) := {r | ∃ x y z : ℤ, r = ![x * a, y * b, z * c]}

/-- Box with centered faces: multiples of the half edges with even sum. -/
def faceCenteredBox (a b c : ℝ) : Set (Fin 3 → ℝ) :=
  {r | ∃ x y z : ℤ, Even (x + y + z) ∧ r = ![x * (a / 2), y * (b / 2), z * (c / 2)]}

/-- Box with a centered body: multiples of the half edges, all even (corners) or all odd (centers). -/
def bodyCenteredBox (a b c : ℝ) : Set (Fin 3 → ℝ) :=
  {r | ∃ x y z : ℤ, ((Even x ∧ Even y ∧ Even z) ∨ (Odd x ∧ Odd y ∧ Odd z)) ∧ r = ![x * (a / 2), y * (b / 2), z * (c / 2)]}

/-- Box with a centered base (the face spanned by the first two edges). -/
def baseCenteredBox (a b c : ℝ) : Set (Fin 3 → ℝ) :=
  {r | ∃ x y z : ℤ, Even (x + y) ∧ r = ![x * (a / 2), y * (b / 2), z * c]}

/-- Scalar product. -/
def sprod (v w : Fin 3 → ℝ) : ℝ := v 0 * w 0 + v 1 * w 1 + v 2 * w 2

/-- Triple product (signed volume) of the basis vectors. -/
def volume (v : Fin 3 → Fin 3 → ℝ) : ℝ :=
  v 0 0 * (v 1 1 * v 2 2 - v 1 2 * v 2 1) + v 0 1 * (v 1 2 * v 2 0 - v 1 0 * v 2 2) + v 0 2 * (v 1 0 * v 2 1 - v 1 1 * v 2 0)

/-- Edge lengths `a, b, c` and cosines of the angles: between 2 and 3, 1 and 3, 1 and 2. -/
def HasMetric (v : Fin 3 → Fin 3 → ℝ) (a b c ca cb cg : ℝ) : Prop :=
  sprod (v 0) (v 0) = a ^ 2 ∧ sprod (v 1) (v 1) = b ^ 2 ∧ sprod (v 2) (v 2) = c ^ 2 ∧
  sprod (v 1) (v 2) = b * c * ca ∧ sprod (v 0) (v 2) = a * c * cb ∧ sprod (v 0) (v 1) = a * b * cg

end Pwtools.Spec
