import Verif.Model.Pbc
/-!
# Specifications for C34, C35, C45
-/
namespace Pwtools.Spec
open Pwtools.Cry

/-- The lattice vectors of an `nx × ny × nz` block: `0 ≤ n < dim`, or `dim < n ≤ 0` along
directions with a negative dimension. -/
def InBlock (dims : Fin 3 → Int) (n : Fin 3 → Int) : Prop :=
  ∀ k, (0 ≤ n k ∧ n k < dims k) ∨ (dims k < n k ∧ n k ≤ 0)

/-- Translation of a cartesian position by the lattice vector `n`. -/
noncomputable def translate (cell : Cell) (n : Fin 3 → Int) (r : V3) : V3 := fun k => r k + ∑ i, (n i : ℝ) * cell i k

end Pwtools.Spec

namespace Pwtools.Spec

/-- `r` lists the `num` items of lowest `d` among the candidates (fewer if there are not enough),
in ascending order. -/
def IsNearest {K : Type} [LinearOrder K] [Zero K] (d : List K) (cand : Nat → Prop) (num : Nat) (r : List Nat) : Prop :=
  r.Nodup ∧ (∀ i ∈ r, i < d.length ∧ cand i) ∧ r.Pairwise (fun i j => d.getD i 0 ≤ d.getD j 0) ∧
  (∀ i ∈ r, ∀ j, j < d.length → cand j → j ∉ r → d.getD i 0 ≤ d.getD j 0) ∧
  r.length ≤ num ∧ (r.length < num → ∀ j, j < d.length → cand j → j ∈ r)

end Pwtools.Spec
