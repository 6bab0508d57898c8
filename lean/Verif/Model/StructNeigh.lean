import Verif.Model.Pbc
/-!
# C161: `angles` and `nearest_neighbors` of a structure

The functions of Model/Pbc get distances; here they get the structure (fractional coordinates, cell, symbols).
-/
namespace Pwtools.Cry

/-- `crys.angles(struct, pbc, mask_val, deg)`, `crys.py:1883-1944`: `distances(..., fullout=True)` gives
the distance vectors and distances for `_flib.angles`. -/
def IsAngles {n : Nat} (cell : Cell) (pbc : Bool) (x : Fin n → V3) (maskVal : ℝ) (deg : Bool) (eps : ℝ)
    (out : Option (Fin n → Fin n → Fin n → ℝ)) : Prop :=
  ∃ u : Fin n → Fin n → V3, (∀ i j, DistVecFrac pbc (x i) (x j) (u i j)) ∧
    out = angles (fun i j => frac2cart cell (u i j)) (fun i j => distOf cell (u i j)) maskVal deg eps

/-- The distances of all atoms from atom `idx`: `dist1d = dists[:,idx]`, `crys.py:1971`, where `dists` is
`distances(struct, pbc)`, `crys.py:2054-2056`. -/
def IsDist1d {n : Nat} (cell : Cell) (pbc : Bool) (x : Fin n → V3) (idx : Fin n) (d : Fin n → ℝ) : Prop :=
  ∀ i, IsDist cell pbc (x i) (x idx) (d i)

/-- `crys.nearest_neighbors(struct, idx, cutoff=…, skip=…, pbc=…)`, `crys.py:1997-2060`. -/
def IsNeighCutoff {n : Nat} (cell : Cell) (pbc : Bool) (x : Fin n → V3) (symbols : Fin n → String) (skip : List String)
    (idx : Fin n) (cutoff : ℝ) (out : List Nat) : Prop :=
  ∃ (d : Fin n → ℝ) (p : List Nat), IsDist1d cell pbc x idx d ∧ IsArgsort (List.ofFn d) p ∧
    out = nnCutoff (List.ofFn d) p (List.ofFn symbols) skip cutoff

/-- `crys.nearest_neighbors(struct, idx, num=…, skip=…, pbc=…, fullout=True)`: the indices and their
distances. -/
def IsNeighNum {n : Nat} (cell : Cell) (pbc : Bool) (x : Fin n → V3) (symbols : Fin n → String) (skip : List String)
    (idx : Fin n) (num : Nat) (out : List Nat) (dists : List ℝ) : Prop :=
  ∃ (d : Fin n → ℝ) (p : List Nat), IsDist1d cell pbc x idx d ∧ IsArgsort (List.ofFn d) p ∧
    out = nnNum p (List.ofFn symbols) skip num ∧ dists = out.map (fun i => (List.ofFn d).getD i 0)

end Pwtools.Cry
