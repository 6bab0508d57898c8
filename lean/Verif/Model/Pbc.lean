import Verif.Model.Cell
import Verif.Model.NdArray
import Verif.Model.Comb
/-!
# Model of supercells, periodic boundary conditions, distances, angles, neighbours, velocities
(`src/pwtools/crys.py`, `src/_ext_src/flib.f90`)
-/
namespace Pwtools.Cry

/-! ### Supercells -/

/-- `mkrange` in `scell_mask`, `crys.py:549-552`; `none`: `direc` is neither 1 nor -1
(`UnboundLocalError`). -/
def mkrange (direc : Int) (x : Int) : Option (List Int) :=
  if direc = 1 then
    some (if 0 ≤ x then (List.range x.toNat).map (fun i : Nat => (i : Int))
          else (List.range (-x).toNat).map (fun i : Nat => -(i : Int)))
  else if direc = -1 then
    some (if 0 ≤ x then (List.range x.toNat).map (fun i : Nat => x - 1 - (i : Int))
          else (List.range (-x).toNat).map (fun i : Nat => x + 1 + (i : Int)))
  else none

/-- `crys.scell_mask`, `crys.py:505-555`: rows as lists `[ix, iy, iz]`. -/
def scellMask (nx ny nz : Int) (direc : Int) : Option (List (List Int)) :=
  match mkrange direc nx, mkrange direc ny, mkrange direc nz with
  | some x, some y, some z => some (itProduct [x, y, z])
  | _, _, _ => none

/-- Row of the mask as a vector. -/
def maskVec (m : List Int) : V3 := fun k => ((m.getD k 0 : Int) : ℝ)

/-- The supercell before scaling, `crys.py:628-629` (method 1): broadcasting and C order reshape. -/
def scellCoords1 (cf : List V3) (mask : List (List Int)) : List V3 :=
  (List.range (cf.length * mask.length)).map
    (fun k => cf.getD (k / mask.length) 0 + maskVec (mask.getD (k % mask.length) []))

/-- The supercell before scaling, `crys.py:640-649` (method 2): two nested loops. -/
def scellCoords2 (cf : List V3) (mask : List (List Int)) : List V3 :=
  cf.flatMap (fun s => mask.map (fun m => s + maskVec m))

/-- The attributes of a `Structure` used here. -/
structure Struct where
  coordsFrac : List V3
  cell : Cell
  symbols : Option (List String)

/-- `crys.scell(struct, dims, method)` for a structure, `crys.py:558-659`. An empty mask is
`np.array([])` with shape `(0,)`, which does not broadcast with `(natoms,1,3)` (`ValueError`, an
`exception` here). Method 2 turns missing symbols into an empty list. -/
noncomputable def scell (st : Struct) (dims : Fin 3 → Int) (method : Nat) (direc : Int) : Except CErr Struct :=
  match scellMask (dims 0) (dims 1) (dims 2) direc with
  | none => .error .unbound
  | some mask =>
    let cell : Cell := Matrix.of (fun i k => st.cell i k * (dims i : ℝ))
    let scale := fun (l : List V3) => l.map (fun s => (fun k => s k / (dims k : ℝ) : V3))
    if method = 1 then
      if mask.isEmpty then .error .exception
      else .ok ⟨scale (scellCoords1 st.coordsFrac mask), cell, st.symbols.map (fun l => l.flatMap (List.replicate mask.length))⟩
    else if method = 2 then
      .ok ⟨scale (scellCoords2 st.coordsFrac mask), cell, some ((st.symbols.getD []).flatMap (List.replicate mask.length))⟩
    else .error .exception

/-- `crys.scell(traj, dims)`, same lines: `(nstep, natoms, 1, 3) + (1, 1, nmask, 3)`, reshaped. The
steps are pairs of fractional coordinates and cell. -/
noncomputable def scellTraj (steps : List (List V3 × Cell)) (symbols : Option (List String)) (dims : Fin 3 → Int)
    (method : Nat) (direc : Int) : Except CErr (List (List V3 × Cell) × Option (List String)) :=
  match scellMask (dims 0) (dims 1) (dims 2) direc with
  | none => .error .unbound
  | some mask =>
    if method = 1 ∧ ¬ mask.isEmpty then
      .ok (steps.map (fun p => ((scellCoords1 p.1 mask).map (fun s => (fun k => s k / (dims k : ℝ) : V3)),
            (Matrix.of (fun i k => p.2 i k * (dims i : ℝ)) : Cell))),
           symbols.map (fun l => l.flatMap (List.replicate mask.length)))
    else .error .exception

/-! ### Periodic boundary conditions -/

/-- `np.remainder(x, 1.0)`. -/
noncomputable def remainder1 (x : ℝ) : ℝ := x - ⌊x⌋

/-- The three assignments of the loop in `pbc_wrap_coords`, `crys.py:805-810`. -/
noncomputable def wrapAxes (a : Nd.Arr ℝ) (ax : Nat) (mask : Nat → Bool) : List Nat → Nd.Arr ℝ
  | [] => a
  | i :: rest =>
    if mask i then
      wrapAxes ⟨a.shape, fun idx => if idx.getD ax 0 = i then remainder1 (a.get idx) else a.get idx⟩ ax mask rest
    else wrapAxes a ax mask rest

/-- `crys.pbc_wrap_coords`, `crys.py:767-811`: the returned array and the caller's array after the
call. -/
noncomputable def pbcWrapCoords (a : Nd.Arr ℝ) (copy : Bool) (mask : Nat → Bool) (xyzAxis : Int) :
    Except CErr (Nd.Arr ℝ × Nd.Arr ℝ) :=
  match Nd.pyIndex a.shape.length xyzAxis with
  | none => .error .exception
  | some ax =>
    if a.shape[ax]? = some 3 then
      if a.shape.length = 2 ∨ a.shape.length = 3 then
        let r := wrapAxes a ax mask [0, 1, 2]
        .ok (r, if copy then a else r)
      else .error .assertion
    else .error .assertion

/-- A `while` loop as a relation between start and end state. -/
inductive While {σ : Type} (cond : σ → Prop) (body : σ → σ) : σ → σ → Prop
  | stop {s : σ} : ¬ cond s → While cond body s s
  | step {s t : σ} : cond s → While cond body (body s) t → While cond body s t

open Classical in
/-- `crys.min_image_convention`, `crys.py:1011-1039`: an array with entries `s i` becomes `u`. Two
`while mask.any()` loops. -/
noncomputable def MinImage {ι : Type} (s u : ι → ℝ) : Prop :=
  ∃ t, While (fun s : ι → ℝ => ∃ i, s i ≥ 1 / 2) (fun s i => if s i ≥ 1 / 2 then s i - 1 else s i) s t ∧
    While (fun s : ι → ℝ => ∃ i, s i < -(1 / 2)) (fun s i => if s i < -(1 / 2) then s i + 1 else s i) t u

/-- The two loops for one entry in `distsq_frac`, `flib.f90:430-435`. -/
def MinImageF (s u : ℝ) : Prop :=
  ∃ t, While (fun x : ℝ => x ≥ 1 / 2) (fun x => x - 1) s t ∧ While (fun x : ℝ => x < -(1 / 2)) (fun x => x + 1) t u

/-- `crys.rmax_smith`, `crys.py:1043-1073`. -/
noncomputable def rmaxSmith (cell : Cell) : ℝ :=
  let a := cell 0
  let b := cell 1
  let c := cell 2
  let bxc := cross b c
  let cxa := cross c a
  let axb := cross a b
  let wa := |dot a bxc| / norm bxc
  let wb := |dot b cxa| / norm cxa
  let wc := |dot c axb| / norm axb
  1 / 2 * min (min wa wb) wc

/-- `_flib.distsq_frac`, `flib.f90:388-454`, for one pair: fractional difference of two atoms,
with or without minimum image convention. -/
def DistVecFrac (pbc : Bool) (x y : V3) (d : V3) : Prop :=
  if pbc then ∀ k, MinImageF (x k - y k) (d k) else d = fun k => x k - y k

/-- `crys.distances`, `crys.py:1803-1856` with `flib.f90:441-453`: the distance of atoms `x`, `y`
given as fractional coordinates, from the fractional distance vector `d`. -/
noncomputable def distOf (cell : Cell) (d : V3) : ℝ := Real.sqrt (∑ k, frac2cart cell d k ^ 2)

/-- `dists[i,j]` of `crys.distances(struct, pbc)`. -/
def IsDist (cell : Cell) (pbc : Bool) (x y : V3) (r : ℝ) : Prop := ∃ d, DistVecFrac pbc x y d ∧ r = distOf cell d

/-! ### Angles -/

/-- The loops of `_flib.angles`, `flib.f90:365-377`: the cosine of the angle at the first atom, or the
fill value. Division by a zero distance (NaN) is 0 here. -/
noncomputable def cang {n : Nat} (distvecs : Fin n → Fin n → V3) (dists : Fin n → Fin n → ℝ) (maskVal : ℝ)
    (i j k : Fin n) : ℝ :=
  if i ≠ j ∧ i ≠ k ∧ j ≠ k then dot (distvecs i j) (distvecs i k) / dists i j / dists i k else maskVal

open Classical in
/-- The three `where` statements of `_flib.angles`, `flib.f90:378-384`, for one entry. `eps` is the
constant 2.2e-16. -/
noncomputable def angDeg (maskVal eps c : ℝ) : ℝ :=
  let a1 := if c ≠ maskVal ∧ c > 1 - eps then 1 else c
  let a2 := if a1 ≠ maskVal ∧ a1 < -(1 - eps) then -1 else a1
  if a2 ≠ maskVal then Real.arccos a2 * 180 / Real.pi else a2

open Classical in
/-- `crys.angles`, `crys.py:1883-1944`, with `_flib.angles`, `flib.f90:334-385`: entry `[i,j,k]` for
given distance vectors; `none`: the assertion on `mask_val` fails. -/
noncomputable def angles {n : Nat} (distvecs : Fin n → Fin n → V3) (dists : Fin n → Fin n → ℝ) (maskVal : ℝ) (deg : Bool)
    (eps : ℝ) : Option (Fin n → Fin n → Fin n → ℝ) :=
  if (if deg then 0 ≤ maskVal ∧ maskVal ≤ 180 else -1 ≤ maskVal ∧ maskVal ≤ 1) then none
  else if deg then some (fun i j k => angDeg maskVal eps (cang distvecs dists maskVal i j k))
  else some (cang distvecs dists maskVal)

/-! ### Nearest neighbours -/

/-- `np.argsort(d)`: some sorting permutation (equal values in any order). -/
def IsArgsort {K : Type} [LinearOrder K] (d : List K) (p : List Nat) : Prop :=
  p.Perm (List.range d.length) ∧ p.Pairwise (fun i j => ∀ x y, d[i]? = some x → d[j]? = some y → x ≤ y)

/-- `crys.nearest_neighbors_from_dists(num=…)`, `crys.py:1965-1994`: `p` is the argsort result,
`skip` the list of symbols to leave out (`[]` for `skip=None`). -/
def nnNum (p : List Nat) (symbols : List String) (skip : List String) (num : Nat) : List Nat :=
  ((p.filter (fun i => decide (symbols.getD i "" ∉ skip))).drop 1).take num

/-- `crys.nearest_neighbors_from_dists(cutoff=…)`, same lines. -/
def nnCutoff {K : Type} [LinearOrder K] [Zero K] (d : List K) (p : List Nat) (symbols : List String) (skip : List String)
    (cutoff : K) : List Nat :=
  p.filter (fun i => decide (0 < d.getD i 0 ∧ d.getD i 0 < cutoff) && decide (symbols.getD i "" ∉ skip))

/-- `sort=False`, `crys.py:1992-1994`. -/
def nnUnsorted (n : Nat) (ret : List Nat) : List Nat := (List.range n).filter (fun i => decide (i ∈ ret))

/-! ### Velocities, centering -/

/-- `crys.velocity_traj(arr, dt, axis=0, endpoints)`, `crys.py:673-720`; the items of the time axis
are vectors. `none`: `IndexError`. -/
noncomputable def velocityTraj {E : Type} [AddCommGroup E] [Module ℝ E] (x : List E) (dt : ℝ) (endpoints : Bool) : Option (List E) :=
  let tmp := List.zipWith (fun a b => (1 / dt) • ((1 / 2 : ℝ) • (a - b))) (x.drop 2) (x.take (x.length - 2))
  if endpoints then
    match tmp.head?, tmp.getLast? with
    | some a, some b => some (a :: tmp ++ [b])
    | _, _ => none
  else some tmp

/-- `crys.center_on_atom`, `crys.py:2110-2120`, fractional coordinates of one structure; `none`:
`IndexError`. -/
noncomputable def centerOnAtom (cf : List V3) (idx : Int) : Option (List V3) :=
  match Nd.pyIndex cf.length idx with
  | some i => some (cf.map (fun s k => s k - cf.getD i 0 k + 1 / 2))
  | none => none

end Pwtools.Cry
