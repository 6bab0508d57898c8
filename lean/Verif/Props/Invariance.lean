import Verif.Spec.Invariance
import Verif.Props.Rpdf
import Verif.Props.Scell
/-!
# C156: distances and RPDF of the same crystal described in another way

No new model: `distances`, `pbc_wrap_coords` (Model/Pbc) and `rpdf` (Model/Rpdf).
-/
namespace Pwtools.Rp
open Pwtools.Cry Pwtools.Spec

/-- Difference vectors which differ by lattice vectors have the same minimum image. -/
theorem minImageF_shift (s u : ℝ) (n : Int) : MinImageF (s + n) u ↔ MinImageF s u := by
  rw [minImageF_char, minImageF_char]
  constructor
  · rintro ⟨h, m, e⟩
    exact ⟨h, n + m, by rw [e]; push_cast; ring⟩
  · rintro ⟨h, m, e⟩
    exact ⟨h, m - n, by rw [e]; push_cast; ring⟩

theorem distVecFrac_shift (x y x' y' s : V3) (n m : Fin 3 → Int) (hx : ∀ k, x' k = x k + (n k : ℝ) + s k)
    (hy : ∀ k, y' k = y k + (m k : ℝ) + s k) (d : V3) : DistVecFrac true x' y' d ↔ DistVecFrac true x y d := by
  simp only [DistVecFrac, if_true]
  apply forall_congr'
  intro k
  rw [hx, hy, show x k + (n k : ℝ) + s k - (y k + (m k : ℝ) + s k) = x k - y k + ((n k - m k : Int) : ℝ) by push_cast; ring,
    minImageF_shift]

theorem dot_rot (R : Matrix (Fin 3) (Fin 3) ℝ) (hR : IsRotation R) (a b : V3) :
    dot (Matrix.vecMul a R) (Matrix.vecMul b R) = dot a b := by
  have h : ∀ u v : V3, dot u v = u ⬝ᵥ v := fun u v => rfl
  rw [h, h, dotProduct_comm, ← Matrix.dotProduct_mulVec, ← Matrix.vecMul_transpose, Matrix.vecMul_vecMul,
    show R * R.transpose = 1 from hR, Matrix.vecMul_one, dotProduct_comm]

theorem distOf_rot (cell R : Cell) (hR : IsRotation R) (d : V3) : distOf (cell * R) d = distOf cell d := by
  have h : ∀ v : V3, ∑ k, v k ^ 2 = dot v v := fun v => by
    simp only [dot]; exact Finset.sum_congr rfl (fun k _ => by ring)
  unfold distOf
  rw [h, h]
  congr 1
  unfold frac2cart
  rw [← Matrix.vecMul_vecMul]
  exact dot_rot R hR _ _

theorem row_rot (cell R : Cell) (i : Fin 3) : (cell * R) i = Matrix.vecMul (cell i) R := by
  funext k
  simp [Matrix.mul_apply, Matrix.vecMul, dotProduct]

/-- Lagrange's identity. -/
theorem norm_cross (a b : V3) : Cry.norm (cross a b) = Real.sqrt (dot a a * dot b b - dot a b ^ 2) := by
  unfold Cry.norm
  congr 1
  simp only [dot3, cross, Matrix.cons_val_zero, Matrix.cons_val_one, Matrix.cons_val]
  ring

theorem det_rot (R : Cell) (hR : IsRotation R) : |R.det| = 1 := by
  have h : R.det * R.det = 1 := by
    have := congrArg Matrix.det (show R * R.transpose = 1 from hR)
    rwa [Matrix.det_mul, Matrix.det_transpose, Matrix.det_one] at this
  rcases mul_self_eq_one_iff.1 h with h | h <;> rw [h] <;> simp

theorem volume_rot (cell R : Cell) (hR : IsRotation R) : volumeCell (cell * R) = volumeCell cell := by
  unfold volumeCell
  rw [Matrix.det_mul, abs_mul, det_rot R hR, mul_one]

theorem triple_det (c : Cell) : dot (c 0) (cross (c 1) (c 2)) = c.det ∧ dot (c 1) (cross (c 2) (c 0)) = c.det ∧
    dot (c 2) (cross (c 0) (c 1)) = c.det := by
  simp only [dot3, cross, Matrix.cons_val_zero, Matrix.cons_val_one, Matrix.cons_val, Matrix.det_fin_three]
  refine ⟨?_, ?_, ?_⟩ <;> ring

theorem smith_rot (cell R : Cell) (hR : IsRotation R) : rmaxSmith (cell * R) = rmaxSmith cell := by
  obtain ⟨a, b, c⟩ := triple_det (cell * R)
  obtain ⟨a', b', c'⟩ := triple_det cell
  have hv : |(cell * R).det| = |cell.det| := volume_rot cell R hR
  unfold rmaxSmith
  simp only [a, b, c, a', b', c', hv, norm_cross]
  simp only [row_rot, dot_rot R hR]

/-- **C156** (distances). The distance with periodic boundary conditions of two atoms does not change if
either atom is replaced by a periodic image, if both are shifted by the same vector, and if the whole
crystal is rotated or reflected. -/
theorem C156_distance (cell R : Cell) (hR : IsRotation R) (x y x' y' s : V3) (n m : Fin 3 → Int)
    (hx : ∀ k, x' k = x k + (n k : ℝ) + s k) (hy : ∀ k, y' k = y k + (m k : ℝ) + s k) (r : ℝ) :
    IsDist (cell * R) true x' y' r ↔ IsDist cell true x y r := by
  unfold IsDist
  simp only [distVecFrac_shift x y x' y' s n m hx hy, distOf_rot cell R hR]

/-- **C156** (without periodic boundary conditions): shift by a common vector and rotation. -/
theorem C156_distance_open (cell R : Cell) (hR : IsRotation R) (x y s : V3) (r : ℝ) :
    IsDist (cell * R) false (fun k => x k + s k) (fun k => y k + s k) r ↔ IsDist cell false x y r := by
  unfold IsDist DistVecFrac
  simp [distOf_rot cell R hR]

/-- `row` in another order of the atoms. -/
theorem row_perm {T A B : Nat} (dr volume : ℝ) (nb : Nat) (normVmd : Bool) (eps : ℝ)
    (d md d' md' : Fin T → Fin A → Fin B → ℝ) (σ : Fin T → Equiv.Perm (Fin A)) (τ : Fin T → Equiv.Perm (Fin B))
    (h : ∀ t i j, d' t i j = d t (σ t i) (τ t j)) (h' : ∀ t i j, md' t i j = md t (σ t i) (τ t j)) (k : Nat) :
    row dr volume nb normVmd eps d' md' k = row dr volume nb normVmd eps d md k := by
  have key : ∀ t (P : Fin A × Fin B → Prop), Set.ncard {p : Fin A × Fin B | P (σ t p.1, τ t p.2)} = Set.ncard {p | P p} := by
    intro t P
    exact Set.ncard_preimage_of_injective_subset_range (s := {p | P p}) (Equiv.prodCongr (σ t) (τ t)).injective
      (fun p _ => (Equiv.prodCongr (σ t) (τ t)).surjective p)
  have hh : ∀ t m, hist dr nb (md' t) m = hist dr nb (md t) m := by
    intro t m
    unfold hist
    simp only [h']
    split
    · rfl
    · congr 1
      exact key t (fun p => edge dr m ≤ md t p.1 p.2 ∧
        (md t p.1 p.2 < edge dr (m + 1) ∨ (m + 1 = nb ∧ md t p.1 p.2 = edge dr (m + 1))))
  have hdup : ∀ t, dups normVmd eps (d' t) = dups normVmd eps (d t) := by
    intro t
    unfold dups
    simp only [h]
    split
    · congr 1
      exact key t (fun p => d t p.1 p.2 < eps)
    · rfl
  unfold row
  simp only [hh, hdup]

/-- **C156** (`rpdf`). For all arguments, with `rmax` given or `'auto'`: another order of the atoms in the two
selections (even another one in each step), other periodic images of the atoms, another origin in each
step and another orientation of the crystal give the same array. -/
theorem C156_rpdf {T A B : Nat} (cell R : Cell) (hR : IsRotation R) (x x' : Fin T → Fin A → V3) (y y' : Fin T → Fin B → V3)
    (σ : Fin T → Equiv.Perm (Fin A)) (τ : Fin T → Equiv.Perm (Fin B)) (s : Fin T → V3)
    (hx : ∀ t, SameAtoms (σ t) (s t) (x t) (x' t)) (hy : ∀ t, SameAtoms (τ t) (s t) (y t) (y' t))
    (dr : ℝ) (rmax : Option ℝ) (dmask : Option (ℝ → Prop)) (normVmd : Bool) (eps : ℝ) (out out' : List (ℝ × ℝ × ℝ))
    (ho : IsRpdf cell (volumeCell cell) x y dr rmax dmask true normVmd eps out)
    (ho' : IsRpdf (cell * R) (volumeCell (cell * R)) x' y' dr rmax dmask true normVmd eps out') : out' = out := by
  obtain ⟨u, hu, rfl⟩ := ho
  obtain ⟨u', hu', rfl⟩ := ho'
  have hd : ∀ t i j, ∃ r, IsDist cell true (x t i) (y t j) r := fun t i j => (C37_dist_exists cell true (x t i) (y t j)).exists
  choose d hd using hd
  have hd' : ∀ t i j, IsDist (cell * R) true (x' t i) (y' t j) (d t (σ t i) (τ t j)) := by
    intro t i j
    obtain ⟨n, hn⟩ := hx t i
    obtain ⟨m, hm⟩ := hy t j
    exact (C156_distance cell R hR _ _ _ _ (s t) n m hn hm _).2 (hd t _ _)
  have e : ∀ t i j, distsAll cell u t i j = d t i j := fun t i j =>
    congrFun (congrFun (congrFun (distsAll_eq hu hd) t) i) j
  have e' : ∀ t i j, distsAll (cell * R) u' t i j = d t (σ t i) (τ t j) := fun t i j =>
    congrFun (congrFun (congrFun (distsAll_eq (d := fun t i j => d t (σ t i) (τ t j)) hu' hd') t) i) j
  simp only [smith_rot cell R hR, volume_rot cell R hR, e, e']
  generalize rmax.getD (rmaxSmith cell) = rm
  generalize nbins dr rm = nb
  apply List.map_congr_left
  intro k _
  exact row_perm dr (volumeCell cell) nb normVmd eps d (fun t i j => maskDist rm dmask (d t i j))
    (fun t i j => d t (σ t i) (τ t j)) (fun t i j => maskDist rm dmask (d t (σ t i) (τ t j))) σ τ (fun _ _ _ => rfl) (fun _ _ _ => rfl) k

/-- **C156** (wrapping). Whatever `pbc_wrap_coords` does to the coordinates of a structure (all masks), the
atoms are the same in the sense of `SameAtoms`, without shift and in the same order. -/
theorem C156_wrap (a r after : Nd.Arr ℝ) (copy : Bool) (mask : Nat → Bool) (A : Nat) (hs : a.shape = [A, 3])
    (h : pbcWrapCoords a copy mask (-1) = .ok (r, after)) :
    SameAtoms (Equiv.refl (Fin A)) 0 (fun i k => a.get [i.val, k.val]) (fun i k => r.get [i.val, k.val]) := by
  obtain ⟨r', after', h1, h2, h3, _⟩ := C35_wrap a copy mask (-1) 1 (by rw [hs]; simp [IsAxis]) (by rw [hs]; rfl)
    (by rw [hs]; left; rfl)
  rw [h] at h1
  simp only [Except.ok.injEq, Prod.mk.injEq] at h1
  obtain ⟨rfl, _⟩ := h1
  intro i
  have : ∀ k : Fin 3, ∃ n : Int, r.get [i.val, k.val] = a.get [i.val, k.val] + n := by
    intro k
    obtain ⟨ha, hb⟩ := h3 [i.val, k.val] (by rw [hs]; simp [InShape])
    cases hm : mask ([i.val, k.val].getD 1 0)
    · exact ⟨0, by simp [hb hm]⟩
    · exact (ha hm).2.2
  choose n hn using this
  exact ⟨n, fun k => by simp [hn]⟩

/-! Non-vacuity: a quarter turn, two atoms exchanged, wrapped and shifted. -/

/-- A rotation by 90 degrees around z. -/
def exTurn : Cell := !![0, 1, 0; -1, 0, 0; 0, 0, 1]

theorem exTurn_rotation : IsRotation exTurn := by
  unfold IsRotation exTurn
  ext i j
  fin_cases i <;> fin_cases j <;> simp [Matrix.mul_apply, Fin.sum_univ_three]

example : SameAtoms (Equiv.swap 0 1) ![1/3, 0, 0] ![![0, 0, 0], ![1/4, 1/2, 0]] ![![1/4 + 1/3, 1/2 + 1, 0], ![1/3 - 2, 0, 0]] := by
  intro i
  fin_cases i
  · exact ⟨![0, 1, 0], fun k => by fin_cases k <;> simp⟩
  · exact ⟨![-2, 0, 0], fun k => by fin_cases k <;> simp; ring⟩

/-- Both calls of `rpdf` return, for all arguments. -/
example (x : Fin 2 → Fin 3 → V3) : ∃ out out',
    IsRpdf (1 : Cell) (volumeCell 1) x x (1/10) none none true true 0 out ∧
    IsRpdf (1 * exTurn) (volumeCell (1 * exTurn)) (fun t i => x t (Equiv.swap 0 1 i)) (fun t i => x t (Equiv.swap 0 1 i))
      (1/10) none none true true 0 out' ∧ out' = out := by
  obtain ⟨out, h, _⟩ := C52_total (cell := (1 : Cell)) (volume := volumeCell 1) (x := x) (y := x) (dr := 1/10) (rmax := none)
    (dmask := none) (pbc := true) (normVmd := true) (eps := 0)
  obtain ⟨out', h', _⟩ := C52_total (cell := 1 * exTurn) (volume := volumeCell (1 * exTurn))
    (x := fun t i => x t (Equiv.swap 0 1 i)) (y := fun t i => x t (Equiv.swap 0 1 i)) (dr := 1/10) (rmax := none)
    (dmask := none) (pbc := true) (normVmd := true) (eps := 0)
  have hs : ∀ t, SameAtoms (Equiv.swap 0 1) 0 (x t) (fun i => x t (Equiv.swap 0 1 i)) := fun t i => ⟨0, fun k => by simp⟩
  exact ⟨out, out', h, h', C156_rpdf 1 exTurn exTurn_rotation _ _ _ _ (fun _ => Equiv.swap 0 1) (fun _ => Equiv.swap 0 1)
    (fun _ => 0) hs hs _ _ _ _ _ _ _ h h'⟩

end Pwtools.Rp
