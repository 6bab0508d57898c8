import Verif.Model.StructNeigh
import Verif.Props.Invariance
import Verif.Props.Neigh
import Verif.Props.DistTraj
import Verif.Props.LmpData
/-!
# C161: a crystal given by its lattice constants, and angles and neighbours of the same crystal described in another way
-/
namespace Pwtools.Rp
open Pwtools.Cry Pwtools.Spec

theorem dvf_unique (pbc : Bool) (x y u v : V3) (hu : DistVecFrac pbc x y u) (hv : DistVecFrac pbc x y v) : u = v := by
  cases pbc
  · simp only [DistVecFrac, Bool.false_eq_true, if_false] at hu hv
    rw [hu, hv]
  · simp only [DistVecFrac, if_true] at hu hv
    funext k
    obtain ⟨w, -, h, -⟩ := C36_fortran (x k - y k)
    rw [h _ (hu k), h _ (hv k)]

/-- `IsDist` under rotation, same atoms. -/
theorem isDist_rot (cell R : Cell) (hR : IsRotation R) (pbc : Bool) (x y : V3) (r : ℝ) :
    IsDist (cell * R) pbc x y r ↔ IsDist cell pbc x y r := by
  unfold IsDist
  simp only [distOf_rot cell R hR]

/-- **C161** (only the lattice constants are kept). Writing the three lengths and three angles of a cell and
building the cell from them again, as all file formats without cell vectors do, keeps all distances. -/
theorem C161_distances (c : Cell) (h : c.det ≠ 0) (pbc : Bool) (x y : V3) (r : ℝ) :
    IsDist (cc2cell (cell2cc c)) pbc x y r ↔ IsDist c pbc x y r := by
  obtain ⟨R, hR, e⟩ := LmpData.rotation c h
  rw [e]
  exact isDist_rot c R hR pbc x y r

/-- **C161** (volume and the largest possible cutoff). -/
theorem C161_volume_smith (c : Cell) (h : c.det ≠ 0) :
    volumeCell (cc2cell (cell2cc c)) = volumeCell c ∧ rmaxSmith (cc2cell (cell2cc c)) = rmaxSmith c := by
  obtain ⟨R, hR, e⟩ := LmpData.rotation c h
  rw [e]
  exact ⟨volume_rot c R hR, smith_rot c R hR⟩

/-- **C161** (`rpdf` of a crystal given by its lattice constants). -/
theorem C161_rpdf {T A B : Nat} (c : Cell) (h : c.det ≠ 0) (x : Fin T → Fin A → V3) (y : Fin T → Fin B → V3)
    (dr : ℝ) (rmax : Option ℝ) (dmask : Option (ℝ → Prop)) (normVmd : Bool) (eps : ℝ) (out out' : List (ℝ × ℝ × ℝ))
    (ho : IsRpdf c (volumeCell c) x y dr rmax dmask true normVmd eps out)
    (ho' : IsRpdf (cc2cell (cell2cc c)) (volumeCell (cc2cell (cell2cc c))) x y dr rmax dmask true normVmd eps out') :
    out' = out := by
  obtain ⟨R, hR, e⟩ := LmpData.rotation c h
  rw [e] at ho'
  exact C156_rpdf c R hR x x y y (fun _ => 1) (fun _ => 1) (fun _ => 0) (fun t i => ⟨0, fun k => by simp⟩)
    (fun t i => ⟨0, fun k => by simp⟩) dr rmax dmask normVmd eps out out' ho ho'

theorem dvf_same {n : Nat} (pbc : Bool) (σ : Equiv.Perm (Fin n)) (s : V3) (x x' : Fin n → V3)
    (hx : if pbc then SameAtoms σ s x x' else ∀ i k, x' i k = x (σ i) k + s k) (i j : Fin n) (u : V3) :
    DistVecFrac pbc (x' i) (x' j) u ↔ DistVecFrac pbc (x (σ i)) (x (σ j)) u := by
  cases pbc
  · simp only [Bool.false_eq_true, if_false] at hx
    simp [DistVecFrac, hx]
  · simp only [if_true] at hx
    obtain ⟨n, hn⟩ := hx i
    obtain ⟨m, hm⟩ := hx j
    exact distVecFrac_shift _ _ _ _ s n m hn hm u

theorem isDist_same {n : Nat} (cell R : Cell) (hR : IsRotation R) (pbc : Bool) (σ : Equiv.Perm (Fin n)) (s : V3) (x x' : Fin n → V3)
    (hx : if pbc then SameAtoms σ s x x' else ∀ i k, x' i k = x (σ i) k + s k) (i j : Fin n) (r : ℝ) :
    IsDist (cell * R) pbc (x' i) (x' j) r ↔ IsDist cell pbc (x (σ i)) (x (σ j)) r := by
  unfold IsDist
  simp only [dvf_same pbc σ s x x' hx, distOf_rot cell R hR]

/-- **C161** (`angles`). Another order of the atoms, other periodic images (with `pbc=True`), another origin and another
orientation: the angle of the same three atoms is the same, and the call fails for the same `mask_val`. -/
theorem C161_angles {n : Nat} (cell R : Cell) (hR : IsRotation R) (pbc : Bool) (σ : Equiv.Perm (Fin n)) (s : V3) (x x' : Fin n → V3)
    (hx : if pbc then SameAtoms σ s x x' else ∀ i k, x' i k = x (σ i) k + s k) (maskVal : ℝ) (deg : Bool) (eps : ℝ)
    (out out' : Option (Fin n → Fin n → Fin n → ℝ))
    (ho : IsAngles cell pbc x maskVal deg eps out) (ho' : IsAngles (cell * R) pbc x' maskVal deg eps out') :
    out' = out.map (fun a i j k => a (σ i) (σ j) (σ k)) := by
  obtain ⟨u, hu, rfl⟩ := ho
  obtain ⟨u', hu', rfl⟩ := ho'
  have e : u' = fun i j => u (σ i) (σ j) := by
    funext i j
    exact dvf_unique pbc _ _ _ _ ((dvf_same pbc σ s x x' hx i j _).1 (hu' i j)) (hu _ _)
  subst e
  have hc : ∀ i j k, cang (fun i j => frac2cart (cell * R) (u (σ i) (σ j))) (fun i j => distOf (cell * R) (u (σ i) (σ j))) maskVal i j k
      = cang (fun i j => frac2cart cell (u i j)) (fun i j => distOf cell (u i j)) maskVal (σ i) (σ j) (σ k) := by
    intro i j k
    unfold cang
    simp only [distOf_rot cell R hR, ne_eq, σ.injective.eq_iff]
    have : ∀ v, frac2cart (cell * R) v = Matrix.vecMul (frac2cart cell v) R := fun v => by
      unfold frac2cart; rw [Matrix.vecMul_vecMul]
    rw [this, this, dot_rot R hR]
  have hc2 := fun i j => funext (hc i j)
  have hc3 := fun i => funext (hc2 i)
  have hc4 := funext hc3
  unfold angles
  split_ifs
  · rfl
  · simp only [Option.map_some, hc]
  · rfl
  · simp only [Option.map_some, hc4]

theorem getD_ofFn {α : Type} {n : Nat} (f : Fin n → α) (a : α) (i : Fin n) : (List.ofFn f).getD i a = f i := by
  simp [List.getD_eq_getElem?_getD]

/-- **C161** (`nearest_neighbors` with `cutoff`). The neighbours are the same atoms. -/
theorem C161_neighbours_cutoff {n : Nat} (cell R : Cell) (hR : IsRotation R) (pbc : Bool) (σ : Equiv.Perm (Fin n)) (s : V3)
    (x x' : Fin n → V3) (hx : if pbc then SameAtoms σ s x x' else ∀ i k, x' i k = x (σ i) k + s k) (symbols : Fin n → String)
    (skip : List String) (idx : Fin n) (cutoff : ℝ) (out out' : List Nat)
    (ho : IsNeighCutoff cell pbc x symbols skip (σ idx) cutoff out)
    (ho' : IsNeighCutoff (cell * R) pbc x' (fun i => symbols (σ i)) skip idx cutoff out') (i : Fin n) :
    (i : Nat) ∈ out' ↔ ((σ i : Fin n) : Nat) ∈ out := by
  obtain ⟨d, p, hd, hp, rfl⟩ := ho
  obtain ⟨d', p', hd', hp', rfl⟩ := ho'
  have e : ∀ i, d' i = d (σ i) := fun i =>
    (C37_dist_exists cell pbc _ _).unique ((isDist_same cell R hR pbc σ s x x' hx i idx _).1 (hd' i)) (hd (σ i))
  rw [(C45_cutoff _ _ hp' _ _ _).2.2, (C45_cutoff _ _ hp _ _ _).2.2]
  simp only [getD_ofFn, e, List.length_ofFn, Fin.is_lt, true_and]

/-- The distances of the atoms which are not skipped, in increasing order. -/
theorem sorted_unique {n : Nat} (d d' : Fin n → ℝ) (σ : Equiv.Perm (Fin n)) (e : ∀ i, d' i = d (σ i)) (p p' : List Nat)
    (hp : IsArgsort (List.ofFn d) p) (hp' : IsArgsort (List.ofFn d') p') (f f' : Nat → Bool) (hf : ∀ i : Fin n, f' i = f (σ i)) :
    (p'.filter f').map (fun i => (List.ofFn d').getD i 0) = (p.filter f).map (fun i => (List.ofFn d).getD i 0) := by
  have srt : ∀ (d : Fin n → ℝ) (p : List Nat) (f : Nat → Bool), IsArgsort (List.ofFn d) p →
      ((p.filter f).map (fun i => (List.ofFn d).getD i 0)).Pairwise (· ≤ ·) := fun d p f hp => by
    rw [List.pairwise_map]
    exact (argsort_sorted hp).filter f
  have prm : ∀ (d : Fin n → ℝ) (p : List Nat) (f : Nat → Bool), IsArgsort (List.ofFn d) p →
      List.Perm ((p.filter f).map (fun i => (List.ofFn d).getD i 0)) (((List.finRange n).filter (fun i : Fin n => f i)).map d) := by
    intro d p f hp
    have h1 : p.Perm ((List.finRange n).map (fun i : Fin n => (i : Nat))) := by
      rw [List.map_coe_finRange_eq_range]; simpa using hp.1
    refine ((h1.filter f).map _).trans ?_
    rw [List.filter_map, List.map_map]
    refine List.Perm.of_eq ?_
    apply List.map_congr_left
    intro i _
    exact getD_ofFn d 0 i
  refine List.Perm.eq_of_pairwise (le := (· ≤ ·)) (fun a b _ _ h1 h2 => le_antisymm h1 h2) (srt _ _ _ hp') (srt _ _ _ hp) ?_
  refine (prm _ _ _ hp').trans (List.Perm.trans ?_ (prm _ _ _ hp).symm)
  have h2 : ((List.finRange n).map σ).Perm (List.finRange n) := by
    refine (List.perm_ext_iff_of_nodup ((List.nodup_finRange n).map σ.injective) (List.nodup_finRange n)).2 (fun a => ?_)
    simp only [List.mem_map, List.mem_finRange, true_and, iff_true]
    exact ⟨σ.symm a, by simp⟩
  refine List.Perm.trans (List.Perm.of_eq ?_) ((h2.filter (fun i : Fin n => f i)).map d)
  rw [List.filter_map, List.map_map]
  have : (List.finRange n).filter (fun i : Fin n => f' i) = (List.finRange n).filter ((fun i : Fin n => f i) ∘ σ) :=
    List.filter_congr (fun i _ => hf i)
  rw [this]
  exact List.map_congr_left (fun i _ => e i)

/-- **C161** (`nearest_neighbors` with `num`). The neighbours are at the same distances, whatever the order in which
`argsort` leaves equal distances. -/
theorem C161_neighbours_num {n : Nat} (cell R : Cell) (hR : IsRotation R) (pbc : Bool) (σ : Equiv.Perm (Fin n)) (s : V3)
    (x x' : Fin n → V3) (hx : if pbc then SameAtoms σ s x x' else ∀ i k, x' i k = x (σ i) k + s k) (symbols : Fin n → String)
    (skip : List String) (idx : Fin n) (num : Nat) (out out' : List Nat) (dists dists' : List ℝ)
    (ho : IsNeighNum cell pbc x symbols skip (σ idx) num out dists)
    (ho' : IsNeighNum (cell * R) pbc x' (fun i => symbols (σ i)) skip idx num out' dists') : dists' = dists := by
  obtain ⟨d, p, hd, hp, rfl, rfl⟩ := ho
  obtain ⟨d', p', hd', hp', rfl, rfl⟩ := ho'
  have e : ∀ i, d' i = d (σ i) := fun i =>
    (C37_dist_exists cell pbc _ _).unique ((isDist_same cell R hR pbc σ s x x' hx i idx _).1 (hd' i)) (hd (σ i))
  unfold nnNum
  rw [List.map_take, List.map_drop, List.map_take, List.map_drop]
  rw [sorted_unique d d' σ e p p' hp hp' (fun i => decide ((List.ofFn symbols).getD i "" ∉ skip)) _
    (fun i => by simp only [getD_ofFn])]

/-! Non-vacuity -/

theorem exists_argsort {n : Nat} (d : Fin n → ℝ) : ∃ p, IsArgsort (List.ofFn d) p := by
  refine ⟨(List.range n).mergeSort (fun i j => decide ((List.ofFn d).getD i 0 ≤ (List.ofFn d).getD j 0)), ?_, ?_⟩
  · simpa using List.mergeSort_perm _ _
  · have := List.pairwise_mergeSort (le := fun i j => decide ((List.ofFn d).getD i 0 ≤ (List.ofFn d).getD j 0))
      (fun a b c h1 h2 => by simp only [decide_eq_true_eq] at *; exact h1.trans h2)
      (fun a b => by simp only [Bool.or_eq_true, decide_eq_true_eq]; exact le_total _ _) (List.range n)
    refine this.imp ?_
    intro i j h x y hi hj
    simp only [decide_eq_true_eq, List.getD_eq_getElem?_getD, hi, hj, Option.getD_some] at h
    exact h

/-- All calls return something, for all arguments. -/
theorem C161_total {n : Nat} (cell : Cell) (pbc : Bool) (x : Fin n → V3) (symbols : Fin n → String) (skip : List String) (idx : Fin n)
    (cutoff : ℝ) (num : Nat) (maskVal : ℝ) (deg : Bool) (eps : ℝ) :
    (∃ out, IsAngles cell pbc x maskVal deg eps out) ∧ (∃ out, IsNeighCutoff cell pbc x symbols skip idx cutoff out) ∧
    (∃ out dists, IsNeighNum cell pbc x symbols skip idx num out dists) := by
  have hd : ∀ i, ∃ r, IsDist cell pbc (x i) (x idx) r := fun i => (C37_dist_exists cell pbc _ _).exists
  choose d hd using hd
  obtain ⟨p, hp⟩ := exists_argsort d
  have hu : ∀ i j, ∃ u, DistVecFrac pbc (x i) (x j) u := fun i j => dvf_exists pbc _ _
  choose u hu using hu
  exact ⟨⟨_, u, hu, rfl⟩, ⟨_, d, p, hd, hp, rfl⟩, ⟨_, _, d, p, hd, hp, rfl, rfl⟩⟩

/-- Two atoms exchanged, wrapped and shifted, in a turned crystal: the same neighbours. -/
example (x : Fin 2 → V3) (cutoff : ℝ) : ∃ out out', IsNeighCutoff 1 true x !["Ca", "O"] ["Ca"] 1 cutoff out ∧
    IsNeighCutoff (1 * exTurn) true (fun i k => x (Equiv.swap 0 1 i) k + ((![2, -3] i : Int) : ℝ) + 1 / 3) !["O", "Ca"] ["Ca"] 0 cutoff out' ∧
    (1 ∈ out' ↔ 0 ∈ out) := by
  obtain ⟨-, ⟨out, h⟩, -⟩ := C161_total (1 : Cell) true x !["Ca", "O"] ["Ca"] 1 cutoff 0 0 true 0
  obtain ⟨-, ⟨out', h'⟩, -⟩ := C161_total (1 * exTurn) true (fun i k => x (Equiv.swap 0 1 i) k + ((![2, -3] i : Int) : ℝ) + 1 / 3)
    !["O", "Ca"] ["Ca"] 0 cutoff 0 0 true 0
  refine ⟨out, out', h, h', ?_⟩
  have e : (!["O", "Ca"] : Fin 2 → String) = fun i => (!["Ca", "O"] : Fin 2 → String) (Equiv.swap 0 1 i) := by
    funext i; fin_cases i <;> simp
  rw [e] at h'
  have := C161_neighbours_cutoff (1 : Cell) exTurn exTurn_rotation true (Equiv.swap 0 1) (fun _ => 1 / 3) x _
    (by simp only [if_true]; intro i; exact ⟨fun _ => ![2, -3] i, fun k => rfl⟩) !["Ca", "O"] ["Ca"] 0 cutoff out out' (by simpa using h) h' 1
  simpa using this

/-- A monoclinic cell has a determinant different from 0. -/
example : (!![2, 0, 0; 0, 3, 0; 1, 0, 4] : Cell).det ≠ 0 := by
  simp [Matrix.det_fin_three]

end Pwtools.Rp
