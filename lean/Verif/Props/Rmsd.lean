import Verif.Model.DistTraj
import Verif.Spec.DistTraj
import Verif.Props.NdArray
import Verif.Props.Neigh
/-!
# C96, C97: RMSD of a trajectory, the structure of neighbours
-/
namespace Pwtools.Cry
open Spec

theorem getD_get {α : Type} (l : List α) (i : Nat) (h : i < l.length) (a : α) : l.getD i a = l[i] := by
  rw [List.getD_eq_getElem?_getD, List.getElem?_eq_getElem h, Option.getD_some]

theorem sum_range_getD (l : List V3) (f : V3 → ℝ) : ∑ i ∈ Finset.range l.length, f (l.getD i 0) = (l.map f).sum := by
  induction l with
  | nil => simp
  | cons a l ih => rw [List.length_cons, Finset.sum_range_succ', List.map_cons, List.sum_cons, ← ih]; simp [add_comm]

theorem sq_zip (x y : List V3) (h : x.length = y.length) :
    ∑ k, ((List.zipWith (fun a b => (fun k => a k - b k : V3)) x y).map fun v => v k ^ 2).sum =
      sqDisp x.length (fun i => x.getD i 0) (fun i => y.getD i 0) := by
  unfold sqDisp
  rw [Finset.sum_comm]
  apply Finset.sum_congr rfl
  intro k _
  induction x generalizing y with
  | nil => simp
  | cons a x ih =>
    cases y with
    | nil => simp at h
    | cons b y =>
      rw [List.zipWith_cons_cons, List.map_cons, List.sum_cons, ih y (by simpa using h), List.length_cons, Finset.sum_range_succ']
      simp [add_comm]

/-- **C96** For step `t` the result is the square root of the sum of the squared displacements against the reference step, over the number
of atoms. -/
theorem C96_value (coords : List (List V3)) (natoms : Nat) (refIdx : Int) (hn : ∀ x ∈ coords, x.length = natoms) (r : Nat)
    (hr : r < coords.length) (hri : refIdx = r ∨ refIdx = (r : Int) - coords.length) :
    ∃ out, rmsd coords natoms refIdx = some out ∧ out.length = coords.length ∧
      ∀ t, t < coords.length → out.getD t 0 =
        Real.sqrt (sqDisp natoms (fun i => (coords.getD t []).getD i 0) (fun i => (coords.getD r []).getD i 0) / natoms) := by
  have hp : Nd.pyIndex coords.length refIdx = some r := by
    rw [Nd.pyIndex_some]
    unfold Spec.IsAxis
    omega
  have hlen : ∀ t, t < coords.length → (coords.getD t []).length = natoms := by
    intro t ht
    rw [List.getD_eq_getElem?_getD, List.getElem?_eq_getElem ht, Option.getD_some]
    exact hn _ (List.getElem_mem ht)
  unfold rmsd rmsdDiff
  rw [hp]
  refine ⟨_, rfl, by simp, fun t ht => ?_⟩
  have ht' := hlen t ht
  have hr' := hlen r hr
  have e := sq_zip (coords.getD t []) (coords.getD r []) (ht'.trans hr'.symm)
  rw [ht'] at e
  rw [← e]
  simp [List.getD_eq_getElem?_getD, List.getElem?_eq_getElem ht]

/-- **C96** An index outside the trajectory is an error, all others are not. -/
theorem C96_error (coords : List (List V3)) (natoms : Nat) (refIdx : Int) :
    rmsd coords natoms refIdx = none ↔ refIdx < -(coords.length : Int) ∨ (coords.length : Int) ≤ refIdx := by
  unfold rmsd rmsdDiff
  have : Nd.pyIndex coords.length refIdx = none ↔ refIdx < -(coords.length : Int) ∨ (coords.length : Int) ≤ refIdx := by
    unfold Nd.pyIndex
    split
    · split
      · simp only [reduceCtorEq, false_iff]; omega
      · simp only [true_iff]; omega
    · split
      · simp only [reduceCtorEq, false_iff]; omega
      · simp only [true_iff]; omega
  rw [← this]
  cases Nd.pyIndex coords.length refIdx <;> simp

/-- **C96** The RMSD vanishes exactly for the steps which are equal to the reference step. -/
theorem C96_zero (coords : List (List V3)) (natoms : Nat) (hpos : 0 < natoms) (refIdx : Int) (hn : ∀ x ∈ coords, x.length = natoms)
    (r : Nat) (hr : r < coords.length) (hri : refIdx = r ∨ refIdx = (r : Int) - coords.length) (out : List ℝ)
    (h : rmsd coords natoms refIdx = some out) (t : Nat) (ht : t < coords.length) :
    out.getD t 0 = 0 ↔ coords.getD t [] = coords.getD r [] := by
  obtain ⟨out', h', -, hv⟩ := C96_value coords natoms refIdx hn r hr hri
  rw [h] at h'
  cases h'
  have hnn : (0 : ℝ) < natoms := by exact_mod_cast hpos
  have hlen : ∀ t, t < coords.length → (coords.getD t []).length = natoms := by
    intro t ht
    rw [List.getD_eq_getElem?_getD, List.getElem?_eq_getElem ht, Option.getD_some]
    exact hn _ (List.getElem_mem ht)
  have hge : 0 ≤ sqDisp natoms (fun i => (coords.getD t []).getD i 0) (fun i => (coords.getD r []).getD i 0) :=
    Finset.sum_nonneg fun i _ => Finset.sum_nonneg fun k _ => sq_nonneg _
  rw [hv t ht, Real.sqrt_eq_zero (div_nonneg hge hnn.le), div_eq_zero_iff, or_iff_left hnn.ne']
  unfold sqDisp
  rw [Finset.sum_eq_zero_iff_of_nonneg fun i _ => Finset.sum_nonneg fun k _ => sq_nonneg _]
  constructor
  · intro hz
    apply List.ext_getElem ((hlen t ht).trans (hlen r hr).symm)
    intro i h1 h2
    have := hz i (Finset.mem_range.2 (by rw [← hlen t ht]; exact h1))
    rw [Finset.sum_eq_zero_iff_of_nonneg fun k _ => sq_nonneg _] at this
    funext k
    have hk := pow_eq_zero_iff (two_ne_zero) |>.1 (this k (Finset.mem_univ k))
    rw [sub_eq_zero] at hk
    have g1 : (coords.getD t []).getD i 0 = (coords.getD t [])[i] := getD_get _ _ h1 _
    have g2 : (coords.getD r []).getD i 0 = (coords.getD r [])[i] := getD_get _ _ h2 _
    rw [← g1, ← g2]
    exact hk
  · intro he i _
    rw [he]
    simp

/-- **C96** The same motion (which keeps distances: shift, rotation, reflection) of all steps does not change the result. -/
theorem C96_motion (coords : List (List V3)) (natoms : Nat) (refIdx : Int) (hn : ∀ x ∈ coords, x.length = natoms) (f : V3 → V3)
    (hf : ∀ a b, ∑ k, (f a k - f b k) ^ 2 = ∑ k, (a k - b k) ^ 2) :
    rmsd (coords.map fun x => x.map f) natoms refIdx = rmsd coords natoms refIdx := by
  by_cases hb : refIdx < -(coords.length : Int) ∨ (coords.length : Int) ≤ refIdx
  · rw [(C96_error coords natoms refIdx).2 hb, C96_error]
    simpa using hb
  · obtain ⟨r, hr, hri⟩ : ∃ r : Nat, r < coords.length ∧ (refIdx = r ∨ refIdx = (r : Int) - coords.length) := by
      by_cases h0 : 0 ≤ refIdx
      · exact ⟨refIdx.toNat, by omega, by omega⟩
      · exact ⟨(refIdx + coords.length).toNat, by omega, by omega⟩
    obtain ⟨o1, e1, l1, v1⟩ := C96_value coords natoms refIdx hn r hr hri
    obtain ⟨o2, e2, l2, v2⟩ := C96_value (coords.map fun x => x.map f) natoms refIdx (by
      intro x hx
      obtain ⟨y, hy, rfl⟩ := List.mem_map.1 hx
      rw [List.length_map]
      exact hn y hy) r (by simpa using hr) (by simpa using hri)
    rw [e1, e2]
    congr 1
    rw [List.length_map] at l2
    apply List.ext_getElem (l2.trans l1.symm)
    intro t h1 h2
    have ht : t < coords.length := by rw [← l1]; exact h2
    have w1 := v1 t ht
    have w2 := v2 t (by simpa using ht)
    rw [List.getD_eq_getElem?_getD, List.getElem?_eq_getElem h2, Option.getD_some] at w1
    rw [List.getD_eq_getElem?_getD, List.getElem?_eq_getElem h1, Option.getD_some] at w2
    rw [w1, w2]
    congr 2
    have hget : ∀ s, s < coords.length → (coords.map fun x => x.map f).getD s [] = (coords.getD s []).map f := by
      intro s hs
      simp [List.getD_eq_getElem?_getD, List.getElem?_eq_getElem hs]
    have hlen : ∀ t, t < coords.length → (coords.getD t []).length = natoms := by
      intro t ht
      rw [List.getD_eq_getElem?_getD, List.getElem?_eq_getElem ht, Option.getD_some]
      exact hn _ (List.getElem_mem ht)
    rw [hget t ht, hget r hr]
    apply Finset.sum_congr rfl
    intro i hi
    rw [Finset.mem_range] at hi
    have hat : ∀ s, s < coords.length → ((coords.getD s []).map f).getD i 0 = f ((coords.getD s []).getD i 0) := by
      intro s hs
      have := hlen s hs
      generalize coords.getD s [] = l at this
      rw [getD_get _ _ (by rw [List.length_map]; omega), List.getElem_map, getD_get _ _ (by omega)]
    simp only [hat t ht, hat r hr]
    exact hf _ _

/-- One atom moving from 0 to (3,4,0) and back: RMSD 0, 5, 0. -/
example : rmsd [[![0, 0, 0]], [![3, 4, 0]], [![0, 0, 0]]] 1 (-1) = some [0, 5, 0] := by
  have h5 : Real.sqrt 25 = 5 := by rw [show (25 : ℝ) = 5 ^ 2 by norm_num, Real.sqrt_sq (by norm_num)]
  simp [rmsd, rmsdDiff, Nd.pyIndex, Fin.sum_univ_three]
  norm_num
  exact h5

/-- A shift keeps distances. -/
example (s : V3) : ∀ a b : V3, ∑ k, ((fun x : V3 => x + s) a k - (fun x : V3 => x + s) b k) ^ 2 = ∑ k, (a k - b k) ^ 2 := by
  intro a b
  simp

/-! ## C97 -/

/-- **C97** For `0 ≤ idx`: the new structure has exactly the neighbours and the central atom, in the order and the cell of the structure.
Missing: negative `idx`, see `C97_negative`. -/
theorem C97_struct_partial (st : Struct) (ni : List Nat) (idx : Nat) :
    IsSubStruct st (nnStruct st ni idx) (fun i => i ∈ ni ∨ i = idx) := by
  refine ⟨rfl, maskIdx st.coordsFrac.length (ni.map (fun i : Nat => (i : Int)) ++ [(idx : Int)]), ?_, ?_, rfl, rfl⟩
  · exact List.pairwise_lt_range.filter _
  · intro i
    unfold maskIdx
    rw [List.mem_filter, List.mem_range]
    simp

/-- **C97** With a cutoff radius: the atoms nearer than `cutoff` whose symbol is not skipped, and the central atom. -/
theorem C97_cutoff_partial (st : Struct) (d : List ℝ) (hd : d.length = st.coordsFrac.length) (p : List Nat) (hp : IsArgsort d p)
    (symbols skip : List String) (cutoff : ℝ) (idx : Nat) :
    IsSubStruct st (nnStruct st (nnCutoff d p symbols skip cutoff) idx)
      (fun i => (0 < d.getD i 0 ∧ d.getD i 0 < cutoff ∧ symbols.getD i "" ∉ skip) ∨ i = idx) := by
  obtain ⟨h1, pos, h2, h3, h4, h5⟩ := C97_struct_partial st (nnCutoff d p symbols skip cutoff) idx
  refine ⟨h1, pos, h2, fun i => ?_, h4, h5⟩
  rw [h3]
  show _ ∧ (i ∈ nnCutoff d p symbols skip cutoff ∨ i = idx) ↔ _
  rw [(C45_cutoff d p hp symbols skip cutoff).2.2, hd]
  tauto

/-- **C97** With `num`: there are `num + 1` atoms if there are enough candidates; in general one more than there are neighbours. -/
theorem C97_size (st : Struct) (ni : List Nat) (hni : ni.Nodup) (hlt : ∀ i ∈ ni, i < st.coordsFrac.length) (idx : Nat)
    (hidx : idx < st.coordsFrac.length) (hmem : idx ∉ ni) : (nnStruct st ni idx).coordsFrac.length = ni.length + 1 := by
  obtain ⟨-, pos, h2, h3, h4, -⟩ := C97_struct_partial st ni idx
  rw [h4, List.length_map]
  have hnd : pos.Nodup := h2.imp fun h => Nat.ne_of_lt h
  have : pos.Perm (idx :: ni) := by
    rw [List.perm_ext_iff_of_nodup hnd (List.nodup_cons.2 ⟨hmem, hni⟩)]
    intro i
    rw [h3, List.mem_cons]
    constructor
    · rintro ⟨-, h | h⟩
      · exact Or.inr h
      · exact Or.inl h
    · rintro (h | h)
      · exact ⟨h ▸ hidx, Or.inr h⟩
      · exact ⟨hlt i h, Or.inl h⟩
  simpa using this.length_eq

/-- **C97** is false for negative `idx`, which `nearest_neighbors` accepts (`dists[:,idx]`): the neighbours are there, the central atom is
not. -/
theorem C97_negative (st : Struct) (ni : List Nat) (idx : Int) (hneg : idx < 0) :
    IsSubStruct st (nnStruct st ni idx) (fun i => i ∈ ni) := by
  refine ⟨rfl, maskIdx st.coordsFrac.length (ni.map (fun i : Nat => (i : Int)) ++ [idx]), ?_, ?_, rfl, rfl⟩
  · exact List.pairwise_lt_range.filter _
  · intro i
    unfold maskIdx
    rw [List.mem_filter, List.mem_range]
    simp only [List.mem_append, List.mem_map, List.mem_singleton, decide_eq_true_eq]
    constructor
    · rintro ⟨h, ⟨j, hj, e⟩ | h'⟩
      · exact ⟨h, by rw [← Int.ofNat.inj e]; exact hj⟩
      · omega
    · rintro ⟨h, h'⟩
      exact ⟨h, Or.inl ⟨i, h', rfl⟩⟩

/-- The last of three atoms as central atom, once counted from the end: it is missing. -/
theorem C97_negative_counterexample :
    (nnStruct ⟨[0, fun _ => 1 / 4, fun _ => 1 / 2], 1, some ["Al", "N", "Ca"]⟩ [1] 2).symbols = some ["N", "Ca"] ∧
    (nnStruct ⟨[0, fun _ => 1 / 4, fun _ => 1 / 2], 1, some ["Al", "N", "Ca"]⟩ [1] (-1)).symbols = some ["N"] := by
  constructor
  · rfl
  · rfl

/-- Distances to atom 0 of a chain: with cutoff 5/2 atoms 0, 1, 2 stay. -/
example : IsArgsort ([0, 1, 2, 3] : List ℝ) [0, 1, 2, 3] := by
  refine ⟨List.Perm.refl _, ?_⟩
  simp
  norm_num

end Pwtools.Cry
