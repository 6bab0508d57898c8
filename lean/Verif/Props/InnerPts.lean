import Verif.Model.InnerPts
import Verif.Spec.InnerPts
import Mathlib.Tactic.Linarith
import Mathlib.Tactic.NormNum
import Mathlib.Data.Fin.VecNotation
/-!
# C152: `inner_points_mask` removes edge points
-/
namespace Pwtools.Inner
open Pwtools.Spec

theorem putFalse_length (idx : List Nat) (msk : List Bool) : (putFalse idx msk).length = msk.length := by
  unfold putFalse
  induction idx generalizing msk with
  | nil => rfl
  | cons i l ih => rw [List.foldl_cons, ih]; simp

theorem putFalse_get (idx : List Nat) (msk : List Bool) (i : Nat) (hi : i < msk.length) :
    (putFalse idx msk)[i]? = some false ↔ i ∈ idx ∨ msk[i]? = some false := by
  unfold putFalse
  induction idx generalizing msk with
  | nil => simp
  | cons j l ih =>
    rw [List.foldl_cons, ih _ (by simpa using hi), List.getElem?_set]
    by_cases h : j = i
    · subst h; simp [hi]
    · simp [h, Ne.symm h]

theorem mem_edgeIdx (hull : List (List Nat)) (i : Nat) : i ∈ edgeIdx hull ↔ ∃ f ∈ hull, i ∈ f := by
  unfold edgeIdx
  simp [List.mem_eraseDups, List.mem_mergeSort]

theorem diffs_sorted (l : List ℝ) : diffsNonneg l = true ↔ l.Pairwise (· ≤ ·) := by
  induction l with
  | nil => simp [diffsNonneg]
  | cons a l ih =>
    cases l with
    | nil => simp [diffsNonneg]
    | cons b l =>
      rw [diffsNonneg, Bool.and_eq_true, ih, decide_eq_true_eq, List.pairwise_cons (a := a)]
      constructor
      · rintro ⟨h1, h2⟩
        refine ⟨fun c hc => ?_, h2⟩
        rcases List.mem_cons.1 hc with rfl | hc
        · linarith
        · have := (List.pairwise_cons.1 h2).1 c hc
          linarith
      · rintro ⟨h1, h2⟩
        exact ⟨by have := h1 b (by simp); linarith, h2⟩

variable {d : Nat}

theorem one_get (n i : Nat) (hi : i < n) : ((List.replicate n true).set 0 false |>.set (n - 1) false)[i]? = some false ↔
    i = 0 ∨ i = n - 1 := by
  rw [List.getElem?_set, List.getElem?_set]
  by_cases h1 : n - 1 = i
  · simp [h1, hi]
  · by_cases h2 : i = 0
    · subst h2; simp [hi, h1]
    · simp [h1, Ne.symm h1, h2, Ne.symm h2, hi]

/-- **C152** (one dimension). For at least one point, sorted upwards, the mask keeps exactly `points[1:-1]`. The call stops
with `points not monotonic` when the points are not sorted, and with an index error when there are none. -/
theorem C152_1d (delaunay : List (Fin 1 → ℝ) → List (List Nat)) (points : List (Fin 1 → ℝ)) :
    (points ≠ [] → points.Pairwise (fun p q => p 0 ≤ q 0) →
      ∃ msk, innerPointsMask delaunay points = .ok msk ∧ rowsAt points msk = (points.drop 1).dropLast) ∧
    (¬ points.Pairwise (fun p q => p 0 ≤ q 0) → innerPointsMask delaunay points = .error .assertion) ∧
    (points = [] → innerPointsMask delaunay points = .error .index) := by
  have hs : diffsNonneg (points.map fun p => p ⟨0, by omega⟩) = true ↔ points.Pairwise (fun p q => p 0 ≤ q 0) := by
    rw [diffs_sorted, List.pairwise_map]; rfl
  refine ⟨?_, ?_, ?_⟩
  · intro hne hp
    have hl : points.length ≠ 0 := by simpa using hne
    refine ⟨_, by unfold innerPointsMask; rw [dif_pos rfl, if_pos (hs.2 hp), if_neg hl], ?_⟩
    clear hs hp
    obtain ⟨a, l, rfl⟩ := List.exists_cons_of_ne_nil hne
    rcases List.eq_nil_or_concat l with rfl | ⟨m, b, rfl⟩
    · simp [rowsAt]
    · rw [List.concat_eq_append]
      have e : ((List.replicate (a :: (m ++ [b])).length true).set 0 false).set ((a :: (m ++ [b])).length - 1) false =
          false :: (List.replicate m.length true ++ [false]) := by
        rw [List.length_cons, List.length_append, List.length_singleton, List.replicate_succ, List.replicate_succ',
          List.set_cons_zero, Nat.add_sub_cancel, List.set_cons_succ, List.set_append_right _ _ (by simp)]
        simp
      have key : ∀ m : List (Fin 1 → ℝ), rowsAt (m ++ [b]) (List.replicate m.length true ++ [false]) = m := by
        intro m
        unfold rowsAt
        rw [List.zip_append (by simp)]
        induction m with
        | nil => rfl
        | cons c m ih => simpa [List.replicate_succ] using ih
      rw [e]
      have : rowsAt (a :: (m ++ [b])) (false :: (List.replicate m.length true ++ [false])) =
          rowsAt (m ++ [b]) (List.replicate m.length true ++ [false]) := by simp [rowsAt]
      rw [this, key]
      simp
  · intro hp
    unfold innerPointsMask
    rw [dif_pos rfl, if_neg fun h => hp (hs.1 h)]
  · rintro rfl
    unfold innerPointsMask
    rw [dif_pos rfl, if_pos (hs.2 List.Pairwise.nil)]
    rfl

/-- **C152** (edge points). Whenever the call returns, in any dimension, the mask has one entry per point, every point
left out is an edge point of the set, and every point lies in the convex hull of the points left out. In more than one
dimension `Delaunay` is assumed to give facets of the hull. -/
theorem C152_edges (delaunay : List (Fin d → ℝ) → List (List Nat)) (points : List (Fin d → ℝ))
    (hd : d ≠ 1 → HullOf points (delaunay points)) (msk : List Bool) (h : innerPointsMask delaunay points = .ok msk) :
    msk.length = points.length ∧
    (∀ (i : Nat) (p : Fin d → ℝ), points[i]? = some p → msk[i]? = some false → EdgePoint {q | q ∈ points} p) ∧
    ∀ p ∈ points, p ∈ convexHull ℝ {q | ∃ i : Nat, points[i]? = some q ∧ msk[i]? = some false} := by
  by_cases h1 : d = 1
  · subst h1
    unfold innerPointsMask at h
    rw [dif_pos rfl] at h
    split at h
    case isFalse => cases h
    case isTrue hs =>
    split at h
    case isTrue => cases h
    case isFalse hl =>
    cases h
    rw [diffs_sorted, List.pairwise_map] at hs
    have hn : 0 < points.length := Nat.pos_of_ne_zero hl
    have hle : ∀ (i j : Nat) (hi : i < points.length) (hj : j < points.length), i ≤ j → points[i] 0 ≤ points[j] 0 := by
      intro i j hi hj hij
      rcases Nat.lt_or_eq_of_le hij with h | h
      · exact List.pairwise_iff_getElem.1 hs i j hi hj h
      · subst h; exact le_refl _
    have hm0 : points[0] ∈ {q | ∃ i : Nat, points[i]? = some q ∧
        ((List.replicate points.length true).set 0 false |>.set (points.length - 1) false)[i]? = some false} :=
      ⟨0, List.getElem?_eq_getElem hn, (one_get _ _ hn).2 (.inl rfl)⟩
    have hm1 : points[points.length - 1] ∈ {q | ∃ i : Nat, points[i]? = some q ∧
        ((List.replicate points.length true).set 0 false |>.set (points.length - 1) false)[i]? = some false} :=
      ⟨points.length - 1, List.getElem?_eq_getElem (by omega), (one_get _ _ (by omega)).2 (.inr rfl)⟩
    refine ⟨by simp, ?_, ?_⟩
    · intro i p hp hi
      obtain ⟨hil, rfl⟩ := List.getElem?_eq_some_iff.1 hp
      refine ⟨List.getElem_mem hil, ?_⟩
      rcases (one_get _ _ hil).1 hi with rfl | rfl
      · refine ⟨fun _ => -1, fun e => by simpa using congrFun e 0, ?_⟩
        intro q hq
        obtain ⟨j, hj, rfl⟩ := List.getElem_of_mem hq
        have := hle 0 j hn hj (by omega)
        simp only [Fin.sum_univ_one]; linarith
      · refine ⟨fun _ => 1, fun e => by simpa using congrFun e 0, ?_⟩
        intro q hq
        obtain ⟨j, hj, rfl⟩ := List.getElem_of_mem hq
        have := hle j (points.length - 1) hj hil (by omega)
        simp only [Fin.sum_univ_one]; linarith
    · intro p hp
      obtain ⟨j, hj, rfl⟩ := List.getElem_of_mem hp
      apply segment_subset_convexHull hm0 hm1
      have h0 := hle 0 j hn hj (by omega)
      have h1 := hle j (points.length - 1) hj (by omega) (by omega)
      by_cases hz : points[points.length - 1] 0 = points[0] 0
      · refine ⟨1, 0, by norm_num, le_refl _, by norm_num, ?_⟩
        funext k
        have : k = 0 := Subsingleton.elim _ _
        subst this
        simp; linarith
      · have hpos : (0 : ℝ) < points[points.length - 1] 0 - points[0] 0 := by
          have := hle 0 (points.length - 1) hn (by omega) (by omega)
          rcases lt_or_eq_of_le this with h | h
          · linarith
          · exact absurd h.symm hz
        refine ⟨(points[points.length - 1] 0 - points[j] 0) / (points[points.length - 1] 0 - points[0] 0),
          (points[j] 0 - points[0] 0) / (points[points.length - 1] 0 - points[0] 0),
          div_nonneg (by linarith) hpos.le, div_nonneg (by linarith) hpos.le, ?_, ?_⟩
        · rw [← add_div, div_eq_one_iff_eq hpos.ne']; ring
        · funext k
          have : k = 0 := Subsingleton.elim _ _
          subst this
          simp only [Pi.add_apply, Pi.smul_apply, smul_eq_mul]
          field_simp
          ring
  · obtain ⟨hA, hB⟩ := hd h1
    unfold innerPointsMask at h
    rw [dif_neg h1] at h
    cases h
    have hlen : (putFalse (edgeIdx (delaunay points)) (List.replicate points.length true)).length = points.length := by
      rw [putFalse_length]; simp
    have hget : ∀ i, i < points.length → ((putFalse (edgeIdx (delaunay points)) (List.replicate points.length true))[i]? = some false ↔
        ∃ f ∈ delaunay points, i ∈ f) := by
      intro i hi
      rw [putFalse_get _ _ _ (by simpa using hi), mem_edgeIdx]
      simp [hi]
    refine ⟨hlen, ?_, ?_⟩
    · intro i p hp hi
      obtain ⟨hil, rfl⟩ := List.getElem?_eq_some_iff.1 hp
      obtain ⟨f, hf, hif⟩ := (hget i hil).1 hi
      obtain ⟨p', hp', he⟩ := hA f hf i hif
      rw [List.getElem?_eq_getElem hil] at hp'
      cases hp'
      exact he
    · intro p hp
      refine convexHull_mono ?_ (hB p hp)
      rintro q ⟨f, hf, i, hi, hq⟩
      obtain ⟨hil, rfl⟩ := List.getElem?_eq_some_iff.1 hq
      exact ⟨i, hq, (hget i hil).2 ⟨f, hf, hi⟩⟩

/-- **C152** (inner points, one dimension). When no two points are equal, none of the points kept is an edge point. -/
theorem C152_inner (delaunay : List (Fin 1 → ℝ) → List (List Nat)) (points : List (Fin 1 → ℝ)) (hs : points.Pairwise (fun p q => p 0 < q 0))
    (msk : List Bool) (h : innerPointsMask delaunay points = .ok msk) (i : Nat) (p : Fin 1 → ℝ) (hp : points[i]? = some p)
    (hm : msk[i]? = some true) : ¬ EdgePoint {q | q ∈ points} p := by
  unfold innerPointsMask at h
  rw [dif_pos rfl] at h
  split at h
  case isFalse => cases h
  split at h
  case isTrue => cases h
  case isFalse hl =>
  cases h
  have hn : 0 < points.length := Nat.pos_of_ne_zero hl
  obtain ⟨hil, rfl⟩ := List.getElem?_eq_some_iff.1 hp
  have hne : ¬ (i = 0 ∨ i = points.length - 1) := by
    intro hc
    rw [← one_get points.length i hil, hm] at hc
    cases hc
  have hlt := List.pairwise_iff_getElem.1 hs
  have a1 := hlt 0 i hn hil (by omega)
  have a2 := hlt i (points.length - 1) hil (by omega) (by omega)
  rintro ⟨-, w, hw, he⟩
  have b1 := he _ (List.getElem_mem hn)
  have b2 := he _ (List.getElem_mem (show points.length - 1 < points.length by omega))
  simp only [Fin.sum_univ_one] at b1 b2
  apply hw
  funext k
  have : k = 0 := Subsingleton.elim _ _
  subst this
  rcases lt_trichotomy (w 0) 0 with h | h | h
  · nlinarith
  · exact h
  · nlinarith

/-- **C152** (equal points). With equal end points a point kept can still be an edge point: of `0, 0, 1` the second `0` is
kept. -/
theorem C152_equal_points (delaunay : List (Fin 1 → ℝ) → List (List Nat)) : ∃ msk,
    innerPointsMask delaunay [fun _ => 0, fun _ => 0, fun _ => 1] = .ok msk ∧ msk[1]? = some true ∧
      EdgePoint {q : Fin 1 → ℝ | q ∈ [fun _ => (0 : ℝ), fun _ => 0, fun _ => 1]} (fun _ => 0) := by
  refine ⟨[false, true, false], ?_, rfl, by simp, fun _ => -1, fun e => by simpa using congrFun e 0, ?_⟩
  · simp [innerPointsMask, diffsNonneg]
  · intro q hq
    simp at hq
    rcases hq with rfl | rfl <;> simp

/-- Non-vacuity of `HullOf`: a triangle with its centre, in two dimensions. -/
example : HullOf (d := 2) [![0, 0], ![3, 0], ![0, 3], ![1, 1]] [[0, 1], [1, 2], [2, 0]] := by
  have e0 : EdgePoint {q : Fin 2 → ℝ | q ∈ [![0, 0], ![3, 0], ![0, 3], ![1, 1]]} ![0, 0] :=
    ⟨by simp, ![-1, -1], fun e => by simpa using congrFun e 0, fun q hq => by
      simp at hq; rcases hq with rfl | rfl | rfl | rfl <;> norm_num [Fin.sum_univ_two]⟩
  have e1 : EdgePoint {q : Fin 2 → ℝ | q ∈ [![0, 0], ![3, 0], ![0, 3], ![1, 1]]} ![3, 0] :=
    ⟨by simp, ![1, 0], fun e => by simpa using congrFun e 0, fun q hq => by
      simp at hq; rcases hq with rfl | rfl | rfl | rfl <;> norm_num [Fin.sum_univ_two]⟩
  have e2 : EdgePoint {q : Fin 2 → ℝ | q ∈ [![0, 0], ![3, 0], ![0, 3], ![1, 1]]} ![0, 3] :=
    ⟨by simp, ![0, 1], fun e => by simpa using congrFun e 1, fun q hq => by
      simp at hq; rcases hq with rfl | rfl | rfl | rfl <;> norm_num [Fin.sum_univ_two]⟩
  refine ⟨?_, ?_⟩
  · intro f hf i hi
    simp at hf
    rcases hf with rfl | rfl | rfl <;> simp at hi <;> rcases hi with rfl | rfl
    · exact ⟨_, rfl, e0⟩
    · exact ⟨_, rfl, e1⟩
    · exact ⟨_, rfl, e1⟩
    · exact ⟨_, rfl, e2⟩
    · exact ⟨_, rfl, e2⟩
    · exact ⟨_, rfl, e0⟩
  · intro p hp
    have m0 : (![0, 0] : Fin 2 → ℝ) ∈ {q | ∃ f ∈ [[0, 1], [1, 2], [2, 0]], ∃ i ∈ f, [(![0, 0] : Fin 2 → ℝ), ![3, 0], ![0, 3], ![1, 1]][i]? = some q} :=
      ⟨[0, 1], by simp, 0, by simp, rfl⟩
    have m1 : (![3, 0] : Fin 2 → ℝ) ∈ {q | ∃ f ∈ [[0, 1], [1, 2], [2, 0]], ∃ i ∈ f, [(![0, 0] : Fin 2 → ℝ), ![3, 0], ![0, 3], ![1, 1]][i]? = some q} :=
      ⟨[0, 1], by simp, 1, by simp, rfl⟩
    have m2 : (![0, 3] : Fin 2 → ℝ) ∈ {q | ∃ f ∈ [[0, 1], [1, 2], [2, 0]], ∃ i ∈ f, [(![0, 0] : Fin 2 → ℝ), ![3, 0], ![0, 3], ![1, 1]][i]? = some q} :=
      ⟨[1, 2], by simp, 2, by simp, rfl⟩
    simp only [List.mem_cons, List.not_mem_nil, or_false] at hp
    rcases hp with rfl | rfl | rfl | rfl
    · exact subset_convexHull _ _ m0
    · exact subset_convexHull _ _ m1
    · exact subset_convexHull _ _ m2
    · have hc := convex_convexHull ℝ {q | ∃ f ∈ [[0, 1], [1, 2], [2, 0]], ∃ i ∈ f, [(![0, 0] : Fin 2 → ℝ), ![3, 0], ![0, 3], ![1, 1]][i]? = some q}
      have a := hc (subset_convexHull _ _ m1) (subset_convexHull _ _ m2) (show (0 : ℝ) ≤ 1 / 2 by norm_num) (show (0 : ℝ) ≤ 1 / 2 by norm_num) (by norm_num)
      have b := hc (subset_convexHull _ _ m0) a (show (0 : ℝ) ≤ 1 / 3 by norm_num) (show (0 : ℝ) ≤ 2 / 3 by norm_num) (by norm_num)
      convert b using 1
      funext k
      fin_cases k <;> norm_num

end Pwtools.Inner
