import Verif.Spec.Pbc
import Verif.Props.Cell2
/-!
# C45, C79: nearest neighbours, angles
-/
namespace Pwtools.Cry
open Real Spec

/-! ### C45 -/

variable {K : Type} [LinearOrder K] [Zero K]

theorem argsort_sorted {d : List K} {p : List Nat} (h : IsArgsort d p) :
    p.Pairwise (fun i j => d.getD i 0 ≤ d.getD j 0) := by
  have hlt : ∀ i ∈ p, i < d.length := fun i hi => List.mem_range.1 (h.1.mem_iff.1 hi)
  refine h.2.imp_of_mem ?_
  intro i j hi hj hij
  have h1 := hlt i hi
  have h2 := hlt j hj
  have := hij d[i] d[j] (List.getElem?_eq_getElem h1) (List.getElem?_eq_getElem h2)
  simpa [List.getD_eq_getElem?_getD, List.getElem?_eq_getElem h1, List.getElem?_eq_getElem h2] using this

/-- In a sorted list of candidates without the first `k`, taking `num` gives the nearest. -/
theorem take_nearest (d : List K) (q : List Nat) (cand : Nat → Prop) (num : Nat) (hnd : q.Nodup)
    (hs : q.Pairwise (fun i j => d.getD i 0 ≤ d.getD j 0)) (hm : ∀ i, i ∈ q ↔ i < d.length ∧ cand i) :
    IsNearest d cand num (q.take num) := by
  refine ⟨hnd.sublist (List.take_sublist _ _), fun i hi => (hm i).1 (List.mem_of_mem_take hi),
    hs.sublist (List.take_sublist _ _), ?_, List.length_take_le _ _, ?_⟩
  · intro i hi j hj hc hn
    have hjq : j ∈ q := (hm j).2 ⟨hj, hc⟩
    rw [← List.take_append_drop num q] at hjq hs
    rw [List.mem_append] at hjq
    exact (List.pairwise_append.1 hs).2.2 i hi j (hjq.resolve_left hn)
  · intro hlt j hj hc
    have hjq : j ∈ q := (hm j).2 ⟨hj, hc⟩
    rw [List.length_take] at hlt
    rw [List.take_of_length_le (by omega)]
    exact hjq

/-- **C45** (`num`, where it holds). If the central atom is at distance 0 from itself, all other
atoms are further away, and the symbol of the central atom is not skipped, then the `num` nearest
of the atoms which are not skipped are returned, in order of distance. -/
theorem C45_num_partial (d : List K) (p : List Nat) (hp : IsArgsort d p) (symbols skip : List String) (idx num : Nat)
    (hidx : idx < d.length) (h0 : d.getD idx 0 = 0) (hpos : ∀ i, i < d.length → i ≠ idx → 0 < d.getD i 0)
    (hskip : symbols.getD idx "" ∉ skip) :
    IsNearest d (fun i => i ≠ idx ∧ symbols.getD i "" ∉ skip) num (nnNum p symbols skip num) := by
  have hs := argsort_sorted hp
  have hnd : p.Nodup := hp.1.nodup_iff.2 List.nodup_range
  have hmem : ∀ i, i ∈ p ↔ i < d.length := fun i => by rw [hp.1.mem_iff, List.mem_range]
  -- idx comes first
  obtain ⟨q, rfl⟩ : ∃ q, p = idx :: q := by
    cases p with
    | nil => exact absurd ((hmem idx).2 hidx) (by simp)
    | cons i q =>
      refine ⟨q, ?_⟩
      by_cases hi : i = idx
      · rw [hi]
      · have h1 : idx ∈ q := by
          have := (hmem idx).2 hidx
          rw [List.mem_cons] at this
          exact this.resolve_left (fun h => hi h.symm)
        have h2 := (List.pairwise_cons.1 hs).1 idx h1
        have h3 := hpos i ((hmem i).1 (by simp)) hi
        rw [h0] at h2
        exact absurd h2 (not_le.2 h3)
  unfold nnNum
  rw [List.filter_cons, if_pos (by simpa using hskip), List.drop_succ_cons, List.drop_zero]
  have hidxq : idx ∉ q := (List.nodup_cons.1 hnd).1
  apply take_nearest
  · exact (List.nodup_cons.1 hnd).2.filter _
  · exact (List.pairwise_cons.1 hs).2.filter _
  · intro i
    rw [List.mem_filter]
    constructor
    · rintro ⟨h1, h2⟩
      exact ⟨(hmem i).1 (List.mem_cons_of_mem _ h1), fun h => hidxq (h ▸ h1), by simpa using h2⟩
    · rintro ⟨h1, h2, h3⟩
      have := (hmem i).2 h1
      rw [List.mem_cons] at this
      exact ⟨this.resolve_left h2, by simpa using h3⟩

/-- **C45** (`cutoff`). Exactly the atoms which are not skipped with a distance above 0 and below the
cutoff are returned, each once, in order of distance. -/
theorem C45_cutoff (d : List K) (p : List Nat) (hp : IsArgsort d p) (symbols skip : List String) (cutoff : K) :
    (nnCutoff d p symbols skip cutoff).Nodup ∧
    (nnCutoff d p symbols skip cutoff).Pairwise (fun i j => d.getD i 0 ≤ d.getD j 0) ∧
    ∀ i, i ∈ nnCutoff d p symbols skip cutoff ↔
      i < d.length ∧ 0 < d.getD i 0 ∧ d.getD i 0 < cutoff ∧ symbols.getD i "" ∉ skip := by
  have hs := argsort_sorted hp
  have hnd : p.Nodup := hp.1.nodup_iff.2 List.nodup_range
  refine ⟨hnd.filter _, hs.filter _, fun i => ?_⟩
  unfold nnCutoff
  rw [List.mem_filter, hp.1.mem_iff, List.mem_range]
  simp [and_assoc]

/-- **C45** (`sort=False`). The same atoms, in the order of the structure. -/
theorem C45_unsorted (n : Nat) (ret : List Nat) (h : ∀ i ∈ ret, i < n) :
    (nnUnsorted n ret).Pairwise (· < ·) ∧ ∀ i, i ∈ nnUnsorted n ret ↔ i ∈ ret := by
  refine ⟨List.pairwise_lt_range.filter _, fun i => ?_⟩
  unfold nnUnsorted
  rw [List.mem_filter, List.mem_range]
  simp only [decide_eq_true_eq]
  exact ⟨fun h => h.2, fun hi => ⟨h i hi, hi⟩⟩

/-- **C45** is false if the symbol of the central atom is skipped (as in the last example of the
docstring): then the nearest of the wanted atoms is left out, whatever the distances are. -/
theorem C45_skip_own_symbol (p : List Nat) (symbols skip : List String) (num : Nat) (first : Nat) (rest : List Nat)
    (h : p.filter (fun i => decide (symbols.getD i "" ∉ skip)) = first :: rest) (hnd : p.Nodup) :
    nnNum p symbols skip num = rest.take num ∧ first ∉ nnNum p symbols skip num := by
  have e : nnNum p symbols skip num = rest.take num := by
    unfold nnNum; rw [h]; rfl
  refine ⟨e, ?_⟩
  rw [e]
  intro hc
  have : (first :: rest).Nodup := h ▸ hnd.filter _
  exact (List.nodup_cons.1 this).1 (List.mem_of_mem_take hc)

/-- **C45** counterexample: Ca at distance 0, O at distances 1 and 2. The nearest O is asked for,
the other one is returned. -/
theorem C45_counterexample :
    IsArgsort ([0, 1, 2] : List Nat) [0, 1, 2] ∧ nnNum [0, 1, 2] ["Ca", "O", "O"] ["Ca"] 1 = [2] ∧
    ¬ IsNearest ([0, 1, 2] : List Nat) (fun i => i ≠ 0 ∧ ["Ca", "O", "O"].getD i "" ∉ ["Ca"]) 1
      (nnNum [0, 1, 2] ["Ca", "O", "O"] ["Ca"] 1) := by
  have e : nnNum [0, 1, 2] ["Ca", "O", "O"] ["Ca"] 1 = [2] := by decide
  refine ⟨⟨by decide, ?_⟩, e, ?_⟩
  · simp
  · rw [e]
    intro h
    have := h.2.2.2.1 2 (by simp) 1 (by simp) ⟨by decide, by decide⟩ (by simp)
    simp at this

/-- Non-vacuity: distances 0, 3, 1, 2 from atom 0. -/
example : IsArgsort ([0, 3, 1, 2] : List Nat) [0, 2, 3, 1] ∧ nnNum [0, 2, 3, 1] ["Ca", "O", "H", "O"] ["H"] 1 = [3] ∧
    nnCutoff [0, 3, 1, 2] [0, 2, 3, 1] ["Ca", "O", "H", "O"] [] 3 = [2, 3] := by
  refine ⟨⟨by decide, by simp⟩, by decide, by decide⟩

/-! ### C79 -/

/-- A triple of different atoms. -/
def Triple {n : Nat} (i j k : Fin n) : Prop := i ≠ j ∧ i ≠ k ∧ j ≠ k

/-- The cosine of the angle at atom `i`. -/
noncomputable def cosAt {n : Nat} (dv : Fin n → Fin n → V3) (i j k : Fin n) : ℝ :=
  dot (dv i j) (dv i k) / norm (dv i j) / norm (dv i k)

theorem cosAt_range {n : Nat} (dv : Fin n → Fin n → V3) (i j k : Fin n) : |cosAt dv i j k| ≤ 1 := by
  unfold cosAt
  have h := abs_dot_le (dv i j) (dv i k)
  have n1 : 0 ≤ norm (dv i j) := Real.sqrt_nonneg _
  have n2 : 0 ≤ norm (dv i k) := Real.sqrt_nonneg _
  rw [div_div, abs_div, abs_of_nonneg (mul_nonneg n1 n2)]
  exact div_le_one_of_le₀ h (mul_nonneg n1 n2)

/-- **C79** (cosines, `deg=False`). With a `mask_val` outside [-1,1] the result is the cosine of the
angle at the first atom for triples of different atoms, and `mask_val` for all others. -/
theorem C79_cosines {n : Nat} (dv : Fin n → Fin n → V3) (maskVal eps : ℝ) (hm : maskVal < -1 ∨ 1 < maskVal) :
    ∃ a, angles dv (fun i j => norm (dv i j)) maskVal false eps = some a ∧
      (∀ i j k, Triple i j k → a i j k = cosAt dv i j k ∧ -1 ≤ a i j k ∧ a i j k ≤ 1) ∧
      (∀ i j k, a i j k = a i k j) ∧ (∀ i j k, a i j k ≠ maskVal ↔ Triple i j k) := by
  classical
  have hno : ¬ (-1 ≤ maskVal ∧ maskVal ≤ 1) := by rcases hm with h | h <;> rintro ⟨h1, h2⟩ <;> linarith
  refine ⟨cang dv (fun i j => norm (dv i j)) maskVal, ?_, ?_, ?_, ?_⟩
  · unfold angles
    simp only [Bool.false_eq_true, if_false]
    rw [if_neg hno]
  · intro i j k ht
    have hr := abs_le.1 (cosAt_range dv i j k)
    simp only [Triple] at ht
    simp only [cang, if_pos ht]
    exact ⟨rfl, hr.1, hr.2⟩
  · intro i j k
    unfold cang
    by_cases ht : i ≠ j ∧ i ≠ k ∧ j ≠ k
    · rw [if_pos ht, if_pos ⟨ht.2.1, ht.1, ht.2.2.symm⟩]
      rw [show dot (dv i j) (dv i k) = dot (dv i k) (dv i j) by simp [dot3]; ring]
      rw [div_div, div_div, mul_comm]
    · rw [if_neg ht, if_neg (fun h => ht ⟨h.2.1, h.1, h.2.2.symm⟩)]
  · intro i j k
    unfold cang
    by_cases ht : i ≠ j ∧ i ≠ k ∧ j ≠ k
    · have hr := abs_le.1 (cosAt_range dv i j k)
      rw [if_pos ht]
      refine ⟨fun _ => ht, fun _ => ?_⟩
      change cosAt dv i j k ≠ maskVal
      rcases hm with h | h
      · exact ne_of_gt (by linarith [hr.1])
      · exact ne_of_lt (by linarith [hr.2])
    · rw [if_neg ht]
      exact ⟨fun h => absurd rfl h, fun h => absurd h ht⟩

/-- Clamping and conversion to degrees, one entry. -/
noncomputable def degOf (eps c : ℝ) : ℝ :=
  Real.arccos (if c > 1 - eps then 1 else if c < -(1 - eps) then -1 else c) * 180 / Real.pi

theorem degOf_range (eps c : ℝ) : 0 ≤ degOf eps c ∧ degOf eps c ≤ 180 := by
  unfold degOf
  have hpi := Real.pi_pos
  constructor
  · exact div_nonneg (mul_nonneg (Real.arccos_nonneg _) (by norm_num)) hpi.le
  · rw [div_le_iff₀ hpi, mul_comm]
    exact mul_le_mul_of_nonneg_left (Real.arccos_le_pi _) (by norm_num)

/-- **C79** (degrees, where it holds). With a `mask_val` outside of both [0,180] and [-1,1]: triples of
different atoms have an angle in [0,180], the same if the outer atoms are swapped; it is the angle
between the two distance vectors, except that cosines within `eps` of ±1 count as ±1; all other
entries, and only those, are `mask_val`. -/
theorem C79_degrees_partial {n : Nat} (dv : Fin n → Fin n → V3) (maskVal eps : ℝ) (he : 0 < eps) (he1 : eps < 1)
    (hm : maskVal < -1 ∨ 180 < maskVal) :
    ∃ a, angles dv (fun i j => norm (dv i j)) maskVal true eps = some a ∧
      (∀ i j k, Triple i j k → 0 ≤ a i j k ∧ a i j k ≤ 180 ∧
        (|cosAt dv i j k| ≤ 1 - eps → a i j k = angle (dv i j) (dv i k)) ∧
        (1 - eps < cosAt dv i j k → a i j k = 0) ∧ (cosAt dv i j k < -(1 - eps) → a i j k = 180)) ∧
      (∀ i j k, a i j k = a i k j) ∧ (∀ i j k, a i j k ≠ maskVal ↔ Triple i j k) := by
  classical
  have hno : ¬ (0 ≤ maskVal ∧ maskVal ≤ 180) := by rcases hm with h | h <;> rintro ⟨h1, h2⟩ <;> linarith
  have hval : ∀ i j k, Triple i j k → cosAt dv i j k ≠ maskVal := by
    intro i j k _
    have hr := abs_le.1 (cosAt_range dv i j k)
    rcases hm with h | h
    · exact ne_of_gt (by linarith [hr.1])
    · exact ne_of_lt (by linarith [hr.2])
  have m1 : (1:ℝ) ≠ maskVal := by rcases hm with h | h <;> intro hc <;> linarith
  have m2 : (-1:ℝ) ≠ maskVal := by rcases hm with h | h <;> intro hc <;> linarith
  -- the result, entry by entry
  obtain ⟨a, ha, hav⟩ : ∃ a, angles dv (fun i j => norm (dv i j)) maskVal true eps = some a ∧
      ∀ i j k, a i j k = if Triple i j k then degOf eps (cosAt dv i j k) else maskVal := by
    refine ⟨fun i j k => angDeg maskVal eps (cang dv (fun i j => norm (dv i j)) maskVal i j k), ?_, ?_⟩
    · unfold angles
      simp only [if_true]
      rw [if_neg hno]
    · intro i j k
      by_cases ht : Triple i j k
      · have ht' : i ≠ j ∧ i ≠ k ∧ j ≠ k := ht
        have hv := hval i j k ht
        have e : dot (dv i j) (dv i k) / norm (dv i j) / norm (dv i k) = cosAt dv i j k := rfl
        simp only [cang, angDeg, if_pos ht', if_pos ht, e]
        unfold degOf
        by_cases h1 : cosAt dv i j k > 1 - eps
        · have hn1 : ¬ ((1:ℝ) < -(1 - eps)) := by linarith
          simp only [hv, ne_eq, not_false_eq_true, true_and, h1, if_true, m1, hn1, and_false, if_false]
        · by_cases h2 : cosAt dv i j k < -(1 - eps)
          · simp only [hv, ne_eq, not_false_eq_true, true_and, h1, if_false, h2, if_true, m2]
          · simp only [hv, ne_eq, not_false_eq_true, true_and, h1, if_false, h2, if_true]
      · have ht' : ¬ (i ≠ j ∧ i ≠ k ∧ j ≠ k) := ht
        simp only [cang, angDeg, if_neg ht', if_neg ht, ne_eq, not_true_eq_false, false_and, if_false]
  have hsym : ∀ i j k, cosAt dv i j k = cosAt dv i k j := by
    intro i j k
    unfold cosAt
    rw [show dot (dv i j) (dv i k) = dot (dv i k) (dv i j) by simp [dot3]; ring]
    rw [div_div, div_div, mul_comm]
  refine ⟨a, ha, ?_, ?_, ?_⟩
  · intro i j k ht
    rw [hav, if_pos ht]
    refine ⟨(degOf_range _ _).1, (degOf_range _ _).2, ?_, ?_, ?_⟩
    · intro h
      have := abs_le.1 h
      unfold degOf
      rw [if_neg (by linarith [this.2]), if_neg (by linarith [this.1])]
      rfl
    · intro h
      unfold degOf
      rw [if_pos h, Real.arccos_one]; simp
    · intro h
      unfold degOf
      rw [if_neg (by linarith), if_pos h, Real.arccos_neg_one]
      field_simp
  · intro i j k
    rw [hav, hav]
    by_cases ht : Triple i j k
    · rw [if_pos ht, if_pos (show Triple i k j from ⟨ht.2.1, ht.1, ht.2.2.symm⟩), hsym]
    · rw [if_neg ht, if_neg (show ¬ Triple i k j from fun h => ht ⟨h.2.1, h.1, h.2.2.symm⟩)]
  · intro i j k
    rw [hav]
    by_cases ht : Triple i j k
    · rw [if_pos ht]
      refine ⟨fun _ => ht, fun _ => ?_⟩
      have := degOf_range eps (cosAt dv i j k)
      rcases hm with h | h
      · exact ne_of_gt (by linarith [this.1])
      · exact ne_of_lt (by linarith [this.2])
    · rw [if_neg ht]
      exact ⟨fun h => absurd rfl h, fun h => absurd h ht⟩

/-- **C79** (rejected mask values). -/
theorem C79_assert {n : Nat} (dv : Fin n → Fin n → V3) (dists : Fin n → Fin n → ℝ) (maskVal eps : ℝ) :
    (angles dv dists maskVal true eps = none ↔ 0 ≤ maskVal ∧ maskVal ≤ 180) ∧
    (angles dv dists maskVal false eps = none ↔ -1 ≤ maskVal ∧ maskVal ≤ 1) := by
  classical
  constructor
  · unfold angles
    simp only [if_true]
    split <;> simp_all
  · unfold angles
    simp only [Bool.false_eq_true, if_false]
    split <;> simp_all

/-- **C79** is false for `deg=True` and a `mask_val` in [-1,0), which is accepted: with `mask_val=-1` the
angle of three atoms on a line (180 degrees) comes out as `-1`, as if the triple were degenerate.
Atom 0 is between atoms 1 and 2. -/
theorem C79_mask_counterexample :
    ∃ (dv : Fin 3 → Fin 3 → V3) (a : Fin 3 → Fin 3 → Fin 3 → ℝ),
      angles dv (fun i j => norm (dv i j)) (-1) true (2.2e-16) = some a ∧ Triple (0 : Fin 3) 1 2 ∧
      angle (dv 0 1) (dv 0 2) = 180 ∧ a 0 1 2 = -1 := by
  classical
  let pos : Fin 3 → V3 := ![![0, 0, 0], ![1, 0, 0], ![-1, 0, 0]]
  let dv : Fin 3 → Fin 3 → V3 := fun i j k => pos i k - pos j k
  have n1 : norm (dv 0 1) = 1 := by simp [norm, dot3, dv, pos]
  have n2 : norm (dv 0 2) = 1 := by simp [norm, dot3, dv, pos]
  have d12 : dot (dv 0 1) (dv 0 2) = -1 := by simp [dot3, dv, pos]
  refine ⟨dv, fun i j k => angDeg (-1) (2.2e-16) (cang dv (fun i j => norm (dv i j)) (-1) i j k), ?_, ?_, ?_, ?_⟩
  · unfold angles
    simp only [if_true]
    rw [if_neg (by norm_num)]
  · exact ⟨by decide, by decide, by decide⟩
  · simp only [angle, n1, n2, d12]
    norm_num
  · have ht : (0 : Fin 3) ≠ 1 ∧ (0 : Fin 3) ≠ 2 ∧ (1 : Fin 3) ≠ 2 := by decide
    simp only [angDeg, cang, if_pos ht, n1, n2, d12]
    norm_num

end Pwtools.Cry
