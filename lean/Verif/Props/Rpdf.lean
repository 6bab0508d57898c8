import Verif.Model.Rpdf
import Verif.Spec.Rpdf
import Verif.Props.Pbc
import Mathlib.Algebra.BigOperators.Field
import Mathlib.Tactic.Linarith
import Mathlib.Tactic.NormNum
/-!
# C52, C78: `rpdf`
-/
namespace Pwtools.Rp
open Pwtools.Cry Pwtools.Spec

theorem vectors_iff {T A B : Nat} (pbc : Bool) (x : Fin T → Fin A → V3) (y : Fin T → Fin B → V3)
    (u : (Fin T × Fin A × Fin B × Fin 3) → ℝ) :
    Vectors pbc x y u ↔ ∀ t i j, DistVecFrac pbc (x t i) (y t j) (fun k => u (t, i, j, k)) := by
  cases pbc
  · simp only [Vectors, DistVecFrac, Bool.false_eq_true, if_false]
    constructor
    · rintro rfl t i j; rfl
    · intro h
      funext ⟨t, i, j, k⟩
      exact congrFun (h t i j) k
  · simp only [Vectors, DistVecFrac, if_true, C36_agree]
    constructor
    · intro h t i j k; exact h (t, i, j, k)
    · rintro h ⟨t, i, j, k⟩; exact h t i j k

/-- The distances used are those of `distances`. -/
theorem distsAll_eq {T A B : Nat} {cell : Cell} {pbc : Bool} {x : Fin T → Fin A → V3} {y : Fin T → Fin B → V3}
    {u : (Fin T × Fin A × Fin B × Fin 3) → ℝ} (h : Vectors pbc x y u)
    {d : Fin T → Fin A → Fin B → ℝ} (hd : ∀ t i j, IsDist cell pbc (x t i) (y t j) (d t i j)) :
    (fun t i j => distsAll cell u t i j) = d := by
  funext t i j
  obtain ⟨r, _, hr⟩ := C37_dist_exists cell pbc (x t i) (y t j)
  rw [hr (d t i j) (hd t i j)]
  exact hr _ ⟨_, (vectors_iff pbc x y u).1 h t i j, rfl⟩

theorem nbins_eq (dr rmax : ℝ) (h : 0 < dr) (hr : 0 ≤ rmax) : nbins dr rmax = ⌈rmax / dr⌉₊ := by
  unfold nbins
  rw [add_div, div_self h.ne', Nat.ceil_add_one (by positivity)]
  simp

theorem nbins_le {dr rmax : ℝ} (h : 0 < dr) (hr : 0 ≤ rmax) : rmax ≤ nbins dr rmax * dr := by
  rw [nbins_eq dr rmax h hr]
  have := Nat.le_ceil (rmax / dr)
  rwa [div_le_iff₀ h] at this

/-- One bin of the histogram, in terms of the distances before masking. -/
theorem hist_eq {A B : Nat} {dr rmax : ℝ} (h : 0 < dr) (hr : 0 < rmax) (dmask : Option (ℝ → Prop))
    (d : Fin A → Fin B → ℝ) (k : Nat) (hk : 1 ≤ k) :
    hist dr (nbins dr rmax) (fun i j => maskDist rmax dmask (d i j)) k =
      pairs d (fun r => k * dr ≤ r ∧ r < (k + 1) * dr ∧ r < rmax ∧ maskOk dmask r) := by
  classical
  unfold hist pairs
  rw [if_neg (by omega)]
  congr 2
  ext ⟨i, j⟩
  simp only [Set.mem_setOf_eq, edge]
  have hkd : 0 < (k:ℝ) * dr := mul_pos (by exact_mod_cast hk) h
  have hlast : k + 1 = nbins dr rmax → rmax ≤ ((k + 1 : Nat) : ℝ) * dr := by
    intro e; rw [e]; exact nbins_le h hr.le
  generalize d i j = r
  push_cast at hlast ⊢
  have key : ∀ v, (k:ℝ) * dr ≤ v → v = maskDist rmax dmask r → v = r ∧ r < rmax ∧ maskOk dmask r := by
    intro v hv e
    unfold maskDist at e
    have hv0 : v ≠ 0 := by intro e0; rw [e0] at hv; linarith
    simp only at e
    by_cases h1 : r ≥ rmax
    · rw [if_pos h1] at e
      exfalso
      cases dmask with
      | none => exact hv0 e
      | some p =>
        simp only at e
        split at e <;> exact hv0 e
    · rw [if_neg h1] at e
      cases dmask with
      | none => exact ⟨e, not_le.1 h1, by intro p hp; cases hp⟩
      | some p =>
        simp only at e
        split at e
        · rename_i hp
          exact ⟨e, not_le.1 h1, by intro q hq; cases hq; exact hp⟩
        · exact absurd e hv0
  constructor
  · rintro ⟨h1, h2⟩
    obtain ⟨e, h3, h4⟩ := key _ h1 rfl
    rw [e] at h1 h2
    refine ⟨h1, ?_, h3, h4⟩
    rcases h2 with h2 | ⟨h5, h6⟩
    · exact h2
    · have := hlast h5
      linarith
  · rintro ⟨h1, h2, h3, h4⟩
    have e : maskDist rmax dmask r = r := by
      unfold maskDist
      simp only
      rw [if_neg (not_le.2 h3)]
      cases dmask with
      | none => rfl
      | some p => simp only; rw [if_pos (h4 p rfl)]
    rw [e]
    exact ⟨h1, Or.inl h2⟩

/-- Sum of the bins up to `k`. -/
theorem hist_sum {A B : Nat} {dr rmax : ℝ} (h : 0 < dr) (hr : 0 < rmax) (dmask : Option (ℝ → Prop))
    (d : Fin A → Fin B → ℝ) (k : Nat) :
    ∑ m ∈ Finset.range (k + 1), hist dr (nbins dr rmax) (fun i j => maskDist rmax dmask (d i j)) m =
      pairs d (fun r => dr ≤ r ∧ r < (k + 1) * dr ∧ r < rmax ∧ maskOk dmask r) := by
  classical
  induction k with
  | zero =>
    rw [Finset.sum_range_one]
    unfold hist pairs
    rw [if_pos rfl, eq_comm, Nat.cast_eq_zero, Set.ncard_eq_zero, Set.eq_empty_iff_forall_notMem]
    rintro p ⟨h1, h2, _⟩
    push_cast at h2
    linarith
  | succ k ih =>
    rw [Finset.sum_range_succ, ih, hist_eq h hr dmask d (k + 1) (by omega)]
    unfold pairs
    rw [← Nat.cast_add, ← Set.ncard_union_eq]
    · congr 2
      ext p
      simp only [Set.mem_union, Set.mem_setOf_eq]
      push_cast
      have hk1 : dr ≤ ((k:ℝ) + 1) * dr := by nlinarith [Nat.cast_nonneg (α := ℝ) k]
      constructor
      · rintro (⟨h1, h2, h3⟩ | ⟨h1, h2, h3⟩)
        · exact ⟨h1, by linarith, h3⟩
        · exact ⟨by linarith, h2, h3⟩
      · rintro ⟨h1, h2, h3⟩
        by_cases hc : d p.1 p.2 < ((k:ℝ) + 1) * dr
        · exact Or.inl ⟨h1, hc, h3⟩
        · exact Or.inr ⟨not_lt.1 hc, h2, h3⟩
    · rw [Set.disjoint_left]
      rintro p ⟨_, h1, _⟩ ⟨h2, _⟩
      push_cast at h2
      linarith

/-- The specification's image distance in terms of the model. -/
theorem imageDist_eq (cell : Cell) (x y : V3) (n : Fin 3 → Int) :
    imageDist cell x y n = Cry.norm (frac2cart cell (image x y n)) := by
  unfold imageDist Cry.norm dot frac2cart image Matrix.vecMul dotProduct
  congr 1
  apply Finset.sum_congr rfl
  intro k _; ring

section
variable {T A B : Nat} {cell : Cell} {volume : ℝ} {x : Fin T → Fin A → V3} {y : Fin T → Fin B → V3}
  {dr : ℝ} {rmax : Option ℝ} {dmask : Option (ℝ → Prop)} {pbc normVmd : Bool} {eps : ℝ}
  {out : List (ℝ × ℝ × ℝ)}

/-- **C52** (a result exists and is unique). -/
theorem C52_total : ∃! out, IsRpdf cell volume x y dr rmax dmask pbc normVmd eps out := by
  have : ∃ u, Vectors pbc x y u := by
    cases pbc
    · exact ⟨_, rfl⟩
    · obtain ⟨u, hu, _⟩ := C36_min_image
        (fun q : Fin T × Fin A × Fin B × Fin 3 => x q.1 q.2.1 q.2.2.2 - y q.1 q.2.2.1 q.2.2.2)
      exact ⟨u, by simpa [Vectors] using hu⟩
  obtain ⟨u, hu⟩ := this
  refine ⟨_, ⟨u, hu, rfl⟩, ?_⟩
  rintro out ⟨v, hv, rfl⟩
  have hd : ∀ t i j, ∃ r, IsDist cell pbc (x t i) (y t j) r := fun t i j =>
    (C37_dist_exists cell pbc (x t i) (y t j)).exists
  choose d hd using hd
  have e1 := distsAll_eq hu hd
  have e2 := distsAll_eq hv hd
  have e : ∀ t i j, distsAll cell v t i j = distsAll cell u t i j := by
    intro t i j
    have := congrFun (congrFun (congrFun (e2.trans e1.symm) t) i) j
    exact this
  simp only [e]

/-- **C52** (bins). With `dr > 0` and `rmax > 0` the result has one row for each bin; the bins have
width `dr` and cover `[0, rmax)`, the last one contains the part next to `rmax`. Row `k ≥ 1` gives the
mean radius of the shell and the average over the time steps of the number of pairs in this shell,
below `rmax` and allowed by the mask, each with its minimum image distance `d` (as computed by
`distances`), divided by what `A*B` (minus `dups`) pairs with uniform density would give; row 0 is always empty. -/
theorem C52_bins (h : IsRpdf cell volume x y dr rmax dmask pbc normVmd eps out)
    (hdr : 0 < dr) (hr : 0 < rmax.getD (rmaxSmith cell))
    (d : Fin T → Fin A → Fin B → ℝ) (hd : ∀ t i j, IsDist cell pbc (x t i) (y t j) (d t i j)) :
    0 < out.length ∧ (out.length - 1 : ℝ) * dr < rmax.getD (rmaxSmith cell) ∧
    rmax.getD (rmaxSmith cell) ≤ out.length * dr ∧
    ∀ (k : Nat) (hk : k < out.length), (out[k]).1 = (k + 1 / 2) * dr ∧
      (k = 0 → (out[k]).2.1 = 0) ∧
      (1 ≤ k → (out[k]).2.1 = (∑ t, pairs (d t) (fun r => k * dr ≤ r ∧ r < (k + 1) * dr ∧
          r < rmax.getD (rmaxSmith cell) ∧ maskOk dmask r) /
        ((A * B - if normVmd then pairs (d t) (fun r => r < eps) else 0) *
          (4 / 3 * Real.pi * (((k + 1) * dr) ^ 3 - (k * dr) ^ 3)) / volume)) / T) := by
  classical
  obtain ⟨u, hu, rfl⟩ := h
  have e := distsAll_eq (cell := cell) hu hd
  set rm := rmax.getD (rmaxSmith cell) with hrm
  have hnb := nbins_eq dr rm hdr hr.le
  have hpos : 0 < nbins dr rm := by rw [hnb]; exact Nat.ceil_pos.2 (div_pos hr hdr)
  simp only [List.length_map, List.length_range]
  refine ⟨hpos, ?_, nbins_le hdr hr.le, ?_⟩
  · have := Nat.ceil_lt_add_one (div_pos hr hdr).le
    rw [← hnb] at this
    rw [← lt_div_iff₀ hdr]
    linarith
  · intro k hk
    simp only [List.getElem_map, List.getElem_range]
    have e' : ∀ t i j, distsAll cell u t i j = d t i j := fun t i j =>
      congrFun (congrFun (congrFun e t) i) j
    refine ⟨?_, ?_, ?_⟩
    · simp only [row, edge]; ring
    · rintro rfl
      simp [row, hist]
    · intro hk1
      simp only [row, e']
      congr 1
      apply Finset.sum_congr rfl
      intro t _
      rw [hist_eq hdr hr dmask (d t) k hk1]
      have e3 : dups normVmd eps (d t) = if normVmd then pairs (d t) (fun r => r < eps) else 0 := by
        unfold dups pairs; rfl
      rw [e3]
      simp only [edge]
      push_cast
      rw [div_eq_mul_inv (pairs _ _)]
      congr 1
      rw [inv_div, div_div, mul_comm (4 / 3 * _ * _)]

/-- **C52** (number integral). Row `k` of the last column is the average (over steps and over the
atoms of the first selection) of the number of pairs with `dr ≤ d < (k+1)·dr`, below `rmax` and
allowed by the mask. -/
theorem C52_number_integral (h : IsRpdf cell volume x y dr rmax dmask pbc normVmd eps out)
    (hdr : 0 < dr) (hr : 0 < rmax.getD (rmaxSmith cell))
    (d : Fin T → Fin A → Fin B → ℝ) (hd : ∀ t i j, IsDist cell pbc (x t i) (y t j) (d t i j))
    (k : Nat) (hk : k < out.length) :
    (out[k]).2.2 = (∑ t, pairs (d t) (fun r => dr ≤ r ∧ r < (k + 1) * dr ∧
      r < rmax.getD (rmaxSmith cell) ∧ maskOk dmask r)) / (A * T) := by
  obtain ⟨u, hu, rfl⟩ := h
  have e := distsAll_eq (cell := cell) hu hd
  have e' : ∀ t i j, distsAll cell u t i j = d t i j := fun t i j =>
    congrFun (congrFun (congrFun e t) i) j
  simp only [List.getElem_map, List.getElem_range, row, e']
  rw [← div_div, Finset.sum_div _ _ (A : ℝ)]
  congr 1
  apply Finset.sum_congr rfl
  intro t _
  rw [hist_sum hdr hr dmask (d t) k]

/-- **C52** (partial: pairs closer than `dr` are missing). The number integral at the largest radius is
the average number of pairs per atom of the first selection with `dr ≤ d < rmax` (and allowed by the mask). -/
theorem C52_largest_radius_partial (h : IsRpdf cell volume x y dr rmax dmask pbc normVmd eps out)
    (hdr : 0 < dr) (hr : 0 < rmax.getD (rmaxSmith cell))
    (d : Fin T → Fin A → Fin B → ℝ) (hd : ∀ t i j, IsDist cell pbc (x t i) (y t j) (d t i j))
    (hne : out ≠ []) :
    (out.getLast hne).2.2 = (∑ t, pairs (d t) (fun r => dr ≤ r ∧
      r < rmax.getD (rmaxSmith cell) ∧ maskOk dmask r)) / (A * T) := by
  obtain ⟨hpos, _, hle, _⟩ := C52_bins h hdr hr d hd
  rw [List.getLast_eq_getElem, C52_number_integral h hdr hr d hd]
  congr 1
  apply Finset.sum_congr rfl
  intro t _
  unfold pairs
  congr 2
  ext p
  simp only [Set.mem_setOf_eq]
  have : ((out.length - 1 : Nat) : ℝ) + 1 = out.length := by
    have : out.length - 1 + 1 = out.length := by omega
    exact_mod_cast this
  rw [this]
  constructor
  · rintro ⟨h1, _, h3⟩; exact ⟨h1, h3⟩
  · rintro ⟨h1, h2, h3⟩; exact ⟨h1, lt_of_lt_of_le h2 hle, h2, h3⟩

/-- **C52** (same selection). If both selections are the same atoms and no two different atoms are
closer than `dr`, the number integral at the largest radius is the average number of other atoms closer
than `rmax`. -/
theorem C52_neighbours {x : Fin T → Fin A → V3}
    {out : List (ℝ × ℝ × ℝ)} (h : IsRpdf cell volume x x dr rmax none pbc normVmd eps out)
    (hdr : 0 < dr) (hr : 0 < rmax.getD (rmaxSmith cell))
    (d : Fin T → Fin A → Fin A → ℝ) (hd : ∀ t i j, IsDist cell pbc (x t i) (x t j) (d t i j))
    (hfar : ∀ t i j, i ≠ j → dr ≤ d t i j)
    (hne : out ≠ []) :
    (out.getLast hne).2.2 = (∑ t, (Set.ncard {p : Fin A × Fin A |
      p.1 ≠ p.2 ∧ ∃ r, IsDist cell pbc (x t p.1) (x t p.2) r ∧ r < rmax.getD (rmaxSmith cell)} : ℝ)) / (A * T) := by
  classical
  rw [C52_largest_radius_partial h hdr hr d hd hne]
  congr 1
  apply Finset.sum_congr rfl
  intro t _
  unfold pairs
  congr 2
  ext ⟨i, j⟩
  simp only [Set.mem_setOf_eq]
  constructor
  · rintro ⟨h1, h2, _⟩
    refine ⟨?_, d t i j, hd t i j, h2⟩
    rintro rfl
    have h0 := (C82_diagonal cell pbc (x t i) (x t i) _ (hd t i i)).2
    have := (C37_dist_exists cell pbc (x t i) (x t i)).unique h0 (hd t i i)
    rw [← this] at h1
    linarith
  · rintro ⟨h1, r, h2, h3⟩
    have := (C37_dist_exists cell pbc (x t i) (x t j)).unique h2 (hd t i j)
    exact ⟨hfar t i j h1, by rw [← this]; exact h3, by intro p hp; cases hp⟩

/-- **C52** (periodic images). With the minimum image convention and `rmax` at most the radius of
`rmax_smith` (the default), the pairs counted are exactly the pairs with a periodic image in the shell,
and each pair has at most one image closer than `rmax`: the number integral counts all images. -/
theorem C52_images (h : IsRpdf cell volume x y dr rmax none true normVmd eps out)
    (hdet : cell.det ≠ 0)
    (hdr : 0 < dr) (hr : 0 < rmax.getD (rmaxSmith cell))
    (hsm : rmax.getD (rmaxSmith cell) ≤ rmaxSmith cell)
    (k : Nat) (hk : k < out.length) :
    (out[k]).2.2 = (∑ t, (Set.ncard {p : Fin A × Fin B × (Fin 3 → Int) |
      dr ≤ imageDist cell (x t p.1) (y t p.2.1) p.2.2 ∧ imageDist cell (x t p.1) (y t p.2.1) p.2.2 < (k + 1) * dr ∧
      imageDist cell (x t p.1) (y t p.2.1) p.2.2 < rmax.getD (rmaxSmith cell)} : ℝ)) / (A * T) := by
  classical
  have hd : ∀ t i j, ∃ r, IsDist cell true (x t i) (y t j) r := fun t i j =>
    (C37_dist_exists cell true (x t i) (y t j)).exists
  choose d hd using hd
  rw [C52_number_integral h hdr hr d hd k hk]
  congr 1
  apply Finset.sum_congr rfl
  intro t _
  unfold pairs
  congr 1
  -- the image of a pair with its distance
  have hmin : ∀ i j, ∃ n : Fin 3 → Int, d t i j = imageDist cell (x t i) (y t j) n := by
    intro i j
    obtain ⟨v, hv, e⟩ := hd t i j
    simp only [DistVecFrac, if_true] at hv
    have : ∀ k, ∃ n : Int, v k = x t i k - y t j k + n := fun k => ((minImageF_char _ _).1 (hv k)).2
    choose n hn using this
    refine ⟨n, ?_⟩
    rw [e, imageDist_eq]
    unfold distOf Cry.norm dot image
    have : v = fun k => x t i k - y t j k + (n k : ℝ) := funext hn
    rw [this]
    congr 1
    apply Finset.sum_congr rfl
    intro k _; ring
  choose n hn using hmin
  symm
  apply Set.ncard_congr (fun p _ => (p.1, p.2.1))
  · rintro ⟨i, j, m⟩ ⟨h1, h2, h3⟩
    have he := (C37_exact cell hdet (x t i) (y t j) m
      (by rw [← imageDist_eq]; exact lt_of_lt_of_le h3 hsm)).1 _ (hd t i j)
    have he' : d t i j = imageDist cell (x t i) (y t j) m := by rw [imageDist_eq]; exact he
    simp only [Set.mem_setOf_eq]
    simp only at h1 h2 h3
    rw [he']
    exact ⟨h1, h2, h3, by intro p hp; cases hp⟩
  · rintro ⟨i, j, m⟩ ⟨i', j', m'⟩ ⟨_, _, h3⟩ ⟨_, _, h3'⟩ he
    simp only [Prod.mk.injEq] at he
    obtain ⟨rfl, rfl⟩ := he
    simp only [imageDist_eq] at h3 h3'
    have := (C37_exact cell hdet (x t i) (y t j) m (lt_of_lt_of_le h3 hsm)).2 m'
    by_cases hm : m' = m
    · rw [hm]
    · exact absurd (lt_of_lt_of_le h3' hsm) (not_lt.2 (this hm))
  · rintro ⟨i, j⟩ hp
    simp only [Set.mem_setOf_eq] at hp
    obtain ⟨h1, h2, h3, _⟩ := hp
    refine ⟨(i, j, n i j), ?_, rfl⟩
    simp only [Set.mem_setOf_eq]
    rw [← hn i j]
    exact ⟨h1, h2, h3⟩

/-- **C52** (where the code does not do it). Pairs of different atoms closer than `dr` are never
counted: if all pairs are closer than `dr`, the whole number integral is 0. -/
theorem C52_counterexample (h : IsRpdf cell volume x y dr rmax dmask pbc normVmd eps out)
    (hdr : 0 < dr) (hr : 0 < rmax.getD (rmaxSmith cell))
    (hclose : ∀ t i j r, IsDist cell pbc (x t i) (y t j) r → r < dr) :
    ∀ row ∈ out, row.2.2 = 0 := by
  classical
  have hd : ∀ t i j, ∃ r, IsDist cell pbc (x t i) (y t j) r := fun t i j =>
    (C37_dist_exists cell pbc (x t i) (y t j)).exists
  choose d hd using hd
  intro row hrow
  obtain ⟨k, hk, rfl⟩ := List.getElem_of_mem hrow
  rw [C52_number_integral h hdr hr d hd k hk]
  rw [Finset.sum_eq_zero, zero_div]
  intro t _
  unfold pairs
  rw [Nat.cast_eq_zero, Set.ncard_eq_zero, Set.eq_empty_iff_forall_notMem]
  rintro p ⟨h1, _⟩
  exact absurd (hclose t p.1 p.2 _ (hd t p.1 p.2)) (not_lt.2 h1)
end

/-! Non-vacuity: a unit cube with atoms at 0 and (1/4, 0, 0), radius `'auto'` = 1/2. -/

theorem exSmith : rmaxSmith (1 : Cell) = 1 / 2 := by
  simp [rmaxSmith, Cry.norm, dot3, cross, Matrix.one_apply]

theorem exDist : IsDist (1 : Cell) true ![0, 0, 0] ![1/4, 0, 0] (1/4) := by
  refine ⟨![-1/4, 0, 0], ?_, ?_⟩
  · simp only [DistVecFrac, if_true]
    intro k
    rw [minImageF_char]
    fin_cases k
    · exact ⟨by constructor <;> simp <;> norm_num, 0, by simp; norm_num⟩
    · exact ⟨by constructor <;> simp, 0, by simp⟩
    · exact ⟨by constructor <;> simp, 0, by simp⟩
  · unfold distOf
    rw [show (∑ k, frac2cart (1 : Cell) ![-1/4, 0, 0] k ^ 2) = (1/4) ^ 2 by
      simp [frac2cart, Fin.sum_univ_three]; norm_num]
    exact (Real.sqrt_sq (by norm_num)).symm

/-- The hypotheses of `C52_bins`, `C52_number_integral`, `C52_largest_radius_partial`, `C52_images`
hold, and the counted pairs do include this one (with `dr = 1/10`). -/
example : ∃ out, IsRpdf (T := 1) (A := 1) (B := 1) (1 : Cell) 1 (fun _ _ => ![0, 0, 0]) (fun _ _ => ![1/4, 0, 0])
    (1/10) none none true true 0 out ∧ (1 : Cell).det ≠ 0 ∧ (0:ℝ) < 1 / 10 ∧
    0 < (none : Option ℝ).getD (rmaxSmith (1 : Cell)) ∧ ∃ h : out ≠ [], (out.getLast h).2.2 = 1 := by
  obtain ⟨out, h, _⟩ := C52_total (T := 1) (A := 1) (B := 1) (cell := (1 : Cell)) (volume := 1)
    (x := fun _ _ => ![0, 0, 0]) (y := fun _ _ => ![1/4, 0, 0]) (dr := 1/10) (rmax := none) (dmask := none)
    (pbc := true) (normVmd := true) (eps := 0)
  have hr : 0 < (none : Option ℝ).getD (rmaxSmith (1 : Cell)) := by rw [Option.getD_none, exSmith]; norm_num
  have hb := C52_bins h (by norm_num) hr (fun _ _ _ => 1/4) (fun _ _ _ => exDist)
  have hne : out ≠ [] := List.ne_nil_of_length_pos hb.1
  refine ⟨out, h, by simp, by norm_num, hr, hne, ?_⟩
  rw [C52_largest_radius_partial h (by norm_num) hr (fun _ _ _ => 1/4) (fun _ _ _ => exDist) hne]
  have : {p : Fin 1 × Fin 1 | (1/10 : ℝ) ≤ 1/4 ∧ (1/4 : ℝ) < (none : Option ℝ).getD (rmaxSmith (1 : Cell)) ∧
      maskOk none (1/4)} = Set.univ := by
    ext p
    simp only [Set.mem_setOf_eq, Set.mem_univ, iff_true, Option.getD_none, exSmith]
    exact ⟨by norm_num, by norm_num, by intro p hp; cases hp⟩
  simp only [pairs, this]
  simp [Set.ncard_univ]

/-- The hypotheses of `C52_counterexample` hold with `dr = 3/10`, although the pair is closer than `rmax`. -/
example : (∀ r, IsDist (1 : Cell) true ![0, 0, 0] ![1/4, 0, 0] r → r < 3/10) ∧ (1/4 : ℝ) < rmaxSmith (1 : Cell) := by
  refine ⟨fun r hr => ?_, by rw [exSmith]; norm_num⟩
  rw [(C37_dist_exists (1 : Cell) true _ _).unique hr exDist]
  norm_num

/-- The hypothesis of `C52_neighbours` for the two atoms. -/
example : ∃ d : Fin 2 → Fin 2 → ℝ,
    (∀ i j, IsDist (1 : Cell) true (![![0, 0, 0], ![1/4, 0, 0]] i) (![![0, 0, 0], ![1/4, 0, 0]] j) (d i j)) ∧
    ∀ i j, i ≠ j → (1/10 : ℝ) ≤ d i j := by
  have h2 : IsDist (1 : Cell) true ![1/4, 0, 0] ![0, 0, 0] (1/4) := by
    refine C82_symmetric_partial (1 : Cell) true ![0, 0, 0] ![1/4, 0, 0] (1/4) (fun _ k n h => ?_) exDist
    fin_cases k
    · simp at h
      have : (4 * n : ℝ) = -3 := by linarith
      have : 4 * n = -3 := by exact_mod_cast this
      omega
    · simp at h
      have : (2 * n : ℝ) = -1 := by linarith
      have : 2 * n = -1 := by exact_mod_cast this
      omega
    · simp at h
      have : (2 * n : ℝ) = -1 := by linarith
      have : 2 * n = -1 := by exact_mod_cast this
      omega
  refine ⟨fun i j => if i = j then 0 else 1/4, fun i j => ?_, fun i j h => ?_⟩
  · fin_cases i <;> fin_cases j
    · exact (C82_diagonal (1 : Cell) true _ _ _ exDist).2
    · exact exDist
    · exact h2
    · exact (C82_diagonal (1 : Cell) true _ _ _ h2).2
  · simp only [h, if_false]; norm_num

/-! ### Selection of atoms -/

/-- **C52** (selection by symbol). A string as mask selects the atoms with this symbol, in their order. -/
theorem C52_select_symbol {α : Type} (sy : List String) (s : String) (l : List α) (h : sy.length = l.length) :
    ((Mask.name s).resolve sy).pick l = some (((sy.zip l).filter (fun p => decide (p.1 = s))).map Prod.snd) := by
  simp only [Mask.resolve, Mask.pick, List.length_map, h, if_true, Option.some.injEq]
  clear h
  induction sy generalizing l with
  | nil => simp
  | cons a sy ih =>
    cases l with
    | nil => simp
    | cons b l =>
      simp only [List.map_cons, List.zip_cons_cons, List.filter_cons]
      by_cases hc : a = s
      · simp only [hc, decide_true, if_true, List.map_cons, ih]
      · simp only [hc, decide_false, Bool.false_eq_true, if_false, ih]

theorem foldr_all {α : Type} : ∀ (l : List (Option α)) (c : List α),
    l.foldr (fun o acc => o.bind (fun x => acc.map (x :: ·))) (some []) = some c ↔ l = c.map some := by
  intro l
  induction l with
  | nil => intro c; cases c <;> simp
  | cons o l ih =>
    intro c
    simp only [List.foldr_cons]
    cases o with
    | none => cases c <;> simp
    | some x =>
      simp only [Option.bind_some, Option.map_eq_some_iff, ih]
      constructor
      · rintro ⟨c', h1, rfl⟩; simp [h1]
      · intro h
        cases c with
        | nil => simp at h
        | cons y c => simp at h; exact ⟨c, h.2, by simp [h.1]⟩

/-- **C52** (selection of steps). With step numbers inside the trajectory, entry `t` of the selection are
the selected atoms of step `steps[t]`; the selection fails exactly if a mask has the wrong length. -/
theorem C52_select_steps (steps : List Nat) (m : Mask) (cf : List (List V3)) (hs : ∀ s ∈ steps, s < cf.length)
    (c : List (List V3)) :
    select steps m cf = some c ↔
      c.length = steps.length ∧ ∀ t, (ht : t < steps.length) → m.pick (cf.getD steps[t] []) = c[t]? := by
  unfold select
  rw [foldr_all]
  have e : steps.filterMap (fun s => cf[s]?) = steps.map (fun s => cf.getD s []) := by
    clear c
    induction steps with
    | nil => rfl
    | cons a l ih =>
      have ha : cf[a]? = some (cf.getD a []) := by
        have := hs a (by simp)
        simp [List.getD_eq_getElem?_getD, this]
      rw [List.filterMap_cons, ha]
      simp only [List.map_cons]
      rw [ih (fun s h => hs s (by simp [h]))]
  rw [e, List.map_map]
  constructor
  · intro h
    have hl : c.length = steps.length := by simpa using (congrArg List.length h).symm
    refine ⟨hl, fun t ht => ?_⟩
    have := congrArg (fun l => l[t]?) h
    simp only [List.getElem?_map] at this
    rw [List.getElem?_eq_getElem ht, List.getElem?_eq_getElem (by omega : t < c.length)] at this
    rw [List.getElem?_eq_getElem (by omega : t < c.length)]
    simpa using this
  · rintro ⟨hl, h⟩
    apply List.ext_getElem (by simp [hl])
    intro t h1 h2
    simp only [List.length_map] at h1 h2
    have := h t h1
    rw [List.getElem?_eq_getElem h2] at this
    simpa using this

example : select [1] (.bools [true, false]) [[![0,0,0], ![1,0,0]], [![2,0,0], ![3,0,0]]] = some [[![2,0,0]]] := by
  rfl

/-- **C52** (whole call). A call with one trajectory and two symbols: the result is that of the histogram
of the atoms with these symbols in the selected steps, with the first cell of the trajectory. -/
theorem C52_call (t : RTraj) (a b : String) (steps : List Nat) (dr : ℝ) (rmax : Option ℝ)
    (dmask : Option (ℝ → Prop)) (pbc normVmd : Bool) (eps : ℝ) (c0 c1 : List (List V3))
    (h0 : select steps ((Mask.name a).resolve t.symbols) t.coordsFrac = some c0)
    (h1 : select steps ((Mask.name b).resolve t.symbols) t.coordsFrac = some c1)
    (out : Except RErr (List (ℝ × ℝ × ℝ))) :
    Rpdf (.one t) (some [.name a, .name b]) steps dr rmax dmask pbc normVmd eps out ↔
      ∃ rows, out = .ok rows ∧
        IsRpdf (T := c0.length) (A := (c0.headD []).length) (B := (c1.headD []).length)
          (t.cell.headD 0) (volumeCell (t.cell.headD 0))
          (fun k i => (c0.getD k []).getD i 0) (fun k j => (c1.getD k []).getD j 0)
          dr rmax dmask pbc normVmd eps rows := by
  have hp : (prep (.one t) (some [.name a, .name b])).1 =
      .ok (t, t, (Mask.name a).resolve t.symbols, (Mask.name b).resolve t.symbols) := by
    simp [prep, check, double, TArg.toList]
  unfold Rpdf
  rw [hp]
  simp only [h0, h1]

/-! ## C78: what happens to the caller's lists -/

theorem resolve_resolve (m : Mask) (sy sy' : List String) : (m.resolve sy).resolve sy' = m.resolve sy := by
  cases m <;> rfl

/-- **C78** (partial: a second call on the same trajectories). A second call with the same (by now
possibly changed) argument objects passes or fails the argument checks like the first one and uses the same
trajectories and atoms, so it gives the same result. -/
theorem C78_again_partial (trajs : TArg) (amask : Option (List Mask)) :
    (prep (prep trajs amask).2.1 (prep trajs amask).2.2).1 = (prep trajs amask).1 ∧
    ∀ steps dr rmax dmask pbc normVmd eps out,
      (Rpdf (prep trajs amask).2.1 (prep trajs amask).2.2 steps dr rmax dmask pbc normVmd eps out ↔
       Rpdf trajs amask steps dr rmax dmask pbc normVmd eps out) := by
  have key : (prep (prep trajs amask).2.1 (prep trajs amask).2.2).1 = (prep trajs amask).1 := by
    have hs : ∀ t : RTraj, sameKind t t := fun t => ⟨rfl, rfl, rfl⟩
    have hk : ∀ t0 t1, sameKind t0 t1 ∨ ¬ sameKind t0 t1 := fun _ _ => em _
    rcases trajs with t | (_ | ⟨t0, _ | ⟨t1, _ | ⟨t2, l⟩⟩⟩) <;>
      rcases amask with _ | (_ | ⟨m0, _ | ⟨m1, _ | ⟨m2, ml⟩⟩⟩)
    all_goals first
      | (simp [prep, check, double, TArg.toList, TArg.after, resolve_resolve, hs]; done)
      | (rcases hk t0 t1 with h | h <;>
          simp [prep, check, double, TArg.toList, TArg.after, resolve_resolve, h])
  refine ⟨key, ?_⟩
  intro steps dr rmax dmask pbc normVmd eps out
  unfold Rpdf
  rw [key]

/-- **C78** (which calls leave the arguments alone). The caller's `trajs` changes exactly if it is a
list with one entry. -/
theorem C78_trajs_kept (amask : Option (List Mask)) :
    (∀ t, (prep (.one t) amask).2.1 = .one t) ∧
    (∀ l, (prep (.lst l) amask).2.1 = .lst (if l.length = 1 then l ++ l else l)) := by
  refine ⟨fun t => rfl, fun l => ?_⟩
  rcases l with _ | ⟨t0, _ | ⟨t1, l⟩⟩ <;> simp [prep, TArg.after, double]

/-- **C78** (masks). If `amask` has two entries and none of them is a string, it is unchanged. -/
theorem C78_amask_kept (trajs : TArg) (m0 m1 : Mask) (h0 : ∀ s, m0 ≠ .name s) (h1 : ∀ s, m1 ≠ .name s) :
    (prep trajs (some [m0, m1])).2.2 = some [m0, m1] := by
  have e : ∀ (m : Mask) sy, (∀ s, m ≠ .name s) → m.resolve sy = m := by
    intro m sy h
    cases m with
    | name s => exact absurd rfl (h s)
    | _ => rfl
  simp only [prep, Option.getD_some, Option.map_some, Option.some.injEq]
  unfold check double
  simp only
  split
  · rename_i he
    simp only [List.cons.injEq, and_true] at he
    obtain ⟨rfl, rfl⟩ := he
    split
    · simp [e _ _ h0, e _ _ h1]
    · rfl
  · rfl

/-- **C78** (the masks used). The atoms used are, for a string, those with this symbol in the (first)
trajectory; otherwise those of the mask given. -/
theorem C78_masks_used (trajs : TArg) (amask : Option (List Mask)) (t0 t1 : RTraj) (m0 m1 : Mask)
    (h : (prep trajs amask).1 = .ok (t0, t1, m0, m1)) :
    ∃ a b, (amask = none ∧ a = .all ∧ b = .all ∨ amask = some [a] ∧ a = b ∨ amask = some [a, b]) ∧
      (m0 = match a with | .name s => .bools (t0.symbols.map (fun x => decide (x = s))) | m => m) ∧
      (m1 = match b with | .name s => .bools (t0.symbols.map (fun x => decide (x = s))) | m => m) ∧
      (trajs = .one t0 ∧ t1 = t0 ∨ trajs = .lst [t0] ∧ t1 = t0 ∨
        trajs = .lst [t0, t1] ∧ t0.symbols = t1.symbols ∧ t0.coordsFrac.length = t1.coordsFrac.length ∧ t0.cell = t1.cell) := by
  have hres : ∀ (m : Mask) (sy : List String),
      m.resolve sy = match m with | .name s => .bools (sy.map (fun x => decide (x = s))) | m => m := by
    intro m sy; cases m <;> rfl
  simp only [prep] at h
  unfold check at h
  split at h
  · rename_i s0 s1 k0 k1 hl hm
    split at h
    · rename_i hc
      simp only [Except.ok.injEq, Prod.mk.injEq] at h
      obtain ⟨rfl, rfl, rfl, rfl⟩ := h
      refine ⟨k0, k1, ?_, hres _ _, hres _ _, ?_⟩
      · rcases amask with _ | ml
        · simp [double] at hm
          exact Or.inl ⟨rfl, hm.1.symm, hm.2.symm⟩
        · simp only [Option.getD_some] at hm
          rcases ml with _ | ⟨a, _ | ⟨b, _ | ⟨c, ml⟩⟩⟩
          · simp [double] at hm
          · simp only [double, TArg.toList, List.cons.injEq, and_true] at hm
            obtain ⟨rfl, rfl⟩ := hm
            exact Or.inr (Or.inl ⟨rfl, rfl⟩)
          · simp only [double, TArg.toList, List.cons.injEq, and_true] at hm
            obtain ⟨rfl, rfl⟩ := hm
            exact Or.inr (Or.inr rfl)
          · simp [double] at hm
      · rcases trajs with t | l
        · simp only [double, TArg.toList, List.cons.injEq, and_true] at hl
          obtain ⟨rfl, rfl⟩ := hl
          exact Or.inl ⟨rfl, rfl⟩
        · rcases l with _ | ⟨a, _ | ⟨b, _ | ⟨c, ml⟩⟩⟩
          · simp [double, TArg.toList] at hl
          · simp only [double, TArg.toList, List.cons.injEq, and_true] at hl
            obtain ⟨rfl, rfl⟩ := hl
            exact Or.inr (Or.inl ⟨rfl, rfl⟩)
          · simp only [double, TArg.toList, List.cons.injEq, and_true] at hl
            obtain ⟨rfl, rfl⟩ := hl
            simp [TArg.toList] at hc
            exact Or.inr (Or.inr ⟨rfl, hc⟩)
          · simp [double, TArg.toList] at hl
    · cases h
  · cases h

/-- Two structures with the same two atoms in different order. -/
noncomputable def exA : RTraj := ⟨["O", "H"], [[![0, 0, 0], ![1/4, 0, 0]]], [1]⟩
/-- See `exA`. -/
noncomputable def exB : RTraj := ⟨["H", "O"], [[![1/4, 0, 0], ![0, 0, 0]]], [1]⟩

/-- **C78** (where the code does not do it). The call changes the caller's lists: a list with one
trajectory has two entries afterwards, a list `['O']` of masks has become two bool arrays; and the same
list object used next with another structure selects the wrong atoms (here H instead of O). -/
theorem C78_counterexample :
    (prep (.lst [exA]) (some [.name "O"])).2 = (.lst [exA, exA], some [.bools [true, false], .bools [true, false]]) ∧
    (prep (.one exB) (prep (.one exA) (some [.name "O"])).2.2).1 =
      .ok (exB, exB, .bools [true, false], .bools [true, false]) ∧
    (prep (.one exB) (some [.name "O"])).1 = .ok (exB, exB, .bools [false, true], .bools [false, true]) := by
  refine ⟨?_, ?_, ?_⟩ <;> simp [prep, check, TArg.toList, TArg.after, double, Mask.resolve, exA, exB]

end Pwtools.Rp
