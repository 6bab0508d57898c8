import Verif.Spec.Gofr
import Mathlib.Tactic.Ring
/-!
# C118: frames which are averaged by `vmd_measure_gofr`
-/
namespace Pwtools.Gofr
open Spec Pwtools.Cry

theorem filterMap_len {α : Type} (l : List α) (first step n : Nat) (h : ∀ k < n, first + k * step < l.length) :
    ((List.range n).filterMap fun k => l[first + k * step]?).length = n := by
  induction n with
  | zero => rfl
  | succ n ih =>
    rw [List.range_succ, List.filterMap_append, List.length_append, ih fun k hk => h k (by omega)]
    simp [List.getElem?_eq_getElem (h n (by omega))]

theorem filterMap_get {α : Type} (l : List α) (first step n : Nat) (h : ∀ k < n, first + k * step < l.length) (k : Nat) :
    ((List.range n).filterMap fun k => l[first + k * step]?)[k]? = if k < n then l[first + k * step]? else none := by
  induction n with
  | zero => simp
  | succ n ih =>
    have ih := ih fun k hk => h k (by omega)
    have hlen := filterMap_len l first step n fun k hk => h k (by omega)
    rw [List.range_succ, List.filterMap_append]
    have hn := h n (by omega)
    have e : [n].filterMap (fun k => l[first + k * step]?) = [l[first + n * step]] := by
      simp [List.getElem?_eq_getElem hn]
    rw [e]
    by_cases hk : k < n
    · rw [List.getElem?_append_left (by omega), ih, if_pos hk, if_pos (by omega)]
    · rw [List.getElem?_append_right (by omega), hlen]
      by_cases hk2 : k = n
      · rw [hk2, Nat.sub_self, if_pos (by omega), List.getElem?_eq_getElem hn]; rfl
      · rw [if_neg (by omega), List.getElem?_eq_none (by simp; omega)]

theorem lt_ceil (a step k : Nat) (hs : 0 < step) : k < (a + (step - 1)) / step ↔ k * step < a := by
  rw [Nat.lt_iff_add_one_le, Nat.le_div_iff_mul_le hs, Nat.add_mul]
  omega

theorem pySlice_nth {α : Type} (l : List α) (first : Nat) (last : Option Nat) (step : Nat) (hs : 0 < step) :
    EveryNth l first last step (pySlice l first (last.map (· + 1)) step) := by
  intro k
  unfold pySlice
  simp only
  set stop := min ((last.map (· + 1)).getD l.length) l.length with hstop
  rw [filterMap_get _ _ _ _ (by
    intro j hj
    rw [lt_ceil _ _ _ hs] at hj
    have : stop ≤ l.length := Nat.min_le_right _ _
    omega)]
  simp only [lt_ceil _ _ _ hs]
  cases last with
  | none =>
    simp only [Option.map_none, Option.getD_none, Nat.min_self] at hstop
    simp only [Option.mem_def, reduceCtorEq, false_implies, implies_true, if_true]
    split
    · rfl
    · rw [List.getElem?_eq_none (by omega)]
  | some m =>
    simp only [Option.map_some, Option.getD_some] at hstop
    simp only [Option.mem_def, Option.some.injEq, forall_eq']
    split
    · rw [if_pos (by omega)]
    · split
      · rw [List.getElem?_eq_none (by omega)]
      · rfl

theorem vmdLoop_nth {α : Type} (l : List α) (first : Nat) (last : Option Nat) (step : Nat) (hs : 0 < step) (hl : ∀ m ∈ last, m < l.length) :
    EveryNth l first last step (vmdLoop l first last step) := by
  intro k
  unfold vmdLoop
  simp only
  by_cases h0 : l.length = 0 ∨ last.getD (l.length - 1) < first
  · rw [if_pos h0]
    simp only [List.getElem?_nil]
    split
    · next h =>
      rw [List.getElem?_eq_none]
      rcases h0 with h0 | h0
      · omega
      · cases last with
        | none => simp only [Option.getD_none] at h0; omega
        | some m =>
          simp only [Option.getD_some] at h0
          have := h m rfl
          omega
    · rfl
  · rw [if_neg h0]
    rw [not_or] at h0
    set m := last.getD (l.length - 1) with hm
    have hml : m < l.length := by
      cases last with
      | none => simp only [Option.getD_none] at hm; omega
      | some x => simp only [Option.getD_some] at hm; rw [hm]; exact hl x rfl
    have hk : ∀ k, k < (m - first) / step + 1 ↔ first + k * step ≤ m := by
      intro k
      rw [Nat.lt_add_one_iff, Nat.le_div_iff_mul_le hs]
      omega
    rw [filterMap_get _ _ _ _ fun j hj => by
      have := (hk j).1 hj
      omega]
    simp only [hk]
    cases last with
    | none =>
      simp only [Option.getD_none] at hm
      simp only [Option.mem_def, reduceCtorEq, false_implies, implies_true, if_true]
      split
      · rfl
      · rw [List.getElem?_eq_none (by omega)]
    | some x =>
      simp only [Option.getD_some] at hm
      simp only [Option.mem_def, Option.some.injEq, forall_eq', hm]

theorem nth_unique {α : Type} {l : List α} {first : Nat} {last : Option Nat} {step : Nat} {a b : List α} (ha : EveryNth l first last step a)
    (hb : EveryNth l first last step b) : a = b := List.ext_getElem? fun k => by rw [ha k, hb k]

theorem vmdLoop_all {α : Type} (l : List α) : vmdLoop l 0 none 1 = l := by
  apply List.ext_getElem?
  intro k
  rw [vmdLoop_nth l 0 none 1 (by omega) (by simp) k]
  simp

/-- What decides whether the function raises. -/
def AnglesOk (cell : Cell) : Prop :=
  |(cell2cc cell).alpha - 90| ≤ 0.1 ∧ |(cell2cc cell).beta - 90| ≤ 0.1 ∧ |(cell2cc cell).gamma - 90| ≤ 0.1

theorem angles_iff (cell : Cell) : ¬ (max |(cell2cc cell).alpha - 90| (max |(cell2cc cell).beta - 90| |(cell2cc cell).gamma - 90|) > 0.1) ↔ AnglesOk cell := by
  unfold AnglesOk
  rw [gt_iff_lt, not_lt, max_le_iff, max_le_iff]

/-- **C118** For a trajectory with one cell: with and without slicing first, the average is over exactly the frames `first`, `first + step`, … up to
`last` inclusive (-1: the last one), in order; `rmax` is the given one or that of Smith's formula. -/
theorem C118_frames_partial {σ R : Type} (gofr : List Frame → Args σ → R) (cell : Cell) (cfs : List (List V3)) (hne : cfs ≠ []) (h90 : AnglesOk cell)
    (dr : ℝ) (rmax : Option ℝ) (sel : σ) (first : Nat) (last : Option Nat) (step : Nat) (hs : 0 < step) (hl : ∀ m ∈ last, m < cfs.length) (slicefirst : Bool) :
    ∃ frames, EveryNth (cfs.map fun cf => (⟨cell, cf⟩ : Frame)) first last step frames ∧
      measure gofr (cfs.map fun cf => ⟨cell, cf⟩) dr rmax sel first last step slicefirst = some (gofr frames ⟨dr, rmax.getD (rmaxSmith cell), sel⟩) := by
  obtain ⟨c0, cs, hcs⟩ : ∃ c0 cs, cfs = c0 :: cs := by
    cases cfs with
    | nil => exact absurd rfl hne
    | cons a b => exact ⟨a, b, rfl⟩
  unfold measure
  have e : cfs.map (fun cf => (⟨cell, cf⟩ : Frame)) = ⟨cell, c0⟩ :: cs.map fun cf => ⟨cell, cf⟩ := by rw [hcs]; rfl
  rw [e]
  simp only
  rw [if_neg ((angles_iff cell).2 h90), ← List.map_cons (f := fun cf => (⟨cell, cf⟩ : Frame)), ← hcs]
  cases slicefirst with
  | false =>
    exact ⟨_, vmdLoop_nth _ first last step hs (by simpa using hl), rfl⟩
  | true =>
    refine ⟨_, ?_, by rw [if_pos rfl]⟩
    rw [vmdLoop_all]
    intro k
    have := pySlice_nth ((cfs.map fun cf => (⟨cell, cf⟩ : Frame)).map Frame.cf) first last step hs k
    rw [List.getElem?_map, this]
    have em : (cfs.map fun cf => (⟨cell, cf⟩ : Frame)).map Frame.cf = cfs := by
      rw [List.map_map]
      exact List.map_id cfs
    rw [em, List.getElem?_map]
    split <;> simp

/-- **C118** (no slicing first) The same for every trajectory whose first cell is orthogonal, each frame with its own cell. -/
theorem C118_noslice {σ R : Type} (gofr : List Frame → Args σ → R) (f0 : Frame) (fs : List Frame) (h90 : AnglesOk f0.cell) (dr : ℝ) (rmax : Option ℝ) (sel : σ)
    (first : Nat) (last : Option Nat) (step : Nat) (hs : 0 < step) (hl : ∀ m ∈ last, m < (f0 :: fs).length) :
    ∃ frames, EveryNth (f0 :: fs) first last step frames ∧
      measure gofr (f0 :: fs) dr rmax sel first last step false = some (gofr frames ⟨dr, rmax.getD (rmaxSmith f0.cell), sel⟩) := by
  refine ⟨_, vmdLoop_nth _ first last step hs hl, ?_⟩
  unfold measure
  simp only
  rw [if_neg ((angles_iff f0.cell).2 h90)]
  simp

/-- **C118** is false for a variable cell and the default `slicefirst=True`: all frames get the cell of the first step. -/
theorem C118_variable_cell {σ R : Type} (gofr : List Frame → Args σ → R) (f0 : Frame) (fs : List Frame) (h90 : AnglesOk f0.cell) (dr : ℝ) (rmax : Option ℝ)
    (sel : σ) (first : Nat) (last : Option Nat) (step : Nat) (hs : 0 < step) :
    ∃ frames, EveryNth ((f0 :: fs).map fun f => (⟨f0.cell, f.cf⟩ : Frame)) first last step frames ∧
      measure gofr (f0 :: fs) dr rmax sel first last step true = some (gofr frames ⟨dr, rmax.getD (rmaxSmith f0.cell), sel⟩) := by
  refine ⟨(pySlice ((f0 :: fs).map Frame.cf) first (last.map (· + 1)) step).map fun cf => (⟨f0.cell, cf⟩ : Frame), ?_, ?_⟩
  · intro k
    rw [List.getElem?_map, pySlice_nth ((f0 :: fs).map Frame.cf) first last step hs k, List.getElem?_map, List.getElem?_map]
    split
    · rw [Option.map_map]; rfl
    · rfl
  · unfold measure
    simp only
    rw [if_neg ((angles_iff f0.cell).2 h90), if_pos trivial, vmdLoop_all]

/-- **C118** (cells which are not orthogonal) raise. -/
theorem C118_not_orthogonal {σ R : Type} (gofr : List Frame → Args σ → R) (f0 : Frame) (fs : List Frame) (h90 : ¬ AnglesOk f0.cell) (dr : ℝ) (rmax : Option ℝ)
    (sel : σ) (first : Nat) (last : Option Nat) (step : Nat) (slicefirst : Bool) :
    measure gofr (f0 :: fs) dr rmax sel first last step slicefirst = none := by
  unfold measure
  simp only
  rw [if_pos (by by_contra h; exact h90 ((angles_iff f0.cell).1 h))]

/-- A cube is orthogonal. -/
theorem cube_ok : AnglesOk (1 : Cell) := by
  have h : ∀ i j : Fin 3, i ≠ j → angle ((1 : Cell) i) ((1 : Cell) j) = 90 := by
    intro i j hij
    unfold angle
    have : dot ((1 : Cell) i) ((1 : Cell) j) = 0 := by
      unfold dot
      apply Finset.sum_eq_zero
      intro k _
      rw [Matrix.one_apply, Matrix.one_apply]
      split
      · next h1 =>
        split
        · next h2 => exact absurd (h1.trans h2.symm) hij
        · simp
      · simp
    rw [this, zero_div, zero_div, Real.arccos_zero]
    have := Real.pi_ne_zero
    field_simp
    norm_num
  refine ⟨?_, ?_, ?_⟩
  · show |angle _ _ - 90| ≤ _
    rw [h _ _ (by decide)]; norm_num
  · show |angle _ _ - 90| ≤ _
    rw [h _ _ (by decide)]; norm_num
  · show |angle _ _ - 90| ≤ _
    rw [h _ _ (by decide)]; norm_num

/-- **C118** counterexample: a box which grows; what VMD sees is a box which does not. -/
theorem C118_counterexample :
    measure (σ := Unit) (fun fs _ => fs.map Frame.cell) [⟨1, []⟩, ⟨2, []⟩] 1 (some 1) () 0 none 1 true = some [1, 1] ∧
    measure (σ := Unit) (fun fs _ => fs.map Frame.cell) [⟨1, []⟩, ⟨2, []⟩] 1 (some 1) () 0 none 1 false = some [1, 2] ∧ (1 : Cell) ≠ 2 := by
  refine ⟨?_, ?_, ?_⟩
  · unfold measure
    simp only
    rw [if_neg ((angles_iff _).2 cube_ok), if_pos trivial]
    rfl
  · unfold measure
    simp only
    rw [if_neg ((angles_iff _).2 cube_ok), if_neg (by decide)]
    rfl
  · intro h
    have h1 : (1 : Cell) 0 0 = (2 : Cell) 0 0 := by rw [h]
    have h2 : (2 : Cell) 0 0 = 2 := by
      have : (2 : Cell) = 1 + 1 := by norm_num
      rw [this]
      simp [Matrix.add_apply]
      norm_num
    rw [h2] at h1
    simp at h1

/-- Non-vacuity: of 7 frames number 1, 3, 5. -/
example : EveryNth [0, 1, 2, 3, 4, 5, 6] 1 (some 6) 2 (pySlice [0, 1, 2, 3, 4, 5, 6] 1 (some 7) 2) ∧ pySlice [0, 1, 2, 3, 4, 5, 6] 1 (some 7) 2 = [1, 3, 5] :=
  ⟨pySlice_nth _ 1 (some 6) 2 (by decide), by decide⟩

end Pwtools.Gofr
