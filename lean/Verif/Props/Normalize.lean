import Verif.Model.Normalize
import Verif.Spec.Normalize
import Verif.Props.Signal
import Mathlib.Analysis.Complex.Norm
/-!
# C188: `num.normalize`
-/
namespace Pwtools.Sig
open Spec

section real
variable {K : Type} [Field K] [LinearOrder K] [IsStrictOrderedRing K]

omit [LinearOrder K] [IsStrictOrderedRing K] in
theorem getD_map_div (a : List K) (m : K) (i : Nat) : (a.map (fun v => v / m)).getD i 0 = a.getD i 0 / m := by
  rcases Nat.lt_or_ge i a.length with h | h
  · simp [List.getD_eq_getElem?_getD, h]
  · simp [List.getD_eq_getElem?_getD, h]

omit [LinearOrder K] [IsStrictOrderedRing K] in
theorem sameRatios_div (a : List K) (m : K) : SameRatios a (a.map (fun v => v / m)) := by
  refine ⟨by simp, fun i j _ _ => ?_⟩
  rw [getD_map_div, getD_map_div]; ring

theorem listMax_eq (a : List K) (m : K) (hm : m ∈ a) (h : ∀ v ∈ a, v ≤ m) : listMax a = m :=
  le_antisymm (h _ (listMax_mem a (List.ne_nil_of_mem hm))) (listMax_ge a m hm)

/-- **C188** (partial: arrays with a positive entry; see the counterexamples for the others). The result
has the same ratios and the same order, its largest entry is 1, and it is the only such array;
normalising again changes nothing; a positive factor in all entries changes nothing. -/
theorem C188_real_partial (a : List K) (hpos : ∃ v ∈ a, 0 < v) :
    ∃ b, normalize a = some b ∧ MaxNormalized a b ∧ (∀ b', MaxNormalized a b' → b' = b) ∧
      normalize b = some b ∧ ∀ c : K, 0 < c → normalize (a.map (c * ·)) = some b := by
  obtain ⟨v0, hv0, hv0p⟩ := hpos
  have hne : a ≠ [] := List.ne_nil_of_mem hv0
  have hM : 0 < listMax a := lt_of_lt_of_le hv0p (listMax_ge a v0 hv0)
  have hmem := listMax_mem a hne
  have h1 : (1 : K) ∈ a.map (fun v => v / listMax a) :=
    List.mem_map.2 ⟨_, hmem, div_self hM.ne'⟩
  have hle : ∀ v ∈ a.map (fun v => v / listMax a), v ≤ 1 := by
    intro v hv
    obtain ⟨w, hw, rfl⟩ := List.mem_map.1 hv
    exact (div_le_one hM).2 (listMax_ge a w hw)
  refine ⟨a.map (fun v => v / listMax a), by simp [normalize, hne, hM.ne'], ⟨sameRatios_div a _, h1, hle, ?_⟩, ?_, ?_, ?_⟩
  · intro i j _ _
    rw [getD_map_div, getD_map_div]
    exact (div_le_div_iff_of_pos_right hM).symm
  · rintro b' ⟨⟨hl, hr⟩, h1', hle', ho⟩
    obtain ⟨k, hk, hk1⟩ := List.getElem_of_mem h1'
    obtain ⟨m, hm, hmM⟩ := List.getElem_of_mem hmem
    have hkM : a.getD k 0 = listMax a := by
      have hka : k < a.length := hl ▸ hk
      have hb : b'.getD k 0 = 1 := by simp [List.getD_eq_getElem?_getD, hk, hk1]
      have ham : a.getD m 0 = listMax a := by simp [List.getD_eq_getElem?_getD, hm, hmM]
      have hbm : b'.getD m 0 ≤ b'.getD k 0 := by
        rw [hb]
        have hm' : m < b'.length := hl.symm ▸ hm
        have : b'.getD m 0 = b'[m] := by simp [List.getD_eq_getElem?_getD, hm']
        rw [this]; exact hle' _ (List.getElem_mem _)
      have h2 := (ho m k hm hka).2 hbm
      rw [ham] at h2
      refine le_antisymm (listMax_ge a _ ?_) h2
      have : a.getD k 0 = a[k] := by simp [List.getD_eq_getElem?_getD, hka]
      rw [this]; exact List.getElem_mem _
    have hb : b'.getD k 0 = 1 := by simp [List.getD_eq_getElem?_getD, hk, hk1]
    refine List.ext_getElem (by simp [hl]) (fun i hi _ => ?_)
    have hia : i < a.length := hl ▸ hi
    have := hr k i (hl ▸ hk) hia
    rw [hb, hkM, mul_one] at this
    have e1 : b'.getD i 0 = b'[i] := by simp [List.getD_eq_getElem?_getD, hi]
    have e2 : a.getD i 0 = a[i] := by simp [List.getD_eq_getElem?_getD, hia]
    rw [e1, e2] at this
    rw [List.getElem_map, ← this, mul_comm, mul_div_assoc, div_self hM.ne', mul_one]
  · have hm1 := listMax_eq _ 1 h1 hle
    unfold normalize
    rw [if_neg (by simpa using hne), hm1, if_neg one_ne_zero]
    simp
  · intro c hc
    have hm1 : listMax (a.map (c * ·)) = c * listMax a := by
      refine listMax_eq _ _ (List.mem_map.2 ⟨_, hmem, rfl⟩) ?_
      intro v hv
      obtain ⟨w, hw, rfl⟩ := List.mem_map.1 hv
      exact mul_le_mul_of_nonneg_left (listMax_ge a w hw) hc.le
    unfold normalize
    rw [if_neg (by simpa using hne), hm1, if_neg (mul_pos hc hM).ne', List.map_map]
    congr 1
    refine List.map_congr_left (fun v _ => ?_)
    simp only [Function.comp_apply]
    exact mul_div_mul_left _ _ hc.ne'

/-- **C188** (counterexample). If all entries are negative, the result has the same ratios but the
order is reversed: 1 is the smallest entry. -/
theorem C188_negative_counterexample (a : List K) (hne : a ≠ []) (hneg : ∀ v ∈ a, v < 0) :
    ∃ b, normalize a = some b ∧ SameRatios a b ∧ 1 ∈ b ∧ (∀ v ∈ b, 1 ≤ v) ∧
      ∀ i j, i < a.length → j < a.length → (a.getD i 0 ≤ a.getD j 0 ↔ b.getD j 0 ≤ b.getD i 0) := by
  have hmem := listMax_mem a hne
  have hM : listMax a < 0 := hneg _ hmem
  refine ⟨_, by simp only [normalize, hne, if_false, hM.ne], sameRatios_div a _,
    List.mem_map.2 ⟨_, hmem, div_self hM.ne⟩, ?_, ?_⟩
  · intro v hv
    obtain ⟨w, hw, rfl⟩ := List.mem_map.1 hv
    exact (one_le_div_of_neg hM).2 (listMax_ge a w hw)
  · intro i j _ _
    rw [getD_map_div, getD_map_div]
    exact (div_le_div_right_of_neg hM).symm

/-- **C188** (no result). There is no finite result exactly when the array is empty or its largest
entry is 0. -/
theorem C188_none (a : List K) :
    normalize a = none ↔ a = [] ∨ (0 ∈ a ∧ ∀ v ∈ a, v ≤ 0) := by
  by_cases hne : a = []
  · simp [normalize, hne]
  · have hmem := listMax_mem a hne
    constructor
    · intro h
      right
      have h0 : listMax a = 0 := by
        by_contra h0
        simp [normalize, hne, h0] at h
      exact ⟨h0 ▸ hmem, fun v hv => h0 ▸ listMax_ge a v hv⟩
    · rintro (h | ⟨h0, h⟩)
      · exact absurd h hne
      · simp [normalize, hne, listMax_eq a 0 h0 h]

end real

/-- Non-vacuity: a real array with a positive, a zero and a negative entry. -/
example : normalize [2, -1, 0, (4 : ℚ)] = some [1 / 2, -1 / 4, 0, 1] ∧ (∃ v ∈ [2, -1, 0, (4 : ℚ)], 0 < v) := by
  decide +kernel

/-- Non-vacuity of the counterexample: the smallest entry becomes the largest one. -/
example : normalize [-4, (-2 : ℚ)] = some [2, 1] := by decide +kernel

/-! ### Complex arrays -/

theorem maxC_spec (a : List ℂ) (h : a ≠ []) : maxC a ∈ a ∧ ∀ z ∈ a, LexLe z (maxC a) := by
  induction a with
  | nil => exact absurd rfl h
  | cons z l ih =>
    cases l with
    | nil => simp [maxC, LexLe]
    | cons w rest =>
      obtain ⟨h1, h2⟩ := ih (by simp)
      simp only [maxC]
      split_ifs with hc
      · refine ⟨by simp, fun y hy => ?_⟩
        rcases List.mem_cons.1 hy with rfl | hy
        · exact Or.inr ⟨rfl, le_refl _⟩
        · have hy2 := h2 y hy
          unfold LexLe at hy2 ⊢
          rcases hc with hc | ⟨hc, hc'⟩ <;> rcases hy2 with hy2 | ⟨hy2, hy3⟩
          · left; linarith
          · left; linarith
          · left; linarith
          · right; constructor <;> linarith
      · refine ⟨List.mem_cons_of_mem _ h1, fun y hy => ?_⟩
        rcases List.mem_cons.1 hy with rfl | hy
        · unfold LexLe
          push Not at hc
          obtain ⟨hc1, hc2⟩ := hc
          rcases lt_or_eq_of_le hc1 with h | h
          · exact Or.inl h
          · exact Or.inr ⟨h, (hc2 h.symm).le⟩
        · exact h2 y hy

theorem lexLe_antisymm {z w : ℂ} (h1 : LexLe z w) (h2 : LexLe w z) : z = w := by
  unfold LexLe at h1 h2
  rcases h1 with h1 | ⟨h1, h3⟩ <;> rcases h2 with h2 | ⟨h2, h4⟩
  · linarith
  · linarith
  · linarith
  · exact Complex.ext h1 (le_antisymm h3 h4)

/-- **C188** (complex arrays, partial: the entry which becomes 1 is the largest one in numpy's order and
not the one with the largest absolute value). For every complex array whose largest entry in this order
is not 0, the result has the same ratios, and the largest entry becomes 1. -/
theorem C188_complex_partial (a : List ℂ) (m : ℂ) (hm : m ∈ a) (hmax : ∀ z ∈ a, LexLe z m) (h0 : m ≠ 0) :
    ∃ b, normalizeC a = some b ∧ SameRatios a b ∧ ∀ i, i < a.length → a.getD i 0 = m → b.getD i 0 = 1 := by
  have hne : a ≠ [] := List.ne_nil_of_mem hm
  have e : maxC a = m := lexLe_antisymm (hmax _ (maxC_spec a hne).1) ((maxC_spec a hne).2 m hm)
  refine ⟨a.map (fun v => v / m), by simp [normalizeC, hne, e, h0], sameRatios_div a m, fun i _ hi => ?_⟩
  rw [getD_map_div, hi, div_self h0]

/-- **C188** (complex arrays without imaginary parts). The result is that of the real array. -/
theorem C188_complex_real (a : List ℝ) :
    normalizeC (a.map (fun x : ℝ => (x : ℂ))) = (normalize a).map (fun b => b.map (fun x : ℝ => (x : ℂ))) := by
  by_cases hne : a = []
  · simp [normalizeC, normalize, hne]
  · have hne' : a.map (fun x : ℝ => (x : ℂ)) ≠ [] := by simpa using hne
    have e : maxC (a.map (fun x : ℝ => (x : ℂ))) = ((listMax a : ℝ) : ℂ) := by
      refine lexLe_antisymm ?_ ((maxC_spec _ hne').2 _ (List.mem_map.2 ⟨_, listMax_mem a hne, rfl⟩))
      obtain ⟨w, hw, he⟩ := List.mem_map.1 (maxC_spec _ hne').1
      rw [← he]
      rcases lt_or_eq_of_le (listMax_ge a w hw) with h | h
      · left; simpa using h
      · right; simp [h]
    unfold normalizeC normalize
    rw [if_neg hne', if_neg hne, e]
    by_cases h0 : listMax a = 0
    · simp [h0]
    · rw [if_neg (by exact_mod_cast h0), if_neg h0]
      simp [List.map_map, Function.comp_def]

theorem maxC_eq (a : List ℂ) (m : ℂ) (hm : m ∈ a) (h : ∀ z ∈ a, LexLe z m) : maxC a = m :=
  lexLe_antisymm (h _ (maxC_spec a (List.ne_nil_of_mem hm)).1) ((maxC_spec a (List.ne_nil_of_mem hm)).2 m hm)

theorem maxC_pair (z w : ℂ) (h : z.re < w.re) : maxC [z, w] = w := by
  refine maxC_eq _ _ (by simp) (fun y hy => ?_)
  rcases List.mem_cons.1 hy with rfl | hy
  · exact Or.inl h
  · rw [List.mem_singleton.1 hy]; exact Or.inr ⟨rfl, le_refl _⟩

/-- **C188** (counterexample, complex arrays). Absolute values of the result are not bounded: for every
`r` there is an array whose result has an entry of absolute value `r`, although 1 is in the result. -/
theorem C188_complex_counterexample (r : ℝ) (hr : 0 ≤ r) :
    ∃ a b : List ℂ, normalizeC a = some b ∧ 1 ∈ b ∧ ∃ z ∈ b, ‖z‖ = r := by
  refine ⟨[⟨0, r⟩, 1], [⟨0, r⟩, 1], ?_, by simp, ⟨0, r⟩, by simp, ?_⟩
  · have e : maxC [⟨0, r⟩, 1] = 1 := maxC_pair _ _ (by simp)
    simp [normalizeC, e]
  · have : (⟨0, r⟩ : ℂ) = r * Complex.I := by apply Complex.ext <;> simp
    rw [this]; simp [abs_of_nonneg hr]

/-- **C188** (counterexample, complex arrays). Normalising twice is not the same as normalising once:
the phase of the largest entry is removed, and another entry can become the largest one. -/
theorem C188_twice_counterexample :
    ∃ a b c : List ℂ, normalizeC a = some b ∧ normalizeC b = some c ∧ b ≠ c := by
  have e1 : maxC [⟨0, 10⟩, ⟨1, 1⟩] = ⟨1, 1⟩ := maxC_pair _ _ (by simp)
  have n1 : (⟨1, 1⟩ : ℂ) ≠ 0 := by intro h; simpa using congrArg Complex.re h
  have d : (⟨0, 10⟩ : ℂ) / ⟨1, 1⟩ = ⟨5, 5⟩ := by
    rw [div_eq_iff n1]; apply Complex.ext <;> simp <;> norm_num
  have n5 : (⟨5, 5⟩ : ℂ) ≠ 0 := by intro h; simpa using congrArg Complex.re h
  have e2 : maxC [⟨5, 5⟩, 1] = ⟨5, 5⟩ := by
    refine maxC_eq _ _ (by simp) (fun y hy => ?_)
    rcases List.mem_cons.1 hy with rfl | hy
    · exact Or.inr ⟨rfl, le_refl _⟩
    · rw [List.mem_singleton.1 hy]; left; norm_num
  refine ⟨[⟨0, 10⟩, ⟨1, 1⟩], [⟨5, 5⟩, 1], [1, 1 / ⟨5, 5⟩], ?_, ?_, ?_⟩
  · simp [normalizeC, e1, n1, d]
  · simp [normalizeC, e2, n5]
  · intro h
    have := congrArg Complex.re (List.cons.inj h).1
    norm_num at this

/-- Non-vacuity: the array of the docstring. -/
example : (⟨5, 4⟩ : ℂ) ∈ [(⟨3, 4⟩ : ℂ), ⟨5, 4⟩] ∧ (∀ z ∈ [(⟨3, 4⟩ : ℂ), ⟨5, 4⟩], LexLe z ⟨5, 4⟩) ∧ (⟨5, 4⟩ : ℂ) ≠ 0 := by
  refine ⟨by simp, ?_, fun h => by simpa using congrArg Complex.re h⟩
  intro z hz
  rcases List.mem_cons.1 hz with rfl | hz
  · left; norm_num
  · rw [List.mem_singleton.1 hz]; right; exact ⟨rfl, le_refl _⟩

end Pwtools.Sig
