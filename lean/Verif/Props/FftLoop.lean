import Verif.Model.FftLoop
import Verif.Spec.FftLoop
import Verif.Props.NdArray
/-!
# C126: `fft_1d_loop` is the Fourier transform along an axis
-/
namespace Pwtools.FftLoop
open Nd Spec

theorem product_eq (shape : List Nat) : product shape = indexTuples shape := by
  induction shape with
  | nil => rfl
  | cons n shape ih => simp only [product, indexTuples, ih]

theorem others (shape : List Nat) (ax : Nat) :
    ((List.range shape.length).filter fun (i : Nat) => (i : Int) ≠ (ax : Int)).map (fun i => shape.getD i 0) = shape.eraseIdx ax := by
  have key : ∀ (shape : List Nat) (ax s : Nat),
      ((List.range' s shape.length).filter fun (i : Nat) => i ≠ ax + s).map (fun i => shape.getD (i - s) 0) = shape.eraseIdx ax := by
    intro shape
    induction shape with
    | nil => intro ax s; simp
    | cons n shape ih =>
      intro ax s
      rw [List.length_cons, List.range'_succ]
      cases ax with
      | zero =>
        rw [List.filter_cons_of_neg (by simp), List.eraseIdx_cons_zero, List.filter_eq_self.2 (by
          intro i hi
          have := (List.mem_range'_1.1 hi).1
          simp; omega)]
        apply List.ext_getElem
        · simp
        · intro i h1 h2
          simp only [List.getElem_map, List.getElem_range']
          rw [show s + 1 + 1 * i - s = i + 1 by omega]
          simp [List.getD_eq_getElem?_getD, List.getElem?_eq_getElem h2]
      | succ ax =>
        rw [List.filter_cons_of_pos (by simp), List.map_cons, List.eraseIdx_cons_succ, Nat.sub_self, List.getD_cons_zero]
        congr 1
        rw [← ih ax (s + 1)]
        have e : (fun i : Nat => decide (i ≠ ax + 1 + s)) = fun i => decide (i ≠ ax + (s + 1)) := by
          funext i
          congr 1
          rw [show ax + 1 + s = ax + (s + 1) by omega]
        rw [e]
        apply List.map_congr_left
        intro i hi
        have := (List.mem_range'_1.1 (List.mem_filter.1 hi).1).1
        rw [show i - s = (i - (s + 1)) + 1 by omega, List.getD_cons_succ]
  have := key shape ax 0
  rw [← List.range_eq_range'] at this
  simpa using this

theorem inShape_erase {J shape : List Nat} (h : InShape J shape) (ax : Nat) : InShape (J.eraseIdx ax) (shape.eraseIdx ax) := by
  unfold InShape at *
  induction h generalizing ax with
  | nil => simp
  | cons h hs ih =>
    cases ax with
    | zero => simpa using hs
    | succ ax => simpa using ⟨h, ih ax⟩

theorem insert_erase {J : List Nat} {ax : Nat} (h : ax < J.length) (m : Nat) : (J.eraseIdx ax).insertIdx ax m = J.set ax m := by
  induction J generalizing ax with
  | nil => simp at h
  | cons j J ih =>
    cases ax with
    | zero => simp
    | succ ax => simpa using ih (by simpa using h)

/-- After some passes, a place holds the value of its line if the pass of its line was among them. -/
theorem fold_get (arr : Arr ℂ) (ax : Nat) (L : List (List Nat)) (junk : List Nat → ℂ) (J : List Nat) :
    L.foldl (step arr ax) junk J =
      if J.eraseIdx ax ∈ L then (Sig.fft (line arr ax (J.eraseIdx ax))).getD (J.getD ax 0) 0 else junk J := by
  induction L generalizing junk with
  | nil => simp
  | cons t L ih =>
    rw [List.foldl_cons, ih]
    by_cases h1 : J.eraseIdx ax ∈ L
    · rw [if_pos h1, if_pos (by simp [h1])]
    · rw [if_neg h1]
      unfold step
      by_cases h2 : J.eraseIdx ax = t
      · rw [if_pos h2, if_pos (by simp [h2]), ← h2]
      · rw [if_neg h2, if_neg (by simp [h1, h2])]

theorem fft_line (arr : Arr ℂ) (ax n k : Nat) (hn : arr.shape[ax]? = some n) (J : List Nat) (hJ : InShape J arr.shape) (hk : J[ax]? = some k) :
    (Sig.fft (line arr ax (J.eraseIdx ax))).getD (J.getD ax 0) 0 =
      ∑ m ∈ Finset.range n, arr.get (J.set ax m) * Complex.exp (-2 * Real.pi * Complex.I * (k : ℂ) * (m : ℂ) / n) := by
  have hax : ax < J.length := by
    rw [List.getElem?_eq_some_iff] at hk
    exact hk.1
  have hkn : k < n := by
    obtain ⟨h1, e1⟩ := List.getElem?_eq_some_iff.1 hk
    obtain ⟨h2, e2⟩ := List.getElem?_eq_some_iff.1 hn
    have := (List.forall₂_iff_get.1 hJ).2 ax h1 h2
    simp only [List.get_eq_getElem] at this
    omega
  have hline : line arr ax (J.eraseIdx ax) = (List.range n).map fun m => arr.get (J.set ax m) := by
    unfold line
    rw [List.getD_eq_getElem?_getD, hn, Option.getD_some]
    exact List.map_congr_left fun m _ => by rw [insert_erase hax]
  rw [hline]
  unfold Sig.fft
  rw [List.length_map, List.length_range, List.getD_eq_getElem?_getD, List.getD_eq_getElem?_getD, hk, Option.getD_some, List.getElem?_map,
    List.getElem?_range hkn, Option.map_some, Option.getD_some]
  refine Finset.sum_congr rfl fun m hm => ?_
  have hm := Finset.mem_range.1 hm
  rw [List.getD_eq_getElem?_getD, List.getElem?_map, List.getElem?_range hm, Option.map_some, Option.getD_some]
  congr 2
  ring

/-- **C126** (part which holds) For an axis counted from the start, and for the axis -1, the result is the Fourier transform along that axis,
independent of what `np.empty` returns. -/
theorem C126_fft_along_partial (arr : Arr ℂ) (axis : Int) (ax n : Nat) (hax : axis = ax ∨ (axis = -1 ∧ ax + 1 = arr.shape.length))
    (hn : arr.shape[ax]? = some n) (h0 : 0 < n) (junk : List Nat → ℂ) :
    ∃ b, fft1dLoop arr axis junk = .ok b ∧ IsFftAlong ax n arr b := by
  have hlt : ax < arr.shape.length := (List.getElem?_eq_some_iff.1 hn).1
  have e : (if axis < 0 then (arr.ndim : Int) - 1 else axis) = ax := by
    unfold Arr.ndim
    rcases hax with rfl | ⟨rfl, h⟩
    · rw [if_neg (by omega)]
    · rw [if_pos (by omega)]; omega
  unfold fft1dLoop
  simp only [e]
  rw [show arr.ndim = arr.shape.length from rfl, others, product_eq]
  have hd : arr.shape.getD ax 0 = n := by rw [List.getD_eq_getElem?_getD, hn]; rfl
  split
  · next hnil =>
    refine ⟨_, rfl, rfl, fun J k hJ hk => ?_⟩
    have := (mem_indexTuples _ _).2 (inShape_erase hJ ax)
    rw [hnil] at this
    simp at this
  · rw [if_pos ⟨by omega, by exact_mod_cast hlt, by rw [Int.toNat_natCast, hd]; omega⟩]
    refine ⟨_, rfl, rfl, fun J k hJ hk => ?_⟩
    show List.foldl (step arr (Int.toNat (ax : Int))) junk (indexTuples (arr.shape.eraseIdx ax)) J = _
    rw [Int.toNat_natCast, fold_get, if_pos ((mem_indexTuples _ _).2 (inShape_erase hJ ax))]
    exact fft_line arr ax n k hn J hJ hk

/-- **C126** is false for other negative axes: all of them mean the last axis. -/
theorem C126_negative_axis (arr : Arr ℂ) (axis : Int) (h : axis < 0) (junk : List Nat → ℂ) : fft1dLoop arr axis junk = fft1dLoop arr (-1) junk := by
  unfold fft1dLoop
  simp only [if_pos h, if_pos (show (-1 : Int) < 0 by omega)]

/-- **C126** is false for `axis=-2`: an array for which the result is not the transform along axis 0. -/
theorem C126_counterexample (junk : List Nat → ℂ) :
    ∃ (arr b : Arr ℂ), IsAxis arr.shape.length (-2) 0 ∧ fft1dLoop arr (-2) junk = .ok b ∧ ¬ IsFftAlong 0 2 arr b := by
  let arr : Arr ℂ := ⟨[2, 1], fun J => if J = [0, 0] then 1 else 0⟩
  obtain ⟨b, hb, hs, hf⟩ := C126_fft_along_partial arr (-1) 1 1 (Or.inr ⟨rfl, rfl⟩) rfl (by omega) junk
  refine ⟨arr, b, ⟨by decide, Or.inr rfl⟩, by rw [C126_negative_axis _ _ (by omega)]; exact hb, ?_⟩
  rintro ⟨-, h⟩
  have hJ : InShape [1, 0] arr.shape := .cons (by omega) (.cons (by omega) .nil)
  have e1 := hf [1, 0] 0 hJ rfl
  have e2 := h [1, 0] 1 hJ rfl
  rw [e1] at e2
  simp [arr, Finset.sum_range_succ] at e2

/-- Non-vacuity: an array with three axes, transform along the middle one. -/
example (junk : List Nat → ℂ) : ∃ b, fft1dLoop ⟨[2, 3, 4], fun J => (J.sum : ℂ)⟩ 1 junk = .ok b ∧ b.shape = [2, 3, 4] ∧ b.get [0, 0, 1] = 6 := by
  obtain ⟨b, h, hs, hf⟩ := C126_fft_along_partial ⟨[2, 3, 4], fun J => (J.sum : ℂ)⟩ 1 1 3 (Or.inl rfl) rfl (by omega) junk
  refine ⟨b, h, hs, ?_⟩
  rw [hf [0, 0, 1] 0 (.cons (by omega) (.cons (by omega) (.cons (by omega) .nil))) rfl]
  simp [Finset.sum_range_succ]
  norm_num

end Pwtools.FftLoop
