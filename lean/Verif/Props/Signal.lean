import Verif.Model.Signal
import Verif.Spec.Signal
import Verif.Props.NdArray
import Mathlib.Tactic.Ring
import Mathlib.Tactic.FieldSimp
import Mathlib.Tactic.Linarith
import Mathlib.Tactic.Positivity
import Mathlib.Analysis.SpecialFunctions.Gaussian.GaussianIntegral
/-!
# Padding, mirroring, sampling, peaks, windows: C56, C57, C60, C61, C65
-/
namespace Pwtools.Sig
open Nd Spec

/-! ### fftsample -/

section
variable {K : Type} [Field K] [CharZero K]

/-- **C61**. The two modes are inverse to each other, with and without mirroring. -/
theorem C61_fftsample (a b : K) (mirr : Bool) (ha : a ≠ 0) (hb : b ≠ 0) :
    (∃ dt N, fftsample a b "f" mirr = some (dt, N) ∧ fftsample dt N "t" mirr = some (a, b)) ∧
    (∃ fmax df, fftsample a b "t" mirr = some (fmax, df) ∧ fftsample fmax df "f" mirr = some (a, b)) := by
  constructor
  all_goals
    refine ⟨_, _, rfl, ?_⟩
    simp only [fftsample, if_true, show ("t" : String) ≠ "f" by decide, if_false, Option.some.injEq, Prod.mk.injEq]
    cases mirr <;> constructor <;> simp <;> field_simp

/-- **C61** (meaning). `dt` is half the inverse of the largest frequency, and `N dt df = 1` without and
`1/2` with mirroring. -/
theorem C61_fftsample_meaning (fmax df : K) (mirr : Bool) (hf : fmax ≠ 0) (hd : df ≠ 0) :
    ∃ dt N, fftsample fmax df "f" mirr = some (dt, N) ∧ 2 * dt * fmax = 1 ∧
      (if mirr then 2 * N else N) * dt * df = 1 := by
  refine ⟨_, _, rfl, ?_, ?_⟩
  · field_simp
  · cases mirr <;> simp <;> field_simp

/-- **C61** (error). Another mode is refused. -/
theorem C61_error (a b : K) (mode : String) (mirr : Bool) (h1 : mode ≠ "f") (h2 : mode ≠ "t") :
    fftsample a b mode mirr = none := by simp [fftsample, h1, h2]
end

example : fftsample (100 : ℚ) 1 "f" false = some (1 / 200, 200) := by norm_num [fftsample]

/-! ### pad_zeros -/

section pad
variable {α : Type}

theorem isAxis_lt {n : Nat} {axis : Int} {ax : Nat} (h : IsAxis n axis ax) : ax < n := h.1

theorem concat_ok (a b : Arr α) (axis : Int) (ax : Nat) (h : IsAxis a.shape.length axis ax)
    (hl : a.shape.length = b.shape.length) (he : a.shape.eraseIdx ax = b.shape.eraseIdx ax) :
    concat a b axis = .ok ⟨a.shape.set ax (a.shape.getD ax 0 + b.shape.getD ax 0),
      fun idx => if idx.getD ax 0 < a.shape.getD ax 0 then a.get idx
        else b.get (idx.modify ax (· - a.shape.getD ax 0))⟩ := by
  unfold concat
  rw [(pyIndex_some _ _ _).2 h]
  simp only []
  rw [if_pos ⟨hl, he⟩]

theorem eraseIdx_set {β : Type} (l : List β) (i : Nat) (x : β) : (l.set i x).eraseIdx i = l.eraseIdx i := by
  induction l generalizing i with
  | nil => rfl
  | cons a l ih => cases i with
    | zero => rfl
    | succ i => simp [ih]

theorem getD_set_self {β : Type} (l : List β) (i : Nat) (x d : β) (h : i < l.length) : (l.set i x).getD i d = x := by
  simp [List.getD_eq_getElem?_getD, List.getElem?_set, h]

theorem set_set' {β : Type} (l : List β) (i : Nat) (x y : β) : (l.set i x).set i y = l.set i y := by simp

variable [Zero α]

theorem padZeros_of (arr : Arr α) (axis : Int) (ax : Nat) (h : IsAxis arr.shape.length axis ax) (whr : String)
    (nadd upto : Option Int) (tonext : Option Bool) (tm : Option Int) (k : Nat)
    (hk : padNadd (arr.shape.getD ax 0) nadd upto tonext tm = .ok k) (hw : whr = "end" ∨ whr = "start") :
    ∃ b, padZeros arr axis whr nadd upto tonext tm = .ok b ∧
      IsPadded arr b ax (arr.shape.getD ax 0) k (decide (whr = "start")) := by
  unfold padZeros
  rw [(pyIndex_some _ _ _).2 h]
  simp only [hk]
  by_cases h0 : (k : Int) = 0
  · have h0' : k = 0 := by omega
    subst h0'
    refine ⟨arr, by simp, ?_, ?_⟩
    · rw [Nat.add_zero]
      have : arr.shape.getD ax 0 = arr.shape[ax]'h.1 := by
        rw [List.getD_eq_getElem?_getD, List.getElem?_eq_getElem h.1]; rfl
      rw [this, List.set_getElem_self]
    · intro idx hi
      have hlt : idx.getD ax 0 < arr.shape.getD ax 0 := by
        have hl := inShape_length hi
        have := (List.forall₂_iff_get.1 hi).2 ax (by rw [hl]; exact h.1) h.1
        simpa [List.getD_eq_getElem?_getD, List.getElem?_eq_getElem h.1,
          List.getElem?_eq_getElem (by rw [hl]; exact h.1 : ax < idx.length)] using this
      have : idx.modify ax (fun x => x - 0) = idx := by
        simp only [Nat.sub_zero]
        exact List.modify_id _ _
      rw [this]
      simp only [Nat.not_lt_zero, if_false, hlt, if_true, ite_self]
  · rw [if_neg h0]
    have hs : ((k : Int)).toNat = k := by simp
    rcases hw with rfl | rfl
    · rw [if_pos rfl, if_neg (by omega), hs,
        concat_ok arr (zeros (arr.shape.set ax k)) axis ax h (by simp [zeros]) (by simp [zeros, eraseIdx_set])]
      refine ⟨_, rfl, ?_, ?_⟩
      · simp only [zeros]
        rw [getD_set_self _ _ _ _ h.1]
      · intro idx hi
        simp [zeros]
    · rw [if_neg (by decide), if_pos rfl, if_neg (by omega), hs,
        concat_ok (zeros (arr.shape.set ax k)) arr axis ax (by simpa [zeros] using h) (by simp [zeros])
          (by simp [zeros, eraseIdx_set])]
      refine ⟨_, rfl, ?_, ?_⟩
      · simp only [zeros]
        rw [getD_set_self _ _ _ _ h.1, set_set', Nat.add_comm]
      · intro idx hi
        have hz : (zeros (α := α) (arr.shape.set ax k)).shape.getD ax 0 = k := getD_set_self _ _ _ _ h.1
        simp only [hz, decide_true, if_true]
        rfl

/-- **C56** (`nadd`, `upto`, default). With `nadd = k`, with `upto = n + k`, and with no argument (`k = n`),
the array is padded with `k` zeros along the axis, at the end or at the start. -/
theorem C56_pad_zeros (arr : Arr α) (axis : Int) (ax n k : Nat) (h : IsAxis arr.shape.length axis ax)
    (hn : arr.shape[ax]? = some n) (whr : String) (hw : whr = "end" ∨ whr = "start") (tm : Option Int) (f : Option Bool)
    (hf : f = none ∨ f = some false) :
    (∃ b, padZeros arr axis whr (some k) none f tm = .ok b ∧ IsPadded arr b ax n k (decide (whr = "start"))) ∧
    (∃ b, padZeros arr axis whr none (some ((n : Int) + k)) f tm = .ok b ∧
      IsPadded arr b ax n k (decide (whr = "start"))) ∧
    (∃ b, padZeros arr axis whr none none f tm = .ok b ∧ IsPadded arr b ax n n (decide (whr = "start"))) := by
  have hg : arr.shape.getD ax 0 = n := by rw [List.getD_eq_getElem?_getD, hn]; rfl
  have e := padZeros_of arr axis ax h whr
  rw [hg] at e
  refine ⟨e (some k) none f tm k ?_ hw, e none (some ((n : Int) + k)) f tm k ?_ hw, e none none f tm n ?_ hw⟩
  · rcases hf with rfl | rfl <;> simp [padNadd]
  · rcases hf with rfl | rfl <;> simp [padNadd]
  · rcases hf with rfl | rfl <;> simp [padNadd]

theorem twoPowers_len : twoPowers.length = 30 := by simp [twoPowers]
theorem twoPowers_get (i : Nat) (h : i < 30) : twoPowers.getD i 0 = 2 ^ i := by
  simp [twoPowers, List.getD_eq_getElem?_getD, List.getElem?_map, List.getElem?_range h]

theorem takeWhile_length_spec {β : Type} (p : β → Bool) (l : List β) (d : β) :
    (∀ i < (l.takeWhile p).length, p (l.getD i d) = true) ∧
    ((l.takeWhile p).length < l.length → p (l.getD (l.takeWhile p).length d) = false) := by
  induction l with
  | nil => simp
  | cons a l ih =>
    by_cases h : p a
    · rw [List.takeWhile_cons_of_pos h]
      simp only [List.length_cons]
      refine ⟨?_, ?_⟩
      · intro i hi
        cases i with
        | zero => exact h
        | succ i => exact ih.1 i (by omega)
      · intro hl
        exact ih.2 (by omega)
    · rw [List.takeWhile_cons_of_neg h]
      simp [h]

theorem searchsorted_two (m : Int) (hm : m ≤ 2 ^ 29) :
    ∃ p : Nat, twoPowers.getD (searchsorted twoPowers m) 0 = 2 ^ p ∧ m ≤ 2 ^ p ∧ ∀ q : Nat, m ≤ 2 ^ q → p ≤ q := by
  obtain ⟨h1, h2⟩ := takeWhile_length_spec (fun y : Int => decide (y < m)) twoPowers 0
  have hlt : searchsorted twoPowers m < 30 := by
    by_contra hc
    have h29 := h1 29 (by unfold searchsorted at hc; omega)
    rw [twoPowers_get 29 (by omega)] at h29
    simp only [decide_eq_true_eq] at h29
    omega
  have h2' := h2 (by rw [twoPowers_len]; exact hlt)
  rw [show (twoPowers.takeWhile (fun y : Int => decide (y < m))).length = searchsorted twoPowers m from rfl,
    twoPowers_get _ hlt] at h2'
  simp only [decide_eq_false_iff_not, not_lt] at h2'
  refine ⟨_, twoPowers_get _ hlt, h2', ?_⟩
  intro q hq
  by_contra hc
  have h3 := h1 q (by unfold searchsorted at hc hlt; omega)
  rw [twoPowers_get q (by omega)] at h3
  simp only [decide_eq_true_eq] at h3
  omega

/-- **C56** (`tonext`). With `tonext=True` the padded length is the smallest power of two that is at least
`tonext_min` (default: the length of the axis), for `tonext_min ≤ 2^29`; it is an error if the
array is longer than that power. -/
theorem C56_pad_tonext (arr : Arr α) (axis : Int) (ax n : Nat) (h : IsAxis arr.shape.length axis ax)
    (hn : arr.shape[ax]? = some n) (whr : String) (hw : whr = "end" ∨ whr = "start") (tm : Option Int)
    (hm : tm.getD n ≤ 2 ^ 29) :
    ∃ p : Nat, tm.getD n ≤ 2 ^ p ∧ (∀ q : Nat, tm.getD n ≤ 2 ^ q → p ≤ q) ∧
      (n ≤ 2 ^ p → ∃ b, padZeros arr axis whr none none (some true) tm = .ok b ∧
        IsPadded arr b ax n (2 ^ p - n) (decide (whr = "start")) ∧ b.shape[ax]? = some (2 ^ p)) ∧
      (2 ^ p < n → padZeros arr axis whr none none (some true) tm = .error .value) := by
  have hg : arr.shape.getD ax 0 = n := by rw [List.getD_eq_getElem?_getD, hn]; rfl
  have e := padZeros_of arr axis ax h whr
  rw [hg] at e
  obtain ⟨p, hp1, hp2, hp3⟩ := searchsorted_two (tm.getD n) hm
  have hlast : twoPowers.getLastD 0 = 2 ^ 29 := by decide
  have hpad : padNadd n none none (some true) tm = .ok ((2 : Int) ^ p - n) := by
    unfold padNadd
    simp only [reduceCtorEq, if_true, if_false, Option.some.injEq, Bool.true_eq_false]
    rw [if_pos (by norm_num), hlast, if_pos hm, hp1]
  refine ⟨p, hp2, hp3, ?_, ?_⟩
  · intro hle
    obtain ⟨b, hb1, hb2⟩ := e none none (some true) tm (2 ^ p - n) (by
      rw [hpad]; congr 1; push_cast [Nat.cast_sub hle]; rfl) hw
    refine ⟨b, hb1, hb2, ?_⟩
    rw [hb2.1, List.getElem?_set_self h.1]
    congr 1; omega
  · intro hlt
    unfold padZeros
    rw [(pyIndex_some _ _ _).2 h]
    simp only [hg, hpad]
    have : ((2 : Int) ^ p - n) < 0 := by
      have : ((2 ^ p : Nat) : Int) < n := by exact_mod_cast hlt
      push_cast at this; omega
    rw [if_neg (by omega)]
    rcases hw with rfl | rfl
    · rw [if_pos rfl, if_pos this]
    · rw [if_neg (by decide), if_pos rfl, if_pos this]

/-- **C56** (errors). More than one of `nadd`, `upto`, `tonext=True` is refused; so is another value of
`where` (unless nothing is to be padded) and a negative number of zeros. -/
theorem C56_errors (arr : Arr α) (axis : Int) (ax n : Nat) (h : IsAxis arr.shape.length axis ax)
    (hn : arr.shape[ax]? = some n) (whr : String) (tm : Option Int) (j k : Int) (f : Option Bool) :
    padZeros arr axis whr (some j) (some k) f tm = .error .assertion ∧
    padZeros arr axis whr (some j) none (some true) tm = .error .assertion ∧
    padZeros arr axis whr none (some k) (some true) tm = .error .assertion ∧
    (k < 0 → whr = "end" ∨ whr = "start" → padZeros arr axis whr (some k) none none tm = .error .value) ∧
    (k ≠ 0 → whr ≠ "end" → whr ≠ "start" → padZeros arr axis whr (some k) none none tm = .error .strange) := by
  have hg : arr.shape.getD ax 0 = n := by rw [List.getD_eq_getElem?_getD, hn]; rfl
  have hp := (pyIndex_some _ _ _).2 h
  refine ⟨?_, ?_, ?_, ?_, ?_⟩
  · unfold padZeros; rw [hp]; simp only [padNadd]
    rcases f with _ | (_ | _) <;> simp
  · unfold padZeros; rw [hp]; simp [padNadd]
  · unfold padZeros; rw [hp]; simp [padNadd]
  · intro hk hw
    unfold padZeros; rw [hp]; simp only [padNadd]
    rcases hw with rfl | rfl
    · simp [hk, hk.ne]
    · simp [hk, hk.ne]
  · intro hk h1 h2
    unfold padZeros; rw [hp]; simp [padNadd, hk, h1, h2]

/-- Non-vacuity: 9 items are padded to 16. -/
example : ∃ b, padZeros (⟨[9], fun i => (i.headD 0 : Int)⟩ : Arr Int) 0 "end" none none (some true) none = .ok b ∧
    b.shape = [16] := ⟨_, rfl, rfl⟩
end pad

/-! ### mirror -/

section mir
variable {α : Type}

theorem index_one (arr : Arr α) (n : Nat) (sh : List Nat) (hs : arr.shape = n :: sh) (s : Sl) (st k : Int) (c : Nat)
    (h : s.indices n = some (st, k, c)) :
    arr.index [.sl s] = .ok ⟨c :: sh, fun idx => arr.get ((st + (idx.headD 0 : Nat) * k).toNat :: idx.tail)⟩ := by
  simp [Arr.index, hs, takeAll, h]

theorem rev_indices (n : Nat) : (⟨none, none, some (-1)⟩ : Sl).indices n = some ((n : Int) - 1, -1, n) := by
  simp only [Sl.indices, Option.getD_some]
  rw [if_neg (by omega)]
  simp only [show ((-1 : Int) < 0) by omega, if_true]
  congr 2
  congr 1
  rcases n with _ | n
  · simp
  · rw [if_pos (by omega)]; simp

theorem tail_indices (n : Nat) : (⟨some 1, none, none⟩ : Sl).indices n = some (min 1 (n : Int), 1, n - 1) := by
  simp only [Sl.indices, Option.getD_none]
  rw [if_neg (by omega)]
  simp only [show ¬ ((1 : Int) < 0) by omega, if_false]
  congr 2
  congr 1
  rcases n with _ | _ | n
  · simp
  · simp
  · rw [if_pos (by omega)]; simp; omega

/-- **C57** (axis 0, in any way to write it). `mirror` has `2n-1` entries along axis 0; entry `n-1+i` and
entry `n-1-i` are both `arr[i]`. -/
theorem C57_mirror_partial (arr : Arr α) (n : Nat) (sh : List Nat) (hs : arr.shape = n :: sh) (hn : 1 ≤ n) (axis : Int)
    (hax : IsAxis arr.shape.length axis 0) :
    ∃ b, mirror arr axis = .ok b ∧ b.shape = (2 * n - 1) :: sh ∧
      ∀ (i : Nat) (idx : List Nat), i < n → b.get ((n - 1 + i) :: idx) = arr.get (i :: idx) ∧
        b.get ((n - 1 - i) :: idx) = arr.get (i :: idx) := by
  unfold mirror
  rw [index_one arr n sh hs _ _ _ _ (rev_indices n), index_one arr n sh hs _ _ _ _ (tail_indices n)]
  simp only []
  rw [concat_ok _ _ axis 0 (by simpa [hs] using hax) (by simp) (by simp)]
  refine ⟨_, rfl, ?_, ?_⟩
  · simp; omega
  · intro i idx hi
    constructor
    · simp only [List.getD_cons_zero, List.headD_cons, List.tail_cons, List.modify_zero_cons]
      by_cases h0 : i = 0
      · subst h0
        rw [if_pos (by omega)]
        congr 2; omega
      · rw [if_neg (by omega)]
        congr 2
        have : min 1 (n : Int) = 1 := by omega
        rw [this]; omega
    · simp only [List.getD_cons_zero, List.headD_cons, List.tail_cons]
      rw [if_pos (by omega)]
      congr 2; omega

/-- **C57** fails for every other axis: `mirror` raises, whatever the array is (with at least one
item along axis 0). -/
theorem C57_other_axis_raises (arr : Arr α) (n : Nat) (sh : List Nat) (hs : arr.shape = n :: sh) (hn : 1 ≤ n) (axis : Int)
    (ax : Nat) (h0 : ax ≠ 0) (hax : IsAxis arr.shape.length axis ax) :
    mirror arr axis = .error .value := by
  unfold mirror
  rw [index_one arr n sh hs _ _ _ _ (rev_indices n), index_one arr n sh hs _ _ _ _ (tail_indices n)]
  simp only []
  unfold concat
  rw [show (⟨n :: sh, _⟩ : Arr α).shape = n :: sh from rfl] 
  rw [(pyIndex_some _ _ _).2 (by simpa [hs] using hax : IsAxis (n :: sh).length axis ax)]
  simp only []
  rw [if_neg]
  rintro ⟨_, h⟩
  obtain ⟨m, rfl⟩ := Nat.exists_eq_succ_of_ne_zero h0
  simp only [List.eraseIdx_cons_succ, List.cons.injEq] at h
  omega

/-- **C57** (1d). The list form used by `pdos`: symmetric about the middle and ending with the input. -/
theorem C57_mirror_1d (l : List α) (h : l ≠ []) :
    (mirrorL l).length = 2 * l.length - 1 ∧ (mirrorL l).reverse = mirrorL l ∧ l <:+ mirrorL l := by
  obtain ⟨a, t, rfl⟩ := List.exists_cons_of_ne_nil h
  refine ⟨by simp [mirrorL]; omega, by simp [mirrorL], ?_⟩
  exact ⟨t.reverse, by simp [mirrorL]⟩

example : mirrorL [1, 2, 3] = [3, 2, 1, 2, 3] := rfl
example : ∃ b, mirror (⟨[3], fun i => i.headD 0⟩ : Arr Nat) 0 = .ok b ∧ (List.range 5).map (fun i => b.get [i]) = [2, 1, 0, 1, 2] :=
  ⟨_, rfl, rfl⟩
end mir

/-! ### find_peaks -/

section ord
variable {K : Type} [Field K] [LinearOrder K] [IsStrictOrderedRing K]

theorem foldl_min_le (l : List K) (a : K) : l.foldl min a ≤ a ∧ ∀ v ∈ l, l.foldl min a ≤ v := by
  induction l generalizing a with
  | nil => simp
  | cons b l ih =>
    simp only [List.foldl_cons, List.mem_cons]
    have h := ih (min a b)
    refine ⟨h.1.trans (min_le_left _ _), ?_⟩
    rintro v (rfl | hv)
    · exact h.1.trans (min_le_right _ _)
    · exact h.2 v hv

theorem le_foldl_max (l : List K) (a : K) : a ≤ l.foldl max a ∧ ∀ v ∈ l, v ≤ l.foldl max a := by
  induction l generalizing a with
  | nil => simp
  | cons b l ih =>
    simp only [List.foldl_cons, List.mem_cons]
    have h := ih (max a b)
    refine ⟨(le_max_left _ _).trans h.1, ?_⟩
    rintro v (rfl | hv)
    · exact (le_max_right _ _).trans h.1
    · exact h.2 v hv

theorem listMin_le (x : List K) (v : K) (hv : v ∈ x) : listMin x ≤ v := by
  cases x with
  | nil => simp at hv
  | cons a l =>
    rcases List.mem_cons.1 hv with rfl | hv
    · exact (foldl_min_le l v).1
    · exact (foldl_min_le l a).2 v hv

theorem listMin_mem (x : List K) (h : x ≠ []) : listMin x ∈ x := by
  cases x with
  | nil => simp at h
  | cons a l =>
    simp only [listMin]
    clear h
    induction l generalizing a with
    | nil => simp
    | cons b l ih =>
      simp only [List.foldl_cons]
      have := ih (min a b)
      rcases List.mem_cons.1 this with h | h
      · rw [h]
        rcases min_choice a b with h | h <;> rw [h] <;> simp
      · exact List.mem_cons_of_mem _ (List.mem_cons_of_mem _ h)

theorem listMax_ge (x : List K) (v : K) (hv : v ∈ x) : v ≤ listMax x := by
  cases x with
  | nil => simp at hv
  | cons a l =>
    rcases List.mem_cons.1 hv with rfl | hv
    · exact (le_foldl_max l v).1
    · exact (le_foldl_max l a).2 v hv

theorem listMax_mem (x : List K) (h : x ≠ []) : listMax x ∈ x := by
  cases x with
  | nil => simp at h
  | cons a l =>
    simp only [listMax]
    clear h
    induction l generalizing a with
    | nil => simp
    | cons b l ih =>
      simp only [List.foldl_cons]
      have := ih (max a b)
      rcases List.mem_cons.1 this with h | h
      · rw [h]
        rcases max_choice a b with h | h <;> rw [h] <;> simp
      · exact List.mem_cons_of_mem _ (List.mem_cons_of_mem _ h)

theorem diff_get (y : List K) (i : Nat) (h : i + 1 < y.length) : (diff y).getD i 0 = y.getD (i + 1) 0 - y.getD i 0 := by
  simp only [diff, List.getD_eq_getElem?_getD, List.getElem?_zipWith, List.getElem?_drop]
  rw [List.getElem?_eq_getElem (show i < y.length by omega), List.getElem?_eq_getElem (show 1 + i < y.length by omega),
    List.getElem?_eq_getElem h]
  simp [Nat.add_comm]

theorem diff_length (y : List K) : (diff y).length = y.length - 1 := by simp [diff]

theorem mem_findPeaks (y : List K) (ym : Option K) (hy : y ≠ []) :
    ∃ p, findPeaks y ym = some p ∧ p.Pairwise (· < ·) ∧
      ∀ i, i ∈ p ↔ IsPeak y i ∧ ∀ l, y[i - 1]? = some l → ym.getD (listMin y) ≤ l := by
  refine ⟨_, by unfold findPeaks; rw [if_neg (by simp [hy])], ?_, ?_⟩
  · rw [List.pairwise_map]
    apply List.Pairwise.filter
    exact List.pairwise_lt_range.imp (by intro a b h; omega)
  · intro i
    simp only [List.mem_map, List.mem_filter, List.mem_range, decide_eq_true_eq, diff_length]
    constructor
    · rintro ⟨j, ⟨hj, h1, h2, h3⟩, rfl⟩
      rw [diff_get _ _ (by omega)] at h1 h2
      simp only [List.getD_eq_getElem?_getD, List.getElem?_eq_getElem (show j < y.length by omega),
        List.getElem?_eq_getElem (show j + 1 < y.length by omega),
        List.getElem?_eq_getElem (show j + 1 + 1 < y.length by omega), Option.getD_some] at h1 h2 h3
      refine ⟨⟨y[j], y[j + 1], y[j + 1 + 1], by omega, ?_, ?_, ?_, by linarith, by linarith⟩, ?_⟩
      · simp [List.getElem?_eq_getElem (show j < y.length by omega)]
      · exact List.getElem?_eq_getElem _
      · exact List.getElem?_eq_getElem _
      · intro l hl
        rw [Nat.add_sub_cancel, List.getElem?_eq_getElem (show j < y.length by omega)] at hl
        cases hl; exact h3
    · rintro ⟨⟨l, c, r, hi, hl, hc, hr, h1, h2⟩, h3⟩
      have hr' := (List.getElem?_eq_some_iff.1 hr).1
      refine ⟨i - 1, ⟨by omega, ?_, ?_, ?_⟩, by omega⟩
      · rw [diff_get _ _ (by omega), show i - 1 + 1 = i by omega]
        simp only [List.getD_eq_getElem?_getD, hl, hc, Option.getD_some]; linarith
      · rw [show i - 1 + 1 = i by omega, diff_get _ _ (by omega)]
        simp only [List.getD_eq_getElem?_getD, hr, hc, Option.getD_some]; linarith
      · simp only [List.getD_eq_getElem?_getD, hl, Option.getD_some]; exact h3 l hl

/-- **C60** (default `ymin`). Exactly the strict inner local maxima are returned, in increasing order. -/
theorem C60_find_peaks (y : List K) (hy : y ≠ []) :
    ∃ p, findPeaks y none = some p ∧ p.Pairwise (· < ·) ∧ ∀ i, i ∈ p ↔ IsPeak y i := by
  obtain ⟨p, h1, h2, h3⟩ := mem_findPeaks y none hy
  refine ⟨p, h1, h2, fun i => ?_⟩
  rw [h3]
  constructor
  · exact fun h => h.1
  · exact fun h => ⟨h, fun l hl => listMin_le y l (List.mem_of_getElem? hl)⟩

/-- **C60** (`ymin` given). Everything returned is a local maximum above `ymin`; a local maximum above
`ymin` is returned if (and only if) its left neighbour is above `ymin` as well.
Missing for the full property: maxima whose left neighbour lies below `ymin`. -/
theorem C60_ymin_partial (y : List K) (hy : y ≠ []) (ymin : K) :
    ∃ p, findPeaks y (some ymin) = some p ∧ p.Pairwise (· < ·) ∧
      (∀ i ∈ p, IsPeak y i ∧ ∀ c, y[i]? = some c → ymin < c) ∧
      (∀ i l, IsPeak y i → y[i - 1]? = some l → (i ∈ p ↔ ymin ≤ l)) := by
  obtain ⟨p, h1, h2, h3⟩ := mem_findPeaks y (some ymin) hy
  refine ⟨p, h1, h2, ?_, ?_⟩
  · intro i hi
    obtain ⟨hp, hl⟩ := (h3 i).1 hi
    refine ⟨hp, ?_⟩
    obtain ⟨l, c, r, _, h4, h5, _, h6, _⟩ := hp
    intro c' hc'
    rw [h5] at hc'; cases hc'
    exact lt_of_le_of_lt (hl l h4) h6
  · intro i l hp hl
    rw [h3]
    simp only [Option.getD_some]
    exact ⟨fun h => h.2 l hl, fun h => ⟨hp, fun l' hl' => by rw [hl] at hl'; cases hl'; exact h⟩⟩

/-- **C60** fails with `ymin`: the peak of height 5 in (0, 5, 0) is above 3 and is not found. -/
theorem C60_counterexample : findPeaks ([0, 5, 0] : List ℚ) (some 3) = some [] ∧ IsPeak ([0, 5, 0] : List ℚ) 1 := by
  constructor
  · unfold findPeaks
    rw [if_neg (by simp)]
    norm_num [diff, List.range_succ]
  · exact ⟨0, 5, 0, by omega, rfl, rfl, rfl, by norm_num, by norm_num⟩

/-- **C60** (empty): without `ymin` an empty array is an error. -/
theorem C60_empty : findPeaks ([] : List K) none = none := by simp [findPeaks]

example : findPeaks ([0, 5, 0, 1, 3, 2] : List ℚ) none = some [1, 4] := by
  unfold findPeaks
  rw [if_neg (by simp)]
  norm_num [diff, List.range_succ, listMin]

/-! ### odd, scale, windows -/

/-- **C65** (`odd`). -/
theorem C65_odd (n add : Int) (h : add = -1 ∨ add = 1) :
    ∃ m, odd n add = some m ∧ m % 2 = 1 ∧ (n % 2 = 1 → m = n) ∧ (n % 2 = 0 → m = n + add) := by
  refine ⟨_, by unfold odd; rw [if_pos h], ?_, ?_, ?_⟩
  · split <;> omega
  · intro h'; rw [if_pos h']
  · intro h'; rw [if_neg (by omega)]

/-- **C65** (`odd`, error). -/
theorem C65_odd_error (n add : Int) (h1 : add ≠ -1) (h2 : add ≠ 1) : odd n add = none := by simp [odd, h1, h2]

/-- **C65** (`scale`). If not all values are equal, the values are mapped by one increasing affine map
into [0, 1], a smallest value to 0 and a largest one to 1. -/
theorem C65_scale (x : List K) (u v : K) (hu : u ∈ x) (hv : v ∈ x) (huv : u < v) :
    ∃ y a b, scale x = some y ∧ 0 < a ∧ y = x.map (fun t => a * t + b) ∧ (∀ t ∈ y, 0 ≤ t ∧ t ≤ 1) ∧ 0 ∈ y ∧ 1 ∈ y := by
  have hne : x ≠ [] := by rintro rfl; simp at hu
  set xx := x.map (fun v => v - listMin x) with hxx
  have hxne : xx ≠ [] := by simpa [hxx] using hne
  have hpos : 0 < listMax xx := by
    have h1 : v - listMin x ∈ xx := List.mem_map.2 ⟨v, hv, rfl⟩
    have h2 := listMax_ge xx _ h1
    have h3 := listMin_le x u hu
    linarith
  refine ⟨xx.map (fun v => v / listMax xx), 1 / listMax xx, -(listMin x) / listMax xx, ?_, by positivity, ?_, ?_, ?_, ?_⟩
  · unfold scale
    rw [if_neg hne]
    simp only [← hxx]
    rw [if_neg hpos.ne']
  · rw [hxx, List.map_map]
    apply List.map_congr_left
    intro t _
    simp only [Function.comp_apply]; ring
  · intro t ht
    obtain ⟨s, hs, rfl⟩ := List.mem_map.1 ht
    obtain ⟨w, hw, rfl⟩ := List.mem_map.1 hs
    have h1 := listMin_le x w hw
    have h2 := listMax_ge xx _ hs
    exact ⟨div_nonneg (by linarith) hpos.le, (div_le_one hpos).2 h2⟩
  · refine List.mem_map.2 ⟨0, List.mem_map.2 ⟨listMin x, listMin_mem x hne, by ring⟩, by simp⟩
  · exact List.mem_map.2 ⟨listMax xx, listMax_mem xx hxne, div_self hpos.ne'⟩

/-- **C65** (`scale`, no result). Equal values give no finite result. -/
theorem C65_scale_constant (x : List K) (c : K) (h : ∀ t ∈ x, t = c) : scale x = none := by
  unfold scale
  split
  · rfl
  · rename_i hne
    have hm := h _ (listMin_mem x hne)
    have : listMax (x.map (fun v => v - listMin x)) = 0 := by
      have := listMax_mem (x.map (fun v => v - listMin x)) (by simpa using hne)
      obtain ⟨w, hw, e⟩ := List.mem_map.1 this
      rw [← e, h w hw, hm, sub_self]
    rw [if_pos this]

example : scale ([2, 4, 3] : List ℚ) = some [0, 1, 1 / 2] := by
  unfold scale
  rw [if_neg (by simp)]
  norm_num [listMin, listMax]

/-- **C65** (`welch`). For `M ≥ 2` the symmetric window has `M` entries in [0, 1], is symmetric, and has
zero ends; for odd `M` the middle is 1. -/
theorem C65_welch (M : Nat) (hM : 2 ≤ M) :
    (welch (M : Int) true : List K).length = M ∧
    (welch (M : Int) true : List K).reverse = welch (M : Int) true ∧
    (∀ w ∈ (welch (M : Int) true : List K), 0 ≤ w ∧ w ≤ 1) ∧
    (welch (M : Int) true : List K)[0]? = some 0 ∧ (welch (M : Int) true : List K)[M - 1]? = some 0 ∧
    (M % 2 = 1 → (welch (M : Int) true : List K)[M / 2]? = some 1) := by
  have e : (welch (M : Int) true : List K) = (List.range M).map
      (fun n : Nat => 1 - (((n : K) - 1 / 2 * ((M : K) - 1)) / (1 / 2 * ((M : K) - 1))) ^ 2) := by
    unfold welch
    rw [if_neg (by omega), if_neg (by omega)]
    simp
  have hM1 : (0 : K) < (M : K) - 1 := by
    have : (2 : K) ≤ (M : K) := by exact_mod_cast hM
    linarith
  rw [e]
  refine ⟨by simp, ?_, ?_, ?_, ?_, ?_⟩
  · apply List.ext_getElem
    · simp
    · intro i h1 h2
      simp only [List.length_reverse, List.length_map, List.length_range] at h1
      simp only [List.getElem_reverse, List.getElem_map, List.getElem_range, List.length_map, List.length_range]
      rw [Nat.cast_sub (by omega), Nat.cast_sub (by omega)]
      push_cast
      field_simp
      ring
  · intro w hw
    obtain ⟨n, hn, rfl⟩ := List.mem_map.1 hw
    rw [List.mem_range] at hn
    have hn0 : (0 : K) ≤ n := Nat.cast_nonneg n
    have hn1 : (n : K) ≤ (M : K) - 1 := by
      have : n + 1 ≤ M := hn
      have : ((n + 1 : Nat) : K) ≤ M := by exact_mod_cast this
      push_cast at this; linarith
    have hd : (0 : K) < 1 / 2 * ((M : K) - 1) := by linarith
    set d := 1 / 2 * ((M : K) - 1) with hdd
    have hq1 : ((n : K) - d) / d ≤ 1 := by rw [div_le_one hd]; linarith
    have hq2 : -1 ≤ ((n : K) - d) / d := by rw [le_div_iff₀ hd]; linarith
    constructor
    · nlinarith
    · nlinarith [sq_nonneg (((n : K) - d) / d)]
  · rw [List.getElem?_map, List.getElem?_range (by omega)]
    simp only [Option.map_some, Option.some.injEq]
    field_simp
    push_cast; ring
  · rw [List.getElem?_map, List.getElem?_range (by omega)]
    simp only [Option.map_some, Option.some.injEq]
    rw [Nat.cast_sub (by omega)]
    push_cast
    field_simp
    ring
  · intro ho
    rw [List.getElem?_map, List.getElem?_range (by omega)]
    simp only [Option.map_some, Option.some.injEq]
    have : M = 2 * (M / 2) + 1 := by omega
    have h2 : ((M / 2 : Nat) : K) = ((M : K) - 1) / 2 := by
      have : ((2 * (M / 2) + 1 : Nat) : K) = M := by rw [← this]
      push_cast at this; linarith
    rw [h2]
    have : ((M : K) - 1) / 2 - 1 / 2 * ((M : K) - 1) = 0 := by ring
    rw [this]; simp

/-- **C65** (`welch`, small and periodic windows). -/
theorem C65_welch_cases (M : Int) (sym : Bool) :
    (M < 1 → (welch M sym : List K) = []) ∧ ((welch 1 sym : List K) = [1]) ∧
    (2 ≤ M → M % 2 = 0 → (welch M false : List K) = (welch (M + 1) true).dropLast) ∧
    (2 ≤ M → M % 2 = 1 → (welch M false : List K) = welch M true) := by
  refine ⟨?_, by simp [welch], ?_, ?_⟩
  · intro h; simp [welch, h]
  · intro h1 h2
    have a1 : ¬ M < 1 := by omega
    have a2 : ¬ M = 1 := by omega
    have a3 : ¬ M + 1 < 1 := by omega
    have a4 : ¬ M + 1 = 1 := by omega
    simp only [welch, a1, a2, a3, a4, if_false, h2, decide_true, Bool.not_false, Bool.not_true, Bool.and_true,
      Bool.false_and, if_true, Bool.false_eq_true]
  · intro h1 h2
    have a1 : ¬ M < 1 := by omega
    have a2 : ¬ M = 1 := by omega
    simp [welch, a1, a2, h2]

example : (welch 5 true : List ℚ) = [0, 3 / 4, 1, 3 / 4, 0] := by
  have : Int.toNat 5 = 5 := rfl
  norm_num [welch, this, List.range_succ]

/-- **C65** (`lorentz`). For `M ≥ 1` and `std > 0` the symmetric window is positive, symmetric, and has
largest value 1. -/
theorem C65_lorentz (M : Nat) (hM : 2 ≤ M) (std : K) (hs : 0 < std) :
    (lorentz (M : Int) std true).length = M ∧
    (lorentz (M : Int) std true).reverse = lorentz (M : Int) std true ∧
    (∀ w ∈ lorentz (M : Int) std true, 0 < w ∧ w ≤ 1) ∧ 1 ∈ lorentz (M : Int) std true := by
  set w0 : List K := (List.range M).map (fun n : Nat => std / (((n : K) - ((M : K) - 1) / 2) ^ 2 + std ^ 2)) with hw0
  have e : lorentz (M : Int) std true = w0.map (fun v => v / listMax w0) := by
    unfold lorentz
    rw [if_neg (by omega), if_neg (by omega)]
    simp only [Bool.not_true, Bool.false_and, Bool.false_eq_true, if_false, Int.toNat_natCast, Int.cast_natCast, ← hw0]
  have hne : w0 ≠ [] := by
    intro h
    have := congrArg List.length h
    simp [hw0] at this; omega
  have hposall : ∀ w ∈ w0, 0 < w := by
    intro w hw
    obtain ⟨n, _, rfl⟩ := List.mem_map.1 hw
    positivity
  have hmax := listMax_mem w0 hne
  have hmp := hposall _ hmax
  rw [e]
  refine ⟨by simp [hw0], ?_, ?_, ?_⟩
  · rw [← List.map_reverse]
    congr 1
    apply List.ext_getElem
    · simp
    · intro i h1 h2
      simp only [hw0, List.length_reverse, List.length_map, List.length_range] at h1
      simp only [hw0, List.getElem_reverse, List.getElem_map, List.getElem_range, List.length_map, List.length_range]
      rw [Nat.cast_sub (by omega), Nat.cast_sub (by omega)]
      push_cast
      congr 2
      ring
  · intro w hw
    obtain ⟨v, hv, rfl⟩ := List.mem_map.1 hw
    exact ⟨div_pos (hposall v hv) hmp, (div_le_one hmp).2 (listMax_ge w0 v hv)⟩
  · exact List.mem_map.2 ⟨_, hmax, div_self hmp.ne'⟩

example : lorentz (3 : Int) (1 : ℚ) true = [1 / 2, 1, 1 / 2] := by
  have : Int.toNat 3 = 3 := rfl
  norm_num [lorentz, this, List.range_succ, listMax]

end ord

/-- **C65** (`gauss`). With `norm=True` the area is 1; without, the largest value is 1, at 0, and the function
is even. -/
theorem C65_gauss (std : ℝ) (hs : 0 < std) :
    (∫ x, gauss x std true) = 1 ∧ (∀ x, 0 < gauss x std false ∧ gauss x std false ≤ gauss 0 std false) ∧
    gauss 0 std false = 1 ∧ ∀ x n, gauss (-x) std n = gauss x std n := by
  refine ⟨?_, ?_, by simp [gauss], ?_⟩
  · simp only [gauss, if_true]
    rw [MeasureTheory.integral_const_mul]
    have h : ∀ x : ℝ, Real.exp (-x ^ 2 / 2 / std ^ 2) = Real.exp (-(1 / (2 * std ^ 2)) * x ^ 2) := by
      intro x; congr 1; field_simp
    simp only [h]
    rw [integral_gaussian]
    have h2 : Real.pi / (1 / (2 * std ^ 2)) = (2 * Real.pi) * std ^ 2 := by field_simp
    rw [h2, Real.sqrt_mul (show (0 : ℝ) ≤ 2 * Real.pi by positivity) (std ^ 2), Real.sqrt_sq hs.le]
    have : Real.sqrt (2 * Real.pi) ≠ 0 := by positivity
    field_simp
  · intro x
    simp only [gauss, Bool.false_eq_true, if_false]
    refine ⟨Real.exp_pos _, Real.exp_le_exp.2 ?_⟩
    have : -x ^ 2 / 2 / std ^ 2 ≤ 0 := by
      rw [neg_div, neg_div]; simp only [Left.neg_nonpos_iff]; positivity
    simpa using this
  · intro x n; cases n <;> simp [gauss]

end Pwtools.Sig
