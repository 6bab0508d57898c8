import Verif.Spec.NdArray
import Mathlib.Data.List.Sort
import Mathlib.Data.List.Forall2
import Mathlib.Tactic.Ring
/-!
# C23, C24, C25: axis helpers
-/
namespace Pwtools.Nd
open Spec

/-! ### Python slices -/

theorem range_map_sorted (f : Nat → Nat) (c : Nat) (r : Nat → Nat → Prop)
    (h : ∀ i j, i < j → j < c → r (f i) (f j)) : ((List.range c).map f).Pairwise r := by
  rw [List.pairwise_map]
  exact List.pairwise_lt_range.imp_of_mem (fun {a b} ha hb hab => h a b hab (List.mem_range.1 hb))

theorem eq_of_sorted (r : Nat → Nat → Prop) (irr : ∀ a, ¬ r a a) (asymm : ∀ a b, r a b → r b a → a = b)
    {l1 l2 : List Nat} (h1 : l1.Pairwise r) (h2 : l2.Pairwise r) (hm : ∀ x, x ∈ l1 ↔ x ∈ l2) : l1 = l2 := by
  have n1 : l1.Nodup := h1.imp (fun {a b} hab => by rintro rfl; exact irr _ hab)
  have n2 : l2.Nodup := h2.imp (fun {a b} hab => by rintro rfl; exact irr _ hab)
  exact List.Perm.eq_of_pairwise (fun a b _ _ => asymm a b) h1 h2
    ((List.perm_ext_iff_of_nodup n1 n2).2 hm)

theorem indices_none (s : Sl) (n : Nat) : s.indices n = none ↔ s.step = some 0 := by
  unfold Sl.indices
  rcases h : s.step with _ | k
  · simp
  · by_cases hk : k = 0 <;> simp [hk]

theorem indices_full (n : Nat) : Sl.indices {} n = some (0, 1, n) := by
  simp only [Sl.indices, Option.getD_none]
  by_cases hn : n = 0
  · subst hn; rfl
  · have : (0 : Int) < n := by omega
    simp [this]; omega

theorem count_iff (start stop k : Int) (hk : 0 < k) (j : Nat) :
    j < (if start < stop then ((stop - start - 1) / k + 1).toNat else 0) ↔ start + (j : Int) * k < stop := by
  split
  · have : (j : Int) ≤ (stop - start - 1) / k ↔ (j : Int) * k ≤ stop - start - 1 :=
      Int.le_ediv_iff_mul_le hk
    have h0 : 0 ≤ (stop - start - 1) / k := Int.ediv_nonneg (by omega) (by omega)
    constructor
    · intro h
      have := this.1 (by omega)
      omega
    · intro h
      have := this.2 (by omega)
      omega
  · have : 0 ≤ (j : Int) * k := Int.mul_nonneg (by omega) (by omega)
    omega

theorem pos_selected (n : Nat) (start stop b k : Int) (count : Nat) (hk : 0 < k) (h0 : 0 ≤ start)
    (hstop : stop ≤ n) (hb : ∀ i : Int, i < n → 0 ≤ i → (i < b ↔ i < stop))
    (hc : ∀ j : Nat, j < count ↔ start + (j : Int) * k < stop) :
    (List.range count).map (fun j : Nat => (start + (j : Int) * k).toNat) =
    (List.range n).filter (fun (i : Nat) => decide (start ≤ (i : Int) ∧ (i : Int) < b ∧ k ∣ (i : Int) - start)) := by
  have hnn : ∀ j : Nat, 0 ≤ (j : Int) * k := fun j => Int.mul_nonneg (by omega) (by omega)
  apply eq_of_sorted (· < ·) (by omega) (by omega)
  · apply range_map_sorted
    intro i j hij _
    have h1 := hnn i
    have h2 : (i : Int) * k < (j : Int) * k := by
      apply Int.mul_lt_mul_of_pos_right _ hk
      omega
    omega
  · exact List.pairwise_lt_range.filter _
  · intro x
    simp only [List.mem_map, List.mem_range, List.mem_filter, decide_eq_true_eq]
    constructor
    · rintro ⟨j, hj, rfl⟩
      have h1 := (hc j).1 hj
      have h2 := hnn j
      have hx : ((start + (j : Int) * k).toNat : Int) = start + (j : Int) * k := by omega
      refine ⟨by omega, by omega, ?_, ?_⟩
      · rw [hx]; exact (hb _ (by omega) (by omega)).2 h1
      · rw [hx]; exact ⟨j, by ring⟩
    · rintro ⟨hx, h1, h2, m, hm⟩
      have hlt := (hb x (by omega) (by omega)).1 h2
      have hm0 : 0 ≤ m := by
        by_contra hneg
        have : k * m < 0 := Int.mul_neg_of_pos_of_neg hk (by omega)
        omega
      obtain ⟨j, rfl⟩ := Int.eq_ofNat_of_zero_le hm0
      have hkm : k * (j : Int) = (j : Int) * k := Int.mul_comm _ _
      exact ⟨j, (hc j).2 (by omega), by omega⟩

theorem neg_selected (n : Nat) (start stop b k : Int) (count : Nat) (hk : 0 < k) (h0 : start < n)
    (hstop : -1 ≤ stop) (hb : ∀ i : Int, i < n → 0 ≤ i → (b < i ↔ stop < i))
    (hc : ∀ j : Nat, j < count ↔ stop + (j : Int) * k < start) :
    (List.range count).map (fun j : Nat => (start + (j : Int) * (-k)).toNat) =
    (List.range n).reverse.filter (fun (i : Nat) => decide ((i : Int) ≤ start ∧ b < (i : Int) ∧ -k ∣ start - (i : Int))) := by
  have hnn : ∀ j : Nat, 0 ≤ (j : Int) * k := fun j => Int.mul_nonneg (by omega) (by omega)
  have hneg : ∀ j : Nat, (j : Int) * (-k) = - ((j : Int) * k) := fun j => by ring
  apply eq_of_sorted (· > ·) (by omega) (by omega)
  · apply range_map_sorted
    intro i j hij hj
    have h1 := (hc j).1 hj
    have h2 : (i : Int) * k < (j : Int) * k := by
      apply Int.mul_lt_mul_of_pos_right _ hk
      omega
    rw [hneg, hneg]
    omega
  · exact (List.pairwise_reverse.2 List.pairwise_lt_range).filter _
  · intro x
    simp only [List.mem_map, List.mem_range, List.mem_filter, decide_eq_true_eq, List.mem_reverse]
    constructor
    · rintro ⟨j, hj, rfl⟩
      have h1 := (hc j).1 hj
      have h2 := hnn j
      have hx : ((start + (j : Int) * (-k)).toNat : Int) = start - (j : Int) * k := by rw [hneg]; omega
      refine ⟨by omega, by omega, ?_, ?_⟩
      · rw [hx]; exact (hb _ (by omega) (by omega)).2 (by omega)
      · rw [hx]; exact ⟨-j, by ring⟩
    · rintro ⟨hx, h1, h2, m, hm⟩
      have hlt := (hb x (by omega) (by omega)).1 h2
      have hm0 : 0 ≤ -m := by
        by_contra hneg
        have : k * m > 0 := Int.mul_pos hk (by omega)
        have h3 : -k * m = -(k * m) := by ring
        omega
      obtain ⟨j, hj⟩ := Int.eq_ofNat_of_zero_le hm0
      have hkm : -k * m = (j : Int) * k := by rw [show m = -(j : Int) by omega]; ring
      exact ⟨j, (hc j).2 (by omega), by rw [hneg]; omega⟩

/-- The positions computed by `slice.indices` are the selected ones, in order. -/
theorem indices_selected (s : Sl) (n : Nat) (start step : Int) (count : Nat)
    (h : s.indices n = some (start, step, count)) :
    (List.range count).map (fun j : Nat => (start + (j : Int) * step).toNat)
      = selected n s.start s.stop s.step ∧
    (∀ j : Nat, j < count → 0 ≤ start + (j : Int) * step ∧ start + (j : Int) * step < n) := by
  unfold Sl.indices at h
  simp only at h
  split at h
  · cases h
  rename_i hk
  simp only [Option.some.injEq, Prod.mk.injEq] at h
  obtain ⟨hs, hst, hc⟩ := h
  subst hst
  generalize hkk : s.step.getD 1 = k at *
  by_cases hpos : 0 < k
  · have hnk : ¬ k < 0 := by omega
    simp only [hnk, if_false] at hs hc
    set stop : Int := (match s.stop with
      | none => (n : Int)
      | some x => if x < 0 then max (x + n) 0 else min x n) with hstop
    rw [hs] at hc
    have hcount : ∀ j : Nat, j < count ↔ start + (j : Int) * k < stop := by
      intro j; rw [← hc]; exact count_iff start stop k hpos j
    have hs0 : start = max 0 ((s.start.map (fun x : Int => if x < 0 then x + (n : Int) else x)).getD 0) ∨
        (n : Int) ≤ start ∧ (n : Int) ≤ max 0 ((s.start.map (fun x : Int => if x < 0 then x + (n : Int) else x)).getD 0) := by
      rw [← hs]
      rcases s.start with _ | x
      · simp
      · simp only [Option.map_some, Option.getD_some]
        split <;> omega
    have h0 : 0 ≤ start := by
      rcases hs0 with h | h <;> omega
    have hsn : stop ≤ n := by
      rw [hstop]; rcases s.stop with _ | x
      · simp
      · simp only; split <;> omega
    have hb : ∀ i : Int, i < n → 0 ≤ i →
        (i < (s.stop.map (fun x : Int => if x < 0 then x + (n : Int) else x)).getD (n : Int) ↔ i < stop) := by
      intro i hi hi0
      rw [hstop]; rcases s.stop with _ | x
      · simp
      · simp only [Option.map_some, Option.getD_some]; split <;> omega
    refine ⟨?_, ?_⟩
    · rw [pos_selected n start stop _ k count hpos h0 hsn hb hcount]
      simp only [selected, hkk, hpos, if_true]
      apply List.filter_congr
      intro i hi
      have hi' : i < n := List.mem_range.1 hi
      rcases hs0 with h | ⟨h1, h2⟩
      · rw [← h]
      · have e1 : ¬ start ≤ (i : Int) := by omega
        have e2 : ¬ max 0 ((s.start.map (fun x : Int => if x < 0 then x + (n : Int) else x)).getD 0) ≤ (i : Int) := by omega
        simp only [e1, e2, false_and, decide_false]
    · intro j hj
      have := (hcount j).1 hj
      have : 0 ≤ (j : Int) * k := Int.mul_nonneg (by omega) (by omega)
      omega
  · have hnk : k < 0 := by omega
    simp only [hnk, if_true] at hs hc
    set stop : Int := (match s.stop with
      | none => (-1 : Int)
      | some x => if x < 0 then max (x + n) (-1) else min x (n - 1)) with hstop
    rw [hs] at hc
    have hcount : ∀ j : Nat, j < count ↔ stop + (j : Int) * (-k) < start := by
      intro j; rw [← hc]; exact count_iff stop start (-k) (by omega) j
    have hs0 : start = min ((n : Int) - 1) ((s.start.map (fun x : Int => if x < 0 then x + (n : Int) else x)).getD ((n : Int) - 1)) ∨
        start < 0 ∧ min ((n : Int) - 1) ((s.start.map (fun x : Int => if x < 0 then x + (n : Int) else x)).getD ((n : Int) - 1)) < 0 := by
      rw [← hs]
      rcases s.start with _ | x
      · simp
      · simp only [Option.map_some, Option.getD_some]
        split <;> omega
    have h0 : start < n := by
      rcases hs0 with h | h <;> omega
    have hsn : -1 ≤ stop := by
      rw [hstop]; rcases s.stop with _ | x
      · simp
      · simp only; split <;> omega
    have hb : ∀ i : Int, i < n → 0 ≤ i →
        ((s.stop.map (fun x : Int => if x < 0 then x + (n : Int) else x)).getD (-1) < i ↔ stop < i) := by
      intro i hi hi0
      rw [hstop]; rcases s.stop with _ | x
      · simp
      · simp only [Option.map_some, Option.getD_some]; split <;> omega
    have hkneg : k = -(-k) := by ring
    refine ⟨?_, ?_⟩
    · have := neg_selected n start stop _ (-k) count (by omega) h0 hsn hb hcount
      rw [← hkneg] at this
      rw [this]
      simp only [selected, hkk, hpos, if_false]
      apply List.filter_congr
      intro i hi
      rcases hs0 with h | ⟨h1, h2⟩
      · rw [← h]
      · have e1 : ¬ (i : Int) ≤ start := by omega
        have e2 : ¬ (i : Int) ≤ min ((n : Int) - 1) ((s.start.map (fun x : Int => if x < 0 then x + (n : Int) else x)).getD ((n : Int) - 1)) := by omega
        simp only [e1, e2, false_and, decide_false]
    · intro j hj
      have h1 := (hcount j).1 hj
      have h2 : 0 ≤ (j : Int) * (-k) := Int.mul_nonneg (by omega) (by omega)
      have h3 : (j : Int) * k = - ((j : Int) * (-k)) := by ring
      omega

/-! ### Index tuples with one special entry -/

theorem takeAll_full (shape : List Nat) : ∃ m, takeAll shape (List.replicate shape.length Ix.full) = .ok (shape, m) ∧
    ∀ idx : List Nat, idx.length = shape.length → m idx = idx := by
  induction shape with
  | nil => exact ⟨id, rfl, fun _ _ => rfl⟩
  | cons n shape ih =>
    obtain ⟨m, h1, h2⟩ := ih
    refine ⟨(fun idx : List Nat => ((0 : Int) + ((idx.headD 0 : Nat) : Int) * 1).toNat :: m idx.tail), ?_, ?_⟩
    · simp only [List.length_cons, List.replicate_succ, Ix.full, takeAll, indices_full]
      rw [← Ix.full, h1]
    · rintro (_ | ⟨i, idx⟩) hl
      · simp at hl
      · simp only [List.headD_cons, List.tail_cons, h2 idx (by simpa using hl)]
        simp

theorem takeAll_sl (shape : List Nat) (ax : Nat) (n : Nat) (hn : shape[ax]? = some n) (s : Sl) (st k : Int) (c : Nat)
    (hi : s.indices n = some (st, k, c)) :
    ∃ m, takeAll shape ((List.replicate shape.length Ix.full).set ax (.sl s)) = .ok (shape.set ax c, m) ∧
    ∀ idx : List Nat, idx.length = shape.length →
      m idx = idx.modify ax (fun j : Nat => (st + (j : Int) * k).toNat) := by
  induction shape generalizing ax with
  | nil => simp at hn
  | cons x shape ih =>
    cases ax with
    | zero =>
      obtain ⟨m, h1, h2⟩ := takeAll_full shape
      simp only [List.getElem?_cons_zero, Option.some.injEq] at hn
      subst hn
      refine ⟨(fun idx : List Nat => (st + ((idx.headD 0 : Nat) : Int) * k).toNat :: m idx.tail), ?_, ?_⟩
      · simp only [List.length_cons, List.replicate_succ, List.set_cons_zero, takeAll, hi, h1]
      · rintro (_ | ⟨i, idx⟩) hl
        · simp at hl
        · simp only [List.headD_cons, List.tail_cons, h2 idx (by simpa using hl), List.modify_zero_cons]
    | succ ax =>
      obtain ⟨m, h1, h2⟩ := ih ax (by simpa using hn)
      refine ⟨(fun idx : List Nat => ((0 : Int) + ((idx.headD 0 : Nat) : Int) * 1).toNat :: m idx.tail), ?_, ?_⟩
      · simp only [List.length_cons, List.replicate_succ, List.set_cons_succ, takeAll]
        rw [Ix.full, takeAll]
        simp only [indices_full]
        rw [← Ix.full, h1]
      · rintro (_ | ⟨i, idx⟩) hl
        · simp at hl
        · simp only [List.headD_cons, List.tail_cons, h2 idx (by simpa using hl), List.modify_succ_cons]
          simp

theorem takeAll_sl_error (shape : List Nat) (ax : Nat) (n : Nat) (hn : shape[ax]? = some n) (s : Sl)
    (hi : s.indices n = none) :
    takeAll shape ((List.replicate shape.length Ix.full).set ax (.sl s)) = .error .value := by
  induction shape generalizing ax with
  | nil => simp at hn
  | cons x shape ih =>
    cases ax with
    | zero =>
      simp only [List.getElem?_cons_zero, Option.some.injEq] at hn
      subst hn
      simp only [List.length_cons, List.replicate_succ, List.set_cons_zero, takeAll, hi]
    | succ ax =>
      simp only [List.length_cons, List.replicate_succ, List.set_cons_succ]
      rw [Ix.full, takeAll]
      simp only [indices_full]
      rw [← Ix.full, ih ax (by simpa using hn)]

theorem takeAll_int (shape : List Nat) (ax : Nat) (n : Nat) (hn : shape[ax]? = some n) (i : Int) (j : Nat)
    (hi : pyIndex n i = some j) :
    ∃ m, takeAll shape ((List.replicate shape.length Ix.full).set ax (.int i)) = .ok (shape.eraseIdx ax, m) ∧
    ∀ idx : List Nat, idx.length + 1 = shape.length → m idx = idx.insertIdx ax j := by
  induction shape generalizing ax with
  | nil => simp at hn
  | cons x shape ih =>
    cases ax with
    | zero =>
      obtain ⟨m, h1, h2⟩ := takeAll_full shape
      simp only [List.getElem?_cons_zero, Option.some.injEq] at hn
      subst hn
      refine ⟨(fun idx : List Nat => j :: m idx), ?_, ?_⟩
      · simp only [List.length_cons, List.replicate_succ, List.set_cons_zero, takeAll, hi, h1, List.eraseIdx_zero, List.tail_cons]
      · intro idx hl
        simp only [h2 idx (by simpa using hl), List.insertIdx_zero]
    | succ ax =>
      obtain ⟨m, h1, h2⟩ := ih ax (by simpa using hn)
      have hlen : ax < shape.length := by
        have := List.getElem?_eq_some_iff.1 (show shape[ax]? = some n by simpa using hn)
        exact this.1
      refine ⟨(fun idx : List Nat => ((0 : Int) + ((idx.headD 0 : Nat) : Int) * 1).toNat :: m idx.tail), ?_, ?_⟩
      · simp only [List.length_cons, List.replicate_succ, List.set_cons_succ, List.eraseIdx_cons_succ]
        rw [Ix.full, takeAll]
        simp only [indices_full]
        rw [← Ix.full, h1]
      · rintro (_ | ⟨i, idx⟩) hl
        · simp at hl; subst hl; simp at hlen
        · simp only [List.headD_cons, List.tail_cons, h2 idx (by simpa using hl), List.insertIdx_succ_cons]
          simp

theorem takeAll_int_error (shape : List Nat) (ax : Nat) (n : Nat) (hn : shape[ax]? = some n) (i : Int)
    (hi : pyIndex n i = none) :
    takeAll shape ((List.replicate shape.length Ix.full).set ax (.int i)) = .error .index := by
  induction shape generalizing ax with
  | nil => simp at hn
  | cons x shape ih =>
    cases ax with
    | zero =>
      simp only [List.getElem?_cons_zero, Option.some.injEq] at hn
      subst hn
      simp only [List.length_cons, List.replicate_succ, List.set_cons_zero, takeAll, hi]
    | succ ax =>
      simp only [List.length_cons, List.replicate_succ, List.set_cons_succ]
      rw [Ix.full, takeAll]
      simp only [indices_full]
      rw [← Ix.full, ih ax (by simpa using hn)]

theorem takeAll_new (shape : List Nat) (ax : Nat) (hax : ax ≤ shape.length) :
    ∃ m, takeAll shape ((List.replicate (shape.length + 1) Ix.full).set ax .newaxis) = .ok (shape.insertIdx ax 1, m) ∧
    ∀ idx : List Nat, idx.length = shape.length + 1 → m idx = idx.eraseIdx ax := by
  induction shape generalizing ax with
  | nil =>
    have : ax = 0 := by simpa using hax
    subst this
    refine ⟨fun idx => idx.tail, ?_, ?_⟩
    · simp [List.replicate_succ, takeAll]
    · intro idx _; simp
  | cons x shape ih =>
    cases ax with
    | zero =>
      obtain ⟨m, h1, h2⟩ := takeAll_full (x :: shape)
      refine ⟨fun idx => m idx.tail, ?_, ?_⟩
      · rw [List.replicate_succ, List.set_cons_zero, takeAll, h1, List.insertIdx_zero]
      · rintro (_ | ⟨i, idx⟩) hl
        · simp at hl
        · simp only [List.tail_cons, List.eraseIdx_zero]
          exact h2 idx (by simpa using hl)
    | succ ax =>
      obtain ⟨m, h1, h2⟩ := ih ax (by simpa using hax)
      refine ⟨(fun idx : List Nat => ((0 : Int) + ((idx.headD 0 : Nat) : Int) * 1).toNat :: m idx.tail), ?_, ?_⟩
      · rw [List.length_cons, List.replicate_succ, List.set_cons_succ, Ix.full, takeAll]
        simp only [indices_full]
        rw [← Ix.full, h1, List.insertIdx_succ_cons]
      · rintro (_ | ⟨i, idx⟩) hl
        · simp at hl
        · simp only [List.headD_cons, List.tail_cons, h2 idx (by simpa using hl), List.eraseIdx_cons_succ]
          simp

/-! ### Axes -/

theorem pyIndex_some (n : Nat) (i : Int) (j : Nat) : pyIndex n i = some j ↔ IsAxis n i j := by
  unfold pyIndex IsAxis
  split
  · split
    · simp only [Option.some.injEq]; omega
    · simp; omega
  · split
    · simp only [Option.some.injEq]; omega
    · simp; omega

theorem pyIndex_none (n : Nat) (i : Int) : pyIndex n i = none ↔ ∀ j, ¬ IsAxis n i j := by
  constructor
  · intro h j hj
    rw [(pyIndex_some n i j).2 hj] at h; cases h
  · intro h
    rcases hp : pyIndex n i with _ | j
    · rfl
    · exact absurd ((pyIndex_some n i j).1 hp) (h j)

variable {α : Type}

theorem inShape_length {idx shape : List Nat} (h : InShape idx shape) : idx.length = shape.length :=
  List.Forall₂.length_eq h

/-- **C24** (one slice for one axis). `slicetake(a, slice(start, stop, step), axis)` returns, for
any array, any axis (counted from the start or from the end) and any slice with non-zero step, the
array in which the entries along that axis are those at the selected positions, in that order,
while the index in all other directions is unchanged. -/
theorem C24_slicetake (a : Arr α) (s : Sl) (axis : Int) (ax n : Nat) (hax : IsAxis a.shape.length axis ax)
    (hn : a.shape[ax]? = some n) (hstep : s.step ≠ some 0) :
    ∃ b, slicetake a (.sl s) axis = .ok b ∧
      b.shape = a.shape.set ax (selected n s.start s.stop s.step).length ∧
      ∀ idx, InShape idx b.shape → ∀ k j : Nat, idx[ax]? = some k →
        (selected n s.start s.stop s.step)[k]? = some j → b.get idx = a.get (idx.set ax j) := by
  rcases hi : s.indices n with _ | ⟨st, k, c⟩
  · exact absurd ((indices_none s n).1 hi) hstep
  obtain ⟨hsel, hin⟩ := indices_selected s n st k c hi
  obtain ⟨m, h1, h2⟩ := takeAll_sl a.shape ax n hn s st k c hi
  have hlen : (selected n s.start s.stop s.step).length = c := by rw [← hsel]; simp
  refine ⟨⟨a.shape.set ax c, fun idx => a.get (m idx)⟩, ?_, by rw [hlen], ?_⟩
  · unfold slicetake listSet
    rw [List.length_replicate, Arr.ndim, (pyIndex_some _ _ _).2 hax]
    simp only [Arr.index, h1]
  · intro idx hidx q j hq hj
    have hl := inShape_length hidx
    simp only [List.length_set] at hl
    simp only [h2 idx hl]
    congr 1
    rw [← hsel, List.getElem?_map] at hj
    have hqc : q < c := by
      by_contra hc
      rw [List.getElem?_eq_none (by simpa using hc)] at hj
      simp at hj
    rw [List.getElem?_range hqc] at hj
    simp only [Option.map_some, Option.some.injEq] at hj
    have hx := (List.getElem?_eq_some_iff.1 hq)
    apply List.ext_getElem?
    intro i
    rw [List.getElem?_modify, List.getElem?_set]
    by_cases hi : ax = i
    · obtain ⟨hx1, hx2⟩ := hx
      subst hi; simp [hx1, hx2, hj]
    · simp [hi]

/-- **C24** (an integer instead of a slice drops the axis). -/
theorem C24_slicetake_int (a : Arr α) (i axis : Int) (ax n j : Nat) (hax : IsAxis a.shape.length axis ax)
    (hn : a.shape[ax]? = some n) (hj : IsAxis n i j) :
    ∃ b, slicetake a (.int i) axis = .ok b ∧ b.shape = a.shape.eraseIdx ax ∧
      ∀ idx, InShape idx b.shape → b.get idx = a.get (idx.insertIdx ax j) := by
  obtain ⟨m, h1, h2⟩ := takeAll_int a.shape ax n hn i j ((pyIndex_some _ _ _).2 hj)
  refine ⟨⟨a.shape.eraseIdx ax, fun idx => a.get (m idx)⟩, ?_, rfl, ?_⟩
  · unfold slicetake listSet
    rw [List.length_replicate, Arr.ndim, (pyIndex_some _ _ _).2 hax]
    simp only [Arr.index, h1]
  · intro idx hidx
    have hl := inShape_length hidx
    have := hax.1
    simp only [List.length_eraseIdx_of_lt this] at hl
    simp only [h2 idx (by omega)]

/-- **C24** (errors). An axis the array does not have, a zero step and an integer outside the axis
raise. -/
theorem C24_slicetake_errors (a : Arr α) (ix : Ix) (axis : Int) :
    ((∀ ax, ¬ IsAxis a.shape.length axis ax) → slicetake a ix axis = .error .index) ∧
    (∀ ax n, IsAxis a.shape.length axis ax → a.shape[ax]? = some n →
      (∀ s, ix = .sl s → s.step = some 0 → slicetake a ix axis = .error .value) ∧
      (∀ i, ix = .int i → (∀ j, ¬ IsAxis n i j) → slicetake a ix axis = .error .index)) := by
  constructor
  · intro h
    unfold slicetake listSet
    rw [List.length_replicate, Arr.ndim, (pyIndex_none _ _).2 h]
  · intro ax n hax hn
    constructor
    · rintro s rfl hs
      unfold slicetake listSet
      rw [List.length_replicate, Arr.ndim, (pyIndex_some _ _ _).2 hax]
      simp only [Arr.index, takeAll_sl_error a.shape ax n hn s ((indices_none s n).2 hs)]
    · rintro i rfl hi
      unfold slicetake listSet
      rw [List.length_replicate, Arr.ndim, (pyIndex_some _ _ _).2 hax]
      simp only [Arr.index, takeAll_int_error a.shape ax n hn i ((pyIndex_none _ _).2 hi)]

/-- The positions along every axis for a tuple of slices. -/
theorem takeAll_slices (shape : List Nat) (ss : List Sl) (hl : ss.length = shape.length)
    (hstep : ∀ s ∈ ss, s.step ≠ some 0) :
    ∃ m, takeAll shape (ss.map Ix.sl) =
        .ok (List.zipWith (fun n s => (selected n s.start s.stop s.step).length) shape ss, m) ∧
      ∀ idx, InShape idx (List.zipWith (fun n s => (selected n s.start s.stop s.step).length) shape ss) →
        (m idx).map some =
        List.zipWith (fun (l : List Nat) (k : Nat) => l[k]?)
          (List.zipWith (fun n s => selected n s.start s.stop s.step) shape ss) idx := by
  induction shape generalizing ss with
  | nil =>
    have : ss = [] := by simpa using hl
    subst this
    refine ⟨id, rfl, ?_⟩
    intro idx h
    have := inShape_length h
    simp at this
    simp [this]
  | cons n shape ih =>
    rcases ss with _ | ⟨s, ss⟩
    · simp at hl
    obtain ⟨m, h1, h2⟩ := ih ss (by simpa using hl) (fun t ht => hstep t (List.mem_cons_of_mem _ ht))
    rcases hi : s.indices n with _ | ⟨st, k, c⟩
    · exact absurd ((indices_none s n).1 hi) (hstep s (by simp))
    obtain ⟨hsel, hin⟩ := indices_selected s n st k c hi
    have hlen : (selected n s.start s.stop s.step).length = c := by rw [← hsel]; simp
    refine ⟨(fun idx : List Nat => (st + ((idx.headD 0 : Nat) : Int) * k).toNat :: m idx.tail), ?_, ?_⟩
    · simp only [List.map_cons, takeAll, hi, h1, List.zipWith_cons_cons, hlen]
    · intro idx h
      rw [List.zipWith_cons_cons] at h
      rcases idx with _ | ⟨i, idx⟩
      · cases h
      · cases h with
        | cons hlt hrest =>
          simp only [List.headD_cons, List.tail_cons, List.map_cons, List.zipWith_cons_cons, h2 idx hrest]
          congr 1
          rw [hlen] at hlt
          rw [← hsel, List.getElem?_map, List.getElem?_range hlt]
          rfl

/-- **C24** (`axis=None`, one slice per axis). -/
theorem C24_slicetake_all (a : Arr α) (ss : List Sl) (hl : ss.length = a.shape.length)
    (hstep : ∀ s ∈ ss, s.step ≠ some 0) :
    ∃ b, slicetakeAll a (ss.map Ix.sl) = .ok b ∧
      b.shape = List.zipWith (fun n s => (selected n s.start s.stop s.step).length) a.shape ss ∧
      ∀ idx J, InShape idx b.shape →
        List.zipWith (fun (l : List Nat) (k : Nat) => l[k]?)
          (List.zipWith (fun n s => selected n s.start s.stop s.step) a.shape ss) idx = J.map some →
        b.get idx = a.get J := by
  obtain ⟨m, h1, h2⟩ := takeAll_slices a.shape ss hl hstep
  refine ⟨⟨_, fun idx => a.get (m idx)⟩, ?_, rfl, ?_⟩
  · simp only [slicetakeAll, Arr.index, h1]
  · intro idx J hidx hJ
    have := h2 idx hidx
    rw [hJ] at this
    have hmJ : m idx = J := List.map_injective_iff.2 (Option.some_injective _) this
    simp only [hmJ]

/-- Non-vacuity: `a[:, -1::-2]` of a 2 × 5 array. -/
example : ∃ b, slicetake (⟨[2, 5], fun idx => idx⟩ : Arr (List Nat)) (.sl ⟨some (-1), none, some (-2)⟩) (-1) = .ok b ∧
    b.shape = [2, 3] ∧ b.get [1, 1] = [1, 2] := by
  obtain ⟨b, h1, h2, h3⟩ := C24_slicetake (⟨[2, 5], fun idx => idx⟩ : Arr (List Nat))
    ⟨some (-1), none, some (-2)⟩ (-1) 1 5 ⟨by decide, by decide⟩ rfl (by decide)
  have hs : b.shape = [2, 3] := by rw [h2]; decide
  refine ⟨b, h1, hs, ?_⟩
  rw [h3 [1, 1] (by rw [hs]; exact .cons (by decide) (.cons (by decide) .nil)) 1 2 rfl (by decide)]
  rfl

/-- Non-vacuity: `a[1:, ::2]`. -/
example : ∃ b, slicetakeAll (⟨[2, 5], fun idx => idx⟩ : Arr (List Nat)) ([⟨some 1, none, none⟩, ⟨none, none, some 2⟩].map Ix.sl) = .ok b ∧
    b.shape = [1, 3] ∧ b.get [0, 2] = [1, 4] := by
  obtain ⟨b, h1, h2, h3⟩ := C24_slicetake_all (⟨[2, 5], fun idx => idx⟩ : Arr (List Nat))
    [⟨some 1, none, none⟩, ⟨none, none, some 2⟩] rfl (by decide)
  have hs : b.shape = [1, 3] := by rw [h2]; decide
  refine ⟨b, h1, hs, ?_⟩
  rw [h3 [0, 2] [1, 4] (by rw [hs]; exact .cons (by decide) (.cons (by decide) .nil)) (by decide)]

/-- **C23**. `extend_array(arr, nstep, axis)` for `axis = 0 … ndim` or `-1` returns an array with
one more dimension of length `nstep` at that position (at the end for `-1`), each slice of which is
`arr`. -/
theorem C23_extend_array (arr : Arr α) (nstep : Nat) (axis : Int) (ax : Nat) (hax : ax ≤ arr.shape.length)
    (h : axis = ax ∨ axis = -1 ∧ ax = arr.shape.length) :
    ∃ b, extendArray arr nstep axis = .ok b ∧ b.shape = arr.shape.insertIdx ax nstep ∧
      ∀ idx, InShape idx arr.shape → ∀ k, k < nstep → b.get (idx.insertIdx ax k) = arr.get idx := by
  have hp : pyIndex (arr.shape.length + 1) axis = some ax :=
    (pyIndex_some _ _ _).2 ⟨by omega, by push_cast; omega⟩
  obtain ⟨m, h1, h2⟩ := takeAll_new arr.shape ax hax
  have hil : (arr.shape.insertIdx ax 1).length = arr.shape.length + 1 := by
    rw [List.length_insertIdx, if_pos hax]
  refine ⟨⟨(arr.shape.insertIdx ax 1).modify ax (· * nstep),
    fun idx => arr.get (m (idx.modify ax (· / nstep)))⟩, ?_, ?_, ?_⟩
  · unfold extendArray
    rw [if_pos ⟨by omega, by simp only [Arr.ndim]; omega⟩]
    unfold listSet
    simp only [List.length_replicate, Arr.ndim, hp, Arr.index, h1, Arr.repeat, hil]
  · apply List.ext_getElem?
    intro i
    rw [List.getElem?_modify, List.getElem?_insertIdx, List.getElem?_insertIdx]
    by_cases h1 : i < ax
    · have : ¬ ax = i := by omega
      simp [h1, this]
    · by_cases h2 : i = ax
      · subst h2; simp [hax]
      · have : ¬ ax = i := by omega
        simp [h1, h2, this]
  · intro idx hidx k hk
    have hl := inShape_length hidx
    have hle : ax ≤ idx.length := by omega
    have hkk : (idx.insertIdx ax k).modify ax (· / nstep) = idx.insertIdx ax 0 := by
      apply List.ext_getElem?
      intro i
      rw [List.getElem?_modify, List.getElem?_insertIdx, List.getElem?_insertIdx]
      by_cases h1 : i < ax
      · have : ¬ ax = i := by omega
        simp [h1, this]
      · by_cases h2 : i = ax
        · subst h2; simp [hle, Nat.div_eq_of_lt hk]
        · have : ¬ ax = i := by omega
          simp [h1, h2, this]
    simp only [hkk]
    rw [h2 _ (by rw [List.length_insertIdx, if_pos hle, hl]), List.eraseIdx_insertIdx_self]

/-- **C23** (errors). Any other axis raises. -/
theorem C23_extend_array_errors (arr : Arr α) (nstep : Nat) (axis : Int)
    (h : axis < -1 ∨ (arr.shape.length : Int) < axis) : extendArray arr nstep axis = .error .assertion := by
  unfold extendArray
  rw [if_neg (by simp only [Arr.ndim]; omega)]

/-- Non-vacuity. -/
example : ∃ b, extendArray (⟨[2, 5], fun idx => idx⟩ : Arr (List Nat)) 3 (-1) = .ok b ∧
    b.shape = [2, 5, 3] ∧ b.get [1, 4, 2] = [1, 4] := by
  obtain ⟨b, h1, h2, h3⟩ := C23_extend_array (⟨[2, 5], fun idx => idx⟩ : Arr (List Nat)) 3 (-1) 2 (by decide)
    (.inr ⟨rfl, rfl⟩)
  exact ⟨b, h1, h2, h3 [1, 4] (.cons (by decide) (.cons (by decide) .nil)) 2 (by decide)⟩

/-! ### Sums over axes -/

/-- `removeAt` with positions counted from `k`. -/
def removeFrom {β : Type} (k : Nat) (S : List Nat) (l : List β) : List β :=
  ((l.zipIdx k).filter (fun p => decide (p.2 ∉ S))).map Prod.fst

theorem removeFrom_cons {β : Type} (k : Nat) (S : List Nat) (x : β) (l : List β) :
    removeFrom k S (x :: l) = if k ∈ S then removeFrom (k + 1) S l else x :: removeFrom (k + 1) S l := by
  unfold removeFrom
  rw [List.zipIdx_cons, List.filter_cons]
  by_cases h : k ∈ S <;> simp [h]

theorem removeFrom_congr {β : Type} (k c : Nat) (S T : List Nat) (l : List β)
    (h : ∀ i, k ≤ i → (i + c ∈ S ↔ i ∈ T)) : removeFrom (k + c) S l = removeFrom k T l := by
  induction l generalizing k with
  | nil => rfl
  | cons x l ih =>
    rw [removeFrom_cons, removeFrom_cons]
    have e : k + c + 1 = (k + 1) + c := by omega
    rw [e, ih (k + 1) (fun i hi => h i (by omega))]
    by_cases hk : k ∈ T
    · rw [if_pos hk, if_pos ((h k (Nat.le_refl _)).2 hk)]
    · rw [if_neg hk, if_neg (fun hc => hk ((h k (Nat.le_refl _)).1 hc))]

/-- Renaming of axes after axis `ax` is gone. -/
def rename (ax x : Nat) : Nat := if ax < x then x - 1 else x

theorem mem_rename (ax : Nat) (rest : List Nat) (h : ax ∉ rest) (i : Nat) :
    i ∈ rest.map (rename ax) ↔ (if i < ax then i ∈ rest else i + 1 ∈ rest) := by
  simp only [List.mem_map, rename]
  constructor
  · rintro ⟨x, hx, hi⟩
    have hne : x ≠ ax := fun e => h (e ▸ hx)
    split at hi
    · have : x = i + 1 := by omega
      subst this
      rw [if_neg (by omega)]; exact hx
    · subst hi
      rw [if_pos (by omega)]; exact hx
  · intro hi
    split at hi
    · exact ⟨i, hi, if_neg (by omega)⟩
    · exact ⟨i + 1, hi, by rw [if_pos (by omega)]; omega⟩

theorem removeFrom_erase {β : Type} (k ax : Nat) (rest : List Nat) (h : k + ax ∉ rest) (l : List β) :
    removeFrom k ((k + ax) :: rest) l = removeFrom k (rest.map (rename (k + ax))) (l.eraseIdx ax) := by
  induction l generalizing k ax with
  | nil => rfl
  | cons x l ih =>
    rw [removeFrom_cons]
    cases ax with
    | zero =>
      rw [if_pos (by simp), List.eraseIdx_zero, List.tail_cons]
      apply removeFrom_congr
      intro i hi
      rw [mem_rename _ _ h, if_neg (by omega)]
      simp only [Nat.add_zero, List.mem_cons]
      constructor
      · rintro (h1 | h1)
        · omega
        · exact h1
      · exact Or.inr
    | succ ax =>
      rw [List.eraseIdx_cons_succ, removeFrom_cons]
      have e : k + (ax + 1) = (k + 1) + ax := by omega
      rw [e] at h
      have hk : k ∈ (k + (ax + 1)) :: rest ↔ k ∈ rest.map (rename (k + (ax + 1))) := by
        rw [e, mem_rename _ _ h, if_pos (by omega)]
        simp only [List.mem_cons]
        constructor
        · rintro (h1 | h1)
          · omega
          · exact h1
        · exact Or.inr
      by_cases hm : k ∈ (k + (ax + 1)) :: rest
      · rw [if_pos hm, if_pos (hk.1 hm), e, ih (k + 1) ax h]
      · rw [if_neg hm, if_neg (fun hc => hm (hk.2 hc)), e, ih (k + 1) ax h]

theorem removeAt_erase {β : Type} (ax : Nat) (rest : List Nat) (h : ax ∉ rest) (l : List β) :
    removeAt (ax :: rest) l = removeAt (rest.map (rename ax)) (l.eraseIdx ax) := by
  have := removeFrom_erase 0 ax rest (by simpa using h) l
  simpa [removeFrom, removeAt] using this

theorem removeAt_nil {β : Type} (l : List β) : removeAt [] l = l := by
  simp [removeAt]

theorem mem_indexTuples (shape J : List Nat) : J ∈ indexTuples shape ↔ InShape J shape := by
  induction shape generalizing J with
  | nil => simp [indexTuples, InShape]
  | cons n shape ih =>
    simp only [indexTuples, List.mem_flatMap, List.mem_range, List.mem_map, InShape]
    constructor
    · rintro ⟨i, hi, J', hJ, rfl⟩
      exact .cons hi ((ih J').1 hJ)
    · intro h
      cases h with
      | cons h1 h2 => exact ⟨_, h1, _, (ih _).2 h2, rfl⟩

theorem nodup_indexTuples (shape : List Nat) : (indexTuples shape).Nodup := by
  induction shape with
  | nil => simp [indexTuples]
  | cons n shape ih =>
    simp only [indexTuples]
    rw [List.nodup_flatMap]
    refine ⟨fun i _ => ih.map (fun a b h => by simpa using h), ?_⟩
    refine List.nodup_range.imp (fun {a b} hab => ?_)
    intro x h1 h2
    simp only [List.mem_map] at h1 h2
    obtain ⟨_, _, rfl⟩ := h1
    obtain ⟨_, _, h⟩ := h2
    simp at h
    exact hab h.1.symm

theorem allIdx_eq (shape : List Nat) : allIdx shape = indexTuples shape := by
  induction shape with
  | nil => rfl
  | cons n shape ih => simp only [allIdx, indexTuples, ih]

variable [AddCommMonoid α]

theorem sum_filter_map {β : Type} (p : β → Bool) (f : β → α) (l : List β) :
    ((l.filter p).map f).sum = (l.map (fun x => if p x then f x else 0)).sum := by
  induction l with
  | nil => rfl
  | cons x l ih =>
    by_cases h : p x <;> simp [h, ih]

theorem sum_map_zero {β : Type} (l : List β) : (l.map (fun _ => (0 : α))).sum = 0 := by
  induction l with
  | nil => rfl
  | cons x l ih => simp

theorem sum_map_add' {β : Type} (f g : β → α) (l : List β) :
    (l.map (fun x => f x + g x)).sum = (l.map f).sum + (l.map g).sum := by
  induction l with
  | nil => simp
  | cons x l ih => simp only [List.map_cons, List.sum_cons, ih]; rw [add_add_add_comm]

theorem sum_swap {β γ : Type} (f : β → γ → α) (l1 : List β) (l2 : List γ) :
    (l1.map (fun x => (l2.map (fun y => f x y)).sum)).sum = (l2.map (fun y => (l1.map (fun x => f x y)).sum)).sum := by
  induction l1 with
  | nil => simp
  | cons x l ih => simp only [List.map_cons, List.sum_cons, ih, sum_map_add']

theorem sum_flatMap {β γ : Type} (g : β → List γ) (f : γ → α) (l : List β) :
    ((l.flatMap g).map f).sum = (l.map (fun x => ((g x).map f).sum)).sum := by
  induction l with
  | nil => rfl
  | cons x l ih => simp [ih]

theorem sum_tuples (shape : List Nat) (ax : Nat) (hax : ax < shape.length) (f : List Nat → α) :
    ((indexTuples shape).map f).sum =
    ((indexTuples (shape.eraseIdx ax)).map
      (fun J => ((List.range (shape.getD ax 0)).map (fun k => f (J.insertIdx ax k))).sum)).sum := by
  induction shape generalizing ax f with
  | nil => simp at hax
  | cons n shape ih =>
    cases ax with
    | zero =>
      simp only [indexTuples, List.eraseIdx_zero, List.tail_cons, List.getD_cons_zero, List.insertIdx_zero]
      rw [sum_flatMap]
      simp only [List.map_map, Function.comp_def]
      rw [sum_swap]
    | succ ax =>
      simp only [indexTuples, List.eraseIdx_cons_succ, List.getD_cons_succ]
      rw [sum_flatMap, sum_flatMap]
      simp only [List.map_map, Function.comp_def, List.insertIdx_succ_cons]
      congr 1
      apply List.map_congr_left
      intro i _
      exact ih ax (by simpa using hax) (fun J => f (i :: J))

theorem isSumOver_cons (a c : Arr α) (ax : Nat) (rest : List Nat) (hax : ax < a.shape.length) (h : ax ∉ rest)
    (hc : IsSumOver (rest.map (rename ax)) ⟨a.shape.eraseIdx ax,
      fun idx => ((List.range (a.shape.getD ax 0)).map (fun k => a.get (idx.insertIdx ax k))).sum⟩ c) :
    IsSumOver (ax :: rest) a c := by
  obtain ⟨h1, h2⟩ := hc
  refine ⟨by rw [h1, removeAt_erase ax rest h], ?_⟩
  intro idx hidx
  rw [h2 idx hidx, sum_filter_map, sum_filter_map, sum_tuples a.shape ax hax]
  congr 1
  apply List.map_congr_left
  intro J _
  simp only [decide_eq_true_eq]
  have : ∀ k, removeAt (ax :: rest) (J.insertIdx ax k) = removeAt (rest.map (rename ax)) J := by
    intro k
    rw [removeAt_erase ax rest h, List.eraseIdx_insertIdx_self]
  simp only [this]
  by_cases hJ : removeAt (rest.map (rename ax)) J = idx
  · simp [hJ]
  · simp only [hJ, if_false, sum_map_zero]

theorem isSumOver_nil (a : Arr α) : IsSumOver [] a a := by
  refine ⟨(removeAt_nil _).symm, ?_⟩
  intro idx hidx
  simp only [removeAt_nil]
  have hm := (mem_indexTuples a.shape idx).2 hidx
  have : (indexTuples a.shape).filter (fun J => decide (J = idx)) = [idx] := by
    have h2 := List.filter_eq (l := indexTuples a.shape) idx
    rw [h2, List.count_eq_one_of_mem (nodup_indexTuples _) hm]
    rfl
  rw [this]
  simp

theorem rename_cast (ax : Nat) (l : List Nat) :
    (l.map (fun (j : Nat) => (j : Int))).map (fun xx => if xx > (ax : Int) then xx - 1 else xx) =
    (l.map (rename ax)).map (fun (j : Nat) => (j : Int)) := by
  rw [List.map_map, List.map_map]
  apply List.map_congr_left
  intro j _
  simp only [Function.comp_apply, rename]
  split
  · rw [if_pos (by omega)]; omega
  · rw [if_neg (by omega)]

theorem sumAxis_ok (a : Arr α) (axis : Int) (ax : Nat) (h : IsAxis a.shape.length axis ax) :
    a.sumAxis axis = .ok ⟨a.shape.eraseIdx ax,
      fun idx => ((List.range (a.shape.getD ax 0)).map (fun k => a.get (idx.insertIdx ax k))).sum⟩ := by
  unfold Arr.sumAxis
  rw [Arr.ndim, (pyIndex_some _ _ _).2 h]

theorem sumLoop_spec (a : Arr α) (S : List Nat) (hn : S.Nodup) (hS : ∀ s ∈ S, s < a.shape.length) :
    ∃ b, sumLoop a (S.map (fun (j : Nat) => (j : Int))) = .ok b ∧ IsSumOver S a b := by
  generalize hlen : S.length = n
  induction n generalizing a S with
  | zero =>
    have : S = [] := List.eq_nil_of_length_eq_zero hlen
    subst this
    exact ⟨a, by simp [sumLoop], isSumOver_nil a⟩
  | succ n ih =>
    rcases S with _ | ⟨ax, rest⟩
    · simp at hlen
    have hax := hS ax (by simp)
    have hnr := (List.nodup_cons.1 hn)
    obtain ⟨b, h1, h2⟩ := ih ⟨a.shape.eraseIdx ax,
      fun idx => ((List.range (a.shape.getD ax 0)).map (fun k => a.get (idx.insertIdx ax k))).sum⟩
      (rest.map (rename ax)) (by
        refine List.Nodup.map_on ?_ hnr.2
        intro x hx y hy hxy
        have hx' : x ≠ ax := fun e => hnr.1 (e ▸ hx)
        have hy' : y ≠ ax := fun e => hnr.1 (e ▸ hy)
        simp only [rename] at hxy
        split at hxy <;> split at hxy <;> omega) (by
        intro s hs
        obtain ⟨x, hx, rfl⟩ := List.mem_map.1 hs
        have hx' : x ≠ ax := fun e => hnr.1 (e ▸ hx)
        have := hS x (List.mem_cons_of_mem _ hx)
        simp only [List.length_eraseIdx_of_lt hax, rename]
        split <;> omega) (by simpa using hlen)
    refine ⟨b, ?_, isSumOver_cons a b ax rest hax hnr.1 h2⟩
    rw [List.map_cons, sumLoop, sumAxis_ok a ax ax ⟨hax, .inl rfl⟩]
    simp only [rename_cast, h1]

/-- **C25** (tuple of axes). For different axes counted from 0, in any order, `num.sum` sums over
exactly these axes. -/
theorem C25_sum_tuple_partial (a : Arr α) (S : List Nat) (hn : S.Nodup) (hS : ∀ s ∈ S, s < a.shape.length) :
    ∃ b, sum a (.seq (S.map (fun (j : Nat) => (j : Int)))) false = .ok b ∧ IsSumOver S a b := by
  simpa [sum] using sumLoop_spec a S hn hS

theorem removeAt_set {β : Type} (S T : List Nat) (h : ∀ x, x ∈ S ↔ x ∈ T) (l : List β) :
    removeAt S l = removeAt T l := by
  unfold removeAt
  congr 1
  apply List.filter_congr
  intro p _
  simp [h]

theorem isSumOver_set (S T : List Nat) (h : ∀ x, x ∈ S ↔ x ∈ T) (a b : Arr α) (hb : IsSumOver S a b) :
    IsSumOver T a b := by
  have e : @removeAt Nat S = removeAt T := by funext l; exact removeAt_set S T h l
  unfold IsSumOver at *
  rw [e] at hb
  exact hb

/-- **C25** (order). The order of the axes in the tuple does not matter: shapes and values of the
results are the same. -/
theorem C25_order (a : Arr α) (S T : List Nat) (hn : S.Nodup) (hS : ∀ s ∈ S, s < a.shape.length)
    (hp : S.Perm T) :
    ∃ b c, sum a (.seq (S.map (fun (j : Nat) => (j : Int)))) false = .ok b ∧
      sum a (.seq (T.map (fun (j : Nat) => (j : Int)))) false = .ok c ∧
      b.shape = c.shape ∧ ∀ idx, InShape idx b.shape → b.get idx = c.get idx := by
  obtain ⟨b, h1, h2⟩ := C25_sum_tuple_partial a S hn hS
  obtain ⟨c, h3, h4⟩ := C25_sum_tuple_partial a T (hp.nodup_iff.1 hn) (fun s hs => hS s (hp.mem_iff.2 hs))
  have h5 := isSumOver_set T S (fun x => hp.mem_iff.symm) a c h4
  have hsh : b.shape = c.shape := by rw [h2.1, h5.1]
  exact ⟨b, c, h1, h3, hsh, fun idx hi => by rw [h2.2 idx hi, h5.2 idx (hsh ▸ hi)]⟩

/-- **C25** (one axis, from the start or from the end). -/
theorem C25_sum_int (a : Arr α) (axis : Int) (ax : Nat) (h : IsAxis a.shape.length axis ax) :
    ∃ b, sum a (.int axis) false = .ok b ∧ IsSumOver [ax] a b := by
  refine ⟨_, by simpa [sum] using sumAxis_ok a axis ax h, ?_⟩
  exact isSumOver_cons a _ ax [] h.1 (by simp) (by simpa using isSumOver_nil _)

/-- **C25** (`axis=None`). All values are summed; together with `keepdims` this raises. -/
theorem C25_sum_none (a : Arr α) :
    (∃ b, sum a .none false = .ok b ∧ b.shape = [] ∧ b.get [] = ((indexTuples a.shape).map a.get).sum) ∧
    sum a .none true = .error .strange := by
  refine ⟨⟨_, by simp [sum]; rfl, rfl, ?_⟩, by simp [sum]⟩
  simp [Arr.sumFull, allIdx_eq]

/-- **C25** (`keepdims=True`). For axes counted from 0 the sum is over exactly the other axes. -/
theorem C25_keepdims (a : Arr α) (S : List Nat) :
    ∃ b, sum a (.seq (S.map (fun (j : Nat) => (j : Int)))) true = .ok b ∧
      IsSumOver ((List.range a.shape.length).filter (fun j => decide (j ∉ S))) a b := by
  have e : ((List.range a.ndim).map (fun (j : Nat) => (j : Int))).filter
      (fun xx => decide (xx ∉ S.map (fun (j : Nat) => (j : Int)))) =
      ((List.range a.shape.length).filter (fun j => decide (j ∉ S))).map (fun (j : Nat) => (j : Int)) := by
    rw [List.filter_map, Arr.ndim]
    congr 1
    apply List.filter_congr
    intro j _
    have : ((j : Int) ∈ S.map (fun (j : Nat) => (j : Int))) ↔ j ∈ S := by
      simp
    simp only [Function.comp_apply, this]
  simp only [sum, if_true]
  rw [e]
  apply sumLoop_spec
  · exact List.nodup_range.filter _
  · intro s hs
    exact List.mem_range.1 (List.mem_of_mem_filter hs)

/-- **C25** (one axis from 0 and `keepdims=True`). -/
theorem C25_keepdims_int (a : Arr α) (ax : Nat) :
    ∃ b, sum a (.int ax) true = .ok b ∧
      IsSumOver ((List.range a.shape.length).filter (fun j => decide (j ≠ ax))) a b := by
  obtain ⟨b, h1, h2⟩ := C25_keepdims a [ax]
  refine ⟨b, by simpa [sum] using h1, ?_⟩
  simpa using h2

/-- **C25** fails for negative axes together with `keepdims=True`: no axis is kept, the sum is over
*all* axes. -/
theorem C25_keepdims_negative (a : Arr α) (axis : Int) (h : axis < 0) :
    ∃ b, sum a (.int axis) true = .ok b ∧ b.shape = [] ∧ IsSumOver (List.range a.shape.length) a b := by
  have e : ((List.range a.ndim).map (fun (j : Nat) => (j : Int))).filter (fun xx => decide (xx ∉ [axis])) =
      (List.range a.shape.length).map (fun (j : Nat) => (j : Int)) := by
    rw [Arr.ndim, List.filter_eq_self]
    intro x hx
    obtain ⟨j, _, rfl⟩ := List.mem_map.1 hx
    simp; omega
  obtain ⟨b, h1, h2⟩ := sumLoop_spec a (List.range a.shape.length) List.nodup_range (fun s hs => List.mem_range.1 hs)
  refine ⟨b, by simp only [sum, if_true]; rw [e]; exact h1, ?_, h2⟩
  rw [h2.1, removeAt, List.map_eq_nil_iff, List.filter_eq_nil_iff]
  intro p hp
  have : p.2 < a.shape.length := by
    have := List.snd_lt_of_mem_zipIdx hp
    simpa using this
  simp [this]

/-- **C25** fails for tuples with negative axes: `num.sum(a, axis=(-1, 0))` of a 2 × 3 × 4 array
has shape (2,), it sums over the axes 2 and 1. -/
theorem C25_negative_tuple (f : List Nat → α) :
    ∃ b, sum ⟨[2, 3, 4], f⟩ (.seq [-1, 0]) false = .ok b ∧ b.shape = [2] ∧
      IsSumOver [2, 1] ⟨[2, 3, 4], f⟩ b ∧ ¬ IsSumOver [2, 0] ⟨[2, 3, 4], f⟩ b := by
  obtain ⟨b, h1, h2⟩ := sumLoop_spec (⟨[2, 3, 4], f⟩ : Arr α) [2, 1] (by decide) (by show ∀ s ∈ [2, 1], s < 3; decide)
  have hs : b.shape = [2] := by rw [h2.1]; rfl
  refine ⟨b, ?_, hs, h2, ?_⟩
  · rw [← h1]
    simp only [sum, List.map_cons, List.map_nil]
    rw [sumLoop, sumAxis_ok _ (-1) 2 ⟨by simp, by simp⟩]
    rw [sumLoop, sumAxis_ok _ ((2 : Nat) : Int) 2 ⟨by simp, by simp⟩]
    simp only [List.map_cons, List.map_nil]
    rw [sumLoop, sumLoop]
    rw [sumAxis_ok _ _ 1 ⟨by simp, by simp⟩, sumAxis_ok _ _ 1 ⟨by simp, by simp⟩]
    rfl
  · intro h
    have := h.1
    rw [hs] at this
    revert this
    show ¬ [2] = removeAt [2, 0] [2, 3, 4]
    decide

/-- **C25** (errors). An axis which does not exist raises. -/
theorem C25_errors (a : Arr α) (axis : Int) (rest : List Int) (h : ∀ ax, ¬ IsAxis a.shape.length axis ax) :
    sum a (.int axis) false = .error .axis ∧ sum a (.seq (axis :: rest)) false = .error .axis := by
  have : a.sumAxis axis = .error .axis := by
    unfold Arr.sumAxis
    rw [Arr.ndim, (pyIndex_none _ _).2 h]
  simp only [sum, Bool.false_eq_true, if_false]
  refine ⟨this, ?_⟩
  rw [sumLoop, this]

/-- Non-vacuity: `num.sum(a, axis=(0,2))` of a 2 × 3 × 2 array of numbers, entry 1. -/
example : ∃ b, sum (⟨[2, 3, 2], fun idx => idx.foldl (fun x i => 10 * x + i) 0⟩ : Arr Nat) (.seq [0, 2]) false = .ok b ∧
    b.shape = [3] ∧ b.get [1] = 10 + 11 + 110 + 111 := by
  obtain ⟨b, h1, h2, h3⟩ := C25_sum_tuple_partial (⟨[2, 3, 2], fun idx => idx.foldl (fun x i => 10 * x + i) 0⟩ : Arr Nat)
    [0, 2] (by decide) (by decide)
  have hs : b.shape = [3] := by rw [h2]; rfl
  refine ⟨b, h1, hs, ?_⟩
  rw [h3 [1] (by rw [hs]; exact .cons (by decide) .nil)]
  decide

end Pwtools.Nd
