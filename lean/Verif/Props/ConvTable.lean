import Verif.Model.ConvTable
import Verif.Spec.ConvTable
import Mathlib.Algebra.Order.Group.Int
import Mathlib.Data.List.Forall2
import Mathlib.Tactic.Abel
/-!
# C102: convergence tables
-/
namespace Pwtools.ConvTable
open Spec
variable {R : Type} [AddCommGroup R] [LinearOrder R]

theorem diff_length (y : List R) : (diff y).length = y.length - 1 := by
  fun_induction diff y with
  | case1 a b t ih => simp [ih]
  | case2 y h =>
    match y, h with
    | [], _ => rfl
    | [_], _ => rfl
    | a :: b :: t, h => exact absurd rfl (h a b t)

theorem diff_get (y : List R) (i : Nat) (h : i + 1 < y.length) : (diff y)[i]? = some (y[i + 1] - y[i]) := by
  fun_induction diff y generalizing i with
  | case1 a b t ih =>
    cases i with
    | zero => rfl
    | succ i =>
      have := ih i (by simpa using h)
      simpa using this
  | case2 y hy =>
    match y, hy with
    | [], _ => simp at h
    | [_], _ => simp at h
    | a :: b :: t, hy => exact absurd rfl (hy a b t)

/-- A list given by its entries. -/
theorem ofFn_get (m : Nat) (y : Nat → R) (i : Nat) (h : i < m) : (List.ofFn fun j : Fin m => y j)[i]? = some (y i) := by
  simp [List.getElem?_ofFn, h]

theorem dcol_ok (next : Bool) (m : Nat) (hm : 0 < m) (y : Nat → R) :
    ∃ d, dcol (if next then .next else .last) (List.ofFn fun j : Fin m => y j) = .ok d ∧ ∀ i < m, d[i]? = some (convEntry next false m y i) := by
  cases next with
  | true =>
    refine ⟨diff (List.ofFn fun j : Fin m => y j) ++ [0], ?_, ?_⟩
    · simp only [if_true, dcol]
      rw [if_neg]
      intro h
      have := congrArg List.length h
      simp at this
      omega
    · intro i hi
      simp only [convEntry, if_true, Bool.false_eq_true, if_false]
      by_cases h : i + 1 < m
      · rw [List.getElem?_append_left (by rw [diff_length]; simp; omega), diff_get _ _ (by simpa using h), if_pos h]
        simp
      · rw [List.getElem?_append_right (by rw [diff_length]; simp; omega), diff_length, if_neg h]
        have : i - ((List.ofFn fun j : Fin m => y j).length - 1) = 0 := by simp; omega
        rw [this]
        rfl
  | false =>
    have hl : (List.ofFn fun j : Fin m => y j).getLast? = some (y (m - 1)) := by
      rw [List.getLast?_eq_getElem?, List.length_ofFn, ofFn_get m y _ (by omega)]
    refine ⟨_, by simp only [Bool.false_eq_true, if_false, dcol, hl]; rfl, ?_⟩
    intro i hi
    rw [List.getElem?_map, ofFn_get m y i hi]
    simp [convEntry]

theorem absCols_get (absdiff next : Bool) (m : Nat) (y : Nat → R) (d : List R) (i : Nat) (h : d[i]? = some (convEntry next false m y i)) :
    ((if absdiff then d.map (fun v => |v|) else d) : List R)[i]? = some (convEntry next absdiff m y i) := by
  cases absdiff with
  | false => simpa using h
  | true =>
    simp only [if_true, List.getElem?_map, h, Option.map_some]
    simp [convEntry]

theorem rowNums_ok (orig next absdiff : Bool) (m i : Nat) (hi : i < m) (ys : List (Nat → R)) (dyy : List (List R))
    (h : List.Forall₂ (fun y d => ∀ i < m, d[i]? = some (convEntry next absdiff m y i)) ys dyy) :
    rowNums orig (ys.map fun y => List.ofFn fun j : Fin m => y j) dyy i =
      .ok (ys.flatMap fun y => convEntry next absdiff m y i :: (if orig then [y i] else [])) := by
  have key : (((ys.map fun y => List.ofFn fun j : Fin m => y j).zip dyy).mapM (m := Option) fun p => do
      let d ← p.2[i]?
      let y ← p.1[i]?
      pure (if orig then [d, y] else [d])) = some (ys.map fun y => convEntry next absdiff m y i :: (if orig then [y i] else [])) := by
    induction h with
    | nil => rfl
    | @cons y d ys ds hy _ ih =>
      rw [List.map_cons, List.zip_cons_cons, List.mapM_cons, hy i hi, ofFn_get m y i hi, ih]
      cases orig <;> rfl
  unfold rowNums
  rw [key]
  simp [List.flatMap]

theorem cols_ok (next absdiff : Bool) (m : Nat) (hm : 0 < m) (ys : List (Nat → R)) :
    ∃ dyy, (ys.map fun y => List.ofFn fun j : Fin m => y j).mapM (dcol (if next then .next else .last)) = .ok dyy ∧
      List.Forall₂ (fun y d => ∀ i < m, d[i]? = some (convEntry next absdiff m y i)) ys (absCols absdiff dyy) := by
  induction ys with
  | nil => exact ⟨[], rfl, by cases absdiff <;> exact .nil⟩
  | cons y ys ih =>
    obtain ⟨dyy, h1, h2⟩ := ih
    obtain ⟨d, h3, h4⟩ := dcol_ok next m hm y
    refine ⟨d :: dyy, ?_, ?_⟩
    · rw [List.map_cons, List.mapM_cons, h3, h1]
      rfl
    · have : absCols absdiff (d :: dyy) = (if absdiff then d.map (fun v => |v|) else d) :: absCols absdiff dyy := by
        cases absdiff <;> rfl
      rw [this]
      exact .cons (fun i hi => absCols_get absdiff next m y d i (h4 i hi)) h2

theorem mapM_ok {α β : Type} (f : α → Except CErr β) (g : α → β) (l : List α) (h : ∀ a ∈ l, f a = .ok (g a)) : l.mapM f = .ok (l.map g) := by
  induction l with
  | nil => rfl
  | cons a l ih =>
    rw [List.mapM_cons, h a (by simp), ih fun b hb => h b (by simp [hb])]
    rfl

theorem line_eq (ffmt : R → Text) (orig : Bool) (ys : List (Nat → R)) (f : (Nat → R) → R) {i : Nat} :
    ((ys.flatMap fun y => f y :: (if orig then [y i] else [])).map ffmt).flatten =
      ys.flatMap fun y => ffmt (f y) ++ (if orig then ffmt (y i) else []) := by
  induction ys with
  | nil => rfl
  | cons y ys ih =>
    rw [List.flatMap_cons, List.flatMap_cons, List.map_append, List.flatten_append, ih]
    cases orig <;> simp

/-- **C102** The table has one line per `x`; line `i` has `x_i`, and for every quantity the difference of the value `i` to the next or the last one
(as asked for, with absolute values if asked for), followed by the value itself if asked for. For any number of quantities and points. -/
theorem C102_table {X : Type} (sfmt : X → Text) (ffmt : R → Text) (next orig absdiff : Bool) (xx : List X) (m : Nat) (hm : 0 < m)
    (hx : xx.length ≤ m) (ys : List (Nat → R)) :
    convTable sfmt ffmt (if next then .next else .last) orig absdiff xx (ys.map fun y => List.ofFn fun j : Fin m => y j) =
      .ok (xx.zipIdx.flatMap fun p => convLine sfmt ffmt next orig absdiff m ys p.1 p.2) := by
  obtain ⟨dyy, h1, h2⟩ := cols_ok next absdiff m hm ys
  unfold convTable
  rw [h1]
  simp only [bind, Except.bind]
  rw [mapM_ok _ (fun p => convLine sfmt ffmt next orig absdiff m ys p.1 p.2)]
  · simp [pure, Except.pure, List.flatMap]
  · rintro ⟨x, idx⟩ hp
    have hi : idx < m := by
      have := (List.mem_zipIdx hp).2.1
      omega
    simp only
    rw [rowNums_ok orig next absdiff m idx hi ys _ h2]
    simp only [pure, Except.pure, convLine, Except.ok.injEq, List.append_left_inj, List.append_right_inj]
    exact line_eq ffmt orig ys _

/-- **C102** More points than values: an error, not a shorter table. -/
theorem C102_too_many {X : Type} (sfmt : X → Text) (ffmt : R → Text) (next orig absdiff : Bool) (xx : List X) (m : Nat) (hm : 0 < m)
    (hx : m < xx.length) (ys : List (Nat → R)) (hy : ys ≠ []) :
    convTable sfmt ffmt (if next then .next else .last) orig absdiff xx (ys.map fun y => List.ofFn fun j : Fin m => y j) = .error .indexError := by
  obtain ⟨dyy, h1, h2⟩ := cols_ok next absdiff m hm ys
  unfold convTable
  rw [h1]
  simp only [bind, Except.bind]
  have hsplit : xx.zipIdx = (xx.take m).zipIdx ++ (xx.drop m).zipIdx m := by
    conv_lhs => rw [← List.take_append_drop m xx]
    rw [List.zipIdx_append]
    simp [List.length_take, hx.le]
  have hrow : rowNums orig (ys.map fun y => List.ofFn fun j : Fin m => y j) (absCols absdiff dyy) m = .error .indexError := by
    clear h1
    revert h2
    generalize absCols absdiff dyy = dd
    intro h2
    cases h2 with
    | nil => exact absurd rfl hy
    | @cons y d ys ds h _ =>
      unfold rowNums
      rw [List.map_cons, List.zip_cons_cons, List.mapM_cons]
      have : (List.ofFn fun j : Fin m => y j)[m]? = none := by simp
      simp only [this]
      cases d[m]? <;> rfl
  obtain ⟨z, t, hz⟩ := List.exists_cons_of_ne_nil (l := xx.drop m) (by intro h; simp at h; omega)
  rw [hsplit, hz, List.mapM_append, mapM_ok (g := fun p => convLine sfmt ffmt next orig absdiff m ys p.1 p.2)]
  · rw [List.zipIdx_cons, List.mapM_cons]
    simp only [bind, Except.bind]
    rw [hrow]
  · rintro ⟨x, idx⟩ hp
    have hi : idx < m := by
      have := (List.mem_zipIdx hp).2.1
      simp at this
      omega
    simp only
    rw [rowNums_ok orig next absdiff m idx hi ys _ h2]
    simp only [pure, Except.pure, convLine, Except.ok.injEq, List.append_left_inj, List.append_right_inj]
    exact line_eq ffmt orig ys _

/-- **C102** Any other mode is rejected. -/
theorem C102_mode {X : Type} (sfmt : X → Text) (ffmt : R → Text) (orig absdiff : Bool) (xx : List X) (y : List R) (yy : List (List R)) :
    convTable sfmt ffmt .other orig absdiff xx (y :: yy) = .error .unknownMode := rfl

/-- **C102** The two kinds of differences fit together: the differences to the next value, from line `i` on, add up to the difference to the last
value. -/
theorem C102_telescope (m : Nat) (y : Nat → R) (i : Nat) (hi : i < m) :
    ((List.range' i (m - i)).map (convEntry true false m y)).sum = convEntry false false m y i := by
  obtain ⟨k, rfl⟩ : ∃ k, m = i + k + 1 := ⟨m - i - 1, by omega⟩
  have : ∀ k i, (∀ m, m = i + k + 1 → ((List.range' i (m - i)).map (convEntry true false m y)).sum = y (i + k) - y i) := by
    intro k
    induction k with
    | zero =>
      rintro i m rfl
      simp [convEntry]
    | succ k ih =>
      rintro i m rfl
      have e : i + (k + 1) + 1 - i = (i + (k + 1) + 1 - (i + 1)) + 1 := by omega
      rw [e, List.range'_succ, List.map_cons, List.sum_cons, ih (i + 1) _ (by omega)]
      simp only [convEntry, Bool.false_eq_true, if_false, if_true]
      rw [if_pos (by omega)]
      have : i + 1 + k = i + (k + 1) := by omega
      rw [this]
      abel
  rw [this k i _ rfl]
  simp [convEntry]

/-- The example of the docstring. -/
example : convTable (fun s : Text => ' ' :: s) (fun v : Int => ' ' :: (toString v).toList) .last true false
    ["2 2 2".toList, "4 4 4".toList, "8 8 8".toList] [[-300, -310, -312], [3, 2, 1]] =
      .ok " 2 2 2 -12 -300 -2 3\n 4 4 4 -2 -310 -1 2\n 8 8 8 0 -312 0 1\n".toList := by decide +kernel

end Pwtools.ConvTable
