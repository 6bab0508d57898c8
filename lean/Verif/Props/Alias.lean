import Verif.Model.Alias
import Verif.Spec.Alias
import Mathlib.Tactic.Cases
/-!
# C104 (`fit_opt`), C105 (`copy`, `compress`), C107 (`open_and_close`)
-/
namespace Pwtools.Alias
open Spec
variable {V : Type}

/-! ## C105 -/

theorem copyLoop_spec (src : Obj) (h0 : Heap V) (hv : Valid h0 src) (l : List Text) (h : Heap V) (o : Obj) (hle : h0.next ≤ h.next)
    (hold : ∀ a < h0.next, h.cell a = h0.cell a) (hdone : ∀ name a, o name = some a → h0.next ≤ a ∧ a < h.next)
    (hview : ∀ name, name ∉ l → o name = none ∨ view h o name = view h0 src name)
    (hinj : ∀ n1 n2 a, o n1 = some a → o n2 = some a → n1 = n2) :
    h0.next ≤ (copyLoop src l h o).1.next ∧ (∀ a < h0.next, (copyLoop src l h o).1.cell a = h0.cell a) ∧
    (∀ name a, (copyLoop src l h o).2 name = some a → h0.next ≤ a ∧ a < (copyLoop src l h o).1.next) ∧
    (∀ n1 n2 a, (copyLoop src l h o).2 n1 = some a → (copyLoop src l h o).2 n2 = some a → n1 = n2) ∧
    (∀ name ∈ l, view (copyLoop src l h o).1 (copyLoop src l h o).2 name = view h0 src name) ∧
    (∀ name, name ∉ l → view (copyLoop src l h o).1 (copyLoop src l h o).2 name = view h o name) := by
  induction l generalizing h o with
  | nil => exact ⟨hle, hold, hdone, hinj, by simp, fun _ _ => rfl⟩
  | cons x l ih =>
    rw [copyLoop]
    cases hs : src x with
    | none =>
      simp only
      have key := ih h (Function.update o x none) hle hold ?_ ?_ ?_
      · obtain ⟨k1, k2, k3, k4, k5, k6⟩ := key
        refine ⟨k1, k2, k3, k4, ?_, ?_⟩
        · intro name hn
          by_cases hx : name ∈ l
          · exact k5 name hx
          · rw [k6 name hx]
            have : name = x := by simpa [hx] using hn
            rw [this]
            simp [view, hs]
        · intro name hn
          simp only [List.mem_cons, not_or] at hn
          rw [k6 name hn.2]
          simp [view, Function.update_of_ne hn.1]
      · intro name a hna
        by_cases hx : name = x
        · subst hx; simp at hna
        · rw [Function.update_of_ne hx] at hna; exact hdone name a hna
      · intro name hn
        by_cases hx : name = x
        · subst hx; left; simp
        · have := hview name (by simp [hn, hx])
          simpa [view, Function.update_of_ne hx] using this
      · intro n1 n2 a h1 h2
        by_cases e1 : n1 = x
        · subst e1; simp at h1
        · by_cases e2 : n2 = x
          · subst e2; simp at h2
          · rw [Function.update_of_ne e1] at h1
            rw [Function.update_of_ne e2] at h2
            exact hinj n1 n2 a h1 h2
    | some a =>
      simp only
      have ha := hv x a hs
      have hnew : ∀ b < h.next, (alloc h (h.cell a)).1.cell b = h.cell b := fun b hb => by
        simp [alloc, Function.update_of_ne (Nat.ne_of_lt hb)]
      have key := ih (alloc h (h.cell a)).1 (Function.update o x (some (alloc h (h.cell a)).2)) ?_ ?_ ?_ ?_ ?_
      · obtain ⟨k1, k2, k3, k4, k5, k6⟩ := key
        refine ⟨k1, k2, k3, k4, ?_, ?_⟩
        · intro name hn
          by_cases hx : name ∈ l
          · exact k5 name hx
          · rw [k6 name hx]
            have : name = x := by simpa [hx] using hn
            rw [this]
            simp [view, hs, alloc, hold a ha]
        · intro name hn
          simp only [List.mem_cons, not_or] at hn
          rw [k6 name hn.2]
          unfold view
          rw [Function.update_of_ne hn.1]
          cases ho : o name with
          | none => rfl
          | some b => simp [hnew b (hdone name b ho).2]
      · show h0.next ≤ h.next + 1
        omega
      · intro b hb
        rw [hnew b (by omega), hold b hb]
      · intro name b hb
        by_cases hx : name = x
        · subst hx
          simp only [Function.update_self, alloc, Option.some.injEq] at hb ⊢
          omega
        · rw [Function.update_of_ne hx] at hb
          have := hdone name b hb
          simp only [alloc]
          omega
      · intro name hn
        by_cases hx : name = x
        · subst hx
          right
          simp [view, hs, alloc, hold a ha]
        · have := hview name (by simp [hn, hx])
          unfold view at this ⊢
          rw [Function.update_of_ne hx]
          cases ho : o name with
          | none => left; rfl
          | some b =>
            right
            rw [ho] at this
            simpa [hnew b (hdone name b ho).2] using this
      · intro n1 n2 b h1 h2
        by_cases e1 : n1 = x
        · by_cases e2 : n2 = x
          · rw [e1, e2]
          · subst e1
            rw [Function.update_of_ne e2] at h2
            simp only [Function.update_self, alloc, Option.some.injEq] at h1
            have := (hdone n2 b h2).2
            omega
        · by_cases e2 : n2 = x
          · subst e2
            rw [Function.update_of_ne e1] at h1
            simp only [Function.update_self, alloc, Option.some.injEq] at h2
            have := (hdone n1 b h1).2
            omega
          · rw [Function.update_of_ne e1] at h1
            rw [Function.update_of_ne e2] at h2
            exact hinj n1 n2 b h1 h2

theorem copy_spec (attrLst : List Text) (h : Heap V) (o : Obj) (hv : Valid h o) :
    h.next ≤ (copy attrLst h o).1.next ∧ (∀ a < h.next, (copy attrLst h o).1.cell a = h.cell a) ∧
    (∀ name a, (copy attrLst h o).2 name = some a → h.next ≤ a ∧ a < (copy attrLst h o).1.next) ∧
    (∀ n1 n2 a, (copy attrLst h o).2 n1 = some a → (copy attrLst h o).2 n2 = some a → n1 = n2) ∧
    (∀ name ∈ attrLst, view (copy attrLst h o).1 (copy attrLst h o).2 name = view h o name) ∧
    (∀ name, name ∉ attrLst → (copy attrLst h o).2 name = none) := by
  have key := copyLoop_spec o h hv attrLst h (fun _ => none) (Nat.le_refl _) (fun _ _ => rfl) (by simp) (by simp) (by simp)
  obtain ⟨k1, k2, k3, k4, k5, k6⟩ := key
  refine ⟨k1, k2, k3, k4, k5, fun name hn => ?_⟩
  have := k6 name hn
  unfold view at this
  unfold copy
  simpa using this

theorem writes_cell (h : Heap V) (ws : List (Nat × AVal V)) (a : Nat) (ha : ∀ w ∈ ws, w.1 ≠ a) : (writes h ws).cell a = h.cell a := by
  induction ws generalizing h with
  | nil => rfl
  | cons w ws ih =>
    rw [writes, ih _ fun w hw => ha w (by simp [hw])]
    simp [write, Function.update_of_ne (ha w (by simp)).symm]

/-- **C105** The copy has the attributes of the original, and from then on the two are independent: whatever is changed in place in the one is not
seen in the other. -/
theorem C105_copy (attrLst : List Text) (h : Heap V) (o : Obj) (hv : Valid h o) (name : Text) (hn : name ∈ attrLst)
    (ws ws' : List (Nat × AVal V)) (hws : ChangesOf o ws) (hws' : ChangesOf (copy attrLst h o).2 ws') :
    view (writes (copy attrLst h o).1 ws) (copy attrLst h o).2 name = view h o name ∧
    view (writes (copy attrLst h o).1 ws') o name = view h o name := by
  obtain ⟨k1, k2, k3, k4, k5, k6⟩ := copy_spec attrLst h o hv
  constructor
  · rw [← k5 name hn]
    unfold view
    cases hc : (copy attrLst h o).2 name with
    | none => rfl
    | some a =>
      simp only [Option.map_some]
      rw [writes_cell]
      intro w hw e
      obtain ⟨n, hn⟩ := hws w hw
      have := hv n _ hn
      have := (k3 name a hc).1
      omega
  · unfold view
    cases hc : o name with
    | none => rfl
    | some a =>
      simp only [Option.map_some]
      rw [writes_cell, k2 a (hv name a hc)]
      intro w hw e
      obtain ⟨n, hn⟩ := hws' w hw
      have := (k3 n _ hn).1
      have := hv name a hc
      omega

/-- **C105** Two attributes of the copy never share data, also if those of the original do. -/
theorem C105_copy_separate (attrLst : List Text) (h : Heap V) (o : Obj) (hv : Valid h o) (n1 n2 : Text) (a : Nat)
    (h1 : (copy attrLst h o).2 n1 = some a) (h2 : (copy attrLst h o).2 n2 = some a) : n1 = n2 :=
  (copy_spec attrLst h o hv).2.2.2.1 n1 n2 a h1 h2

theorem compressLoop_spec (cast : Nat → V → V) (forget : List Text) (size : Nat) (h0 : Heap V) (o0 : Obj) (l : List Text) (h : Heap V) (o : Obj)
    (hnd : l.Nodup) (hle : h0.next ≤ h.next) (hold : ∀ a < h0.next, h.cell a = h0.cell a) (hv : Valid h o)
    (hview : ∀ name ∈ l, view h o name = view h0 o0 name) :
    h0.next ≤ (compressLoop cast forget size l h o).1.next ∧ (∀ a < h0.next, (compressLoop cast forget size l h o).1.cell a = h0.cell a) ∧
    (∀ name ∈ l, view (compressLoop cast forget size l h o).1 (compressLoop cast forget size l h o).2 name =
      compressed cast forget size name (view h0 o0 name)) ∧
    (∀ name, name ∉ l → view (compressLoop cast forget size l h o).1 (compressLoop cast forget size l h o).2 name = view h o name) := by
  induction l generalizing h o with
  | nil => exact ⟨hle, hold, by simp, fun _ _ => rfl⟩
  | cons x l ih =>
    obtain ⟨hxl, hnd⟩ := List.nodup_cons.1 hnd
    have finish : ∀ (h' : Heap V) (o' : Obj), h0.next ≤ h'.next → (∀ a < h0.next, h'.cell a = h0.cell a) → Valid h' o' →
        (∀ name, name ≠ x → view h' o' name = view h o name) → view h' o' x = compressed cast forget size x (view h o x) →
        h0.next ≤ (compressLoop cast forget size l h' o').1.next ∧ (∀ a < h0.next, (compressLoop cast forget size l h' o').1.cell a = h0.cell a) ∧
        (∀ name ∈ x :: l, view (compressLoop cast forget size l h' o').1 (compressLoop cast forget size l h' o').2 name =
          compressed cast forget size name (view h0 o0 name)) ∧
        (∀ name, name ∉ x :: l → view (compressLoop cast forget size l h' o').1 (compressLoop cast forget size l h' o').2 name = view h o name) := by
      intro h' o' f1 f2 f3 f4 f5
      obtain ⟨k1, k2, k3, k4⟩ := ih h' o' hnd f1 f2 f3 (fun name hn => by
        rw [f4 name (by rintro rfl; exact hxl hn), hview name (by simp [hn])])
      refine ⟨k1, k2, ?_, ?_⟩
      · intro name hn
        by_cases hx : name ∈ l
        · exact k3 name hx
        · have e : name = x := by simpa [hx] using hn
          subst e
          rw [k4 _ hx, f5, hview _ (by simp)]
      · intro name hn
        simp only [List.mem_cons, not_or] at hn
        rw [k4 name hn.2, f4 name hn.1]
    rw [compressLoop]
    by_cases hf : x ∈ forget
    · rw [if_pos hf]
      apply finish h _ hle hold
      · intro name a hna
        by_cases e : name = x
        · subst e; simp at hna
        · rw [Function.update_of_ne e] at hna; exact hv name a hna
      · intro name hne
        simp [view, Function.update_of_ne hne]
      · simp [view, compressed, hf]
    · rw [if_neg hf]
      cases hvw : view h o x with
      | none =>
        simp only
        apply finish h o hle hold hv (fun _ _ => rfl)
        rw [hvw]
        simp [compressed, hf]
      | some w =>
        cases w with
        | other v =>
          simp only
          apply finish h o hle hold hv (fun _ _ => rfl)
          rw [hvw]
          simp [compressed, hf]
        | floats s v =>
          simp only
          by_cases hs : s = size
          · rw [if_neg (by simpa using hs)]
            apply finish h o hle hold hv (fun _ _ => rfl)
            rw [hvw]
            simp [compressed, hf, hs]
          · rw [if_pos hs]
            have hnew : ∀ b < h.next, (alloc h (.floats size (cast size v))).1.cell b = h.cell b := fun b hb => by
              simp [alloc, Function.update_of_ne (Nat.ne_of_lt hb)]
            apply finish
            · show h0.next ≤ h.next + 1
              omega
            · intro b hb
              rw [hnew b (by omega), hold b hb]
            · intro name a hna
              by_cases e : name = x
              · subst e
                simp only [Function.update_self, alloc, Option.some.injEq] at hna ⊢
                omega
              · rw [Function.update_of_ne e] at hna
                have := hv name a hna
                simp only [alloc]
                omega
            · intro name hne
              unfold view
              rw [Function.update_of_ne hne]
              cases ho : o name with
              | none => rfl
              | some b => simp [hnew b (hv name b ho)]
            · rw [hvw]
              simp [view, alloc, compressed, hf, hs]

/-- **C105** `compress` forgets exactly the attributes in `forget`, converts float arrays and keeps everything else; with `copy=True` (the default)
the argument, and all data in memory before the call, are as before. -/
theorem C105_compress (cast : Nat → V → V) (attrLst forget : List Text) (size : Nat) (doCopy : Bool) (h : Heap V) (o : Obj) (hv : Valid h o)
    (hnd : attrLst.Nodup) (name : Text) (hn : name ∈ attrLst) :
    (view (compress cast attrLst forget size doCopy h o).1 (compress cast attrLst forget size doCopy h o).2.2 name =
      compressed cast forget size name (view h o name)) ∧
    (doCopy = true → view (compress cast attrLst forget size doCopy h o).1 (compress cast attrLst forget size doCopy h o).2.1 name = view h o name) ∧
    (doCopy = false → (compress cast attrLst forget size doCopy h o).2.1 = (compress cast attrLst forget size doCopy h o).2.2) ∧
    (∀ a < h.next, (compress cast attrLst forget size doCopy h o).1.cell a = h.cell a) := by
  cases doCopy with
  | false =>
    obtain ⟨k1, k2, k3, k4⟩ := compressLoop_spec cast forget size h o attrLst h o hnd (Nat.le_refl _) (fun _ _ => rfl) hv (fun _ _ => rfl)
    exact ⟨k3 name hn, by simp, fun _ => rfl, k2⟩
  | true =>
    obtain ⟨c1, c2, c3, c4, c5, c6⟩ := copy_spec attrLst h o hv
    obtain ⟨k1, k2, k3, k4⟩ := compressLoop_spec cast forget size (copy attrLst h o).1 (copy attrLst h o).2 attrLst _ _ hnd (Nat.le_refl _)
      (fun _ _ => rfl) (fun name a hna => (c3 name a hna).2) (fun _ _ => rfl)
    refine ⟨?_, ?_, by simp, ?_⟩
    · exact (k3 name hn).trans (by rw [c5 name hn])
    · intro _
      show view (compressLoop cast forget size attrLst _ _).1 o name = _
      unfold view
      cases ho : o name with
      | none => rfl
      | some a =>
        simp only [Option.map_some]
        rw [k2 a (by have := hv name a ho; omega), c2 a (hv name a ho)]
    · intro a ha
      show (compressLoop cast forget size attrLst _ _).1.cell a = _
      rw [k2 a (by omega), c2 a ha]

/-- Non-vacuity: an instance with coordinates at address 0 and symbols at address 1. -/
example : Valid (⟨fun _ => .floats 8 (5 : Nat), 2⟩ : Heap Nat) (fun n => if n = "coords".toList then some 0 else if n = "symbols".toList then some 1 else none) := by
  intro name a h
  simp only at h
  show a < 2
  by_cases h1 : name = "coords".toList
  · rw [if_pos h1] at h; simp at h; omega
  · rw [if_neg h1] at h
    by_cases h2 : name = "symbols".toList
    · rw [if_pos h2] at h; simp at h; omega
    · rw [if_neg h2] at h; simp at h

/-! ## C104 -/

theorem key_eq (m : Method) : m.key = startKeyword m := by cases m <;> rfl

theorem key_ne_disp (m : Method) : startKeyword m ≠ "disp".toList := by cases m <;> decide +kernel

/-- **C104** (first use of a dict) The optimizer gets the start values (or bounds) and `disp` of the caller, or the defaults, and all other
keywords. -/
theorem C104_first_partial (m : Method) (dflt no : V) (d : Kw V) :
    (fitOptCall m dflt no d).1.start = (d (startKeyword m)).getD dflt ∧ (fitOptCall m dflt no d).1.disp = (d "disp".toList).getD no ∧
    (∀ k, k ≠ (startKeyword m) → k ≠ "disp".toList → (fitOptCall m dflt no d).1.kwds k = d k) ∧
    (fitOptCall m dflt no d).1.kwds (startKeyword m) = none ∧ (fitOptCall m dflt no d).1.kwds "disp".toList = none := by
  unfold fitOptCall pop
  rw [key_eq]
  simp only
  refine ⟨by rw [Function.update_of_ne (key_ne_disp m)], by trivial, ?_, by simp, ?_⟩
  · intro k h1 h2
    rw [Function.update_of_ne h1, Function.update_of_ne h2]
  · rw [Function.update_of_ne (key_ne_disp m).symm]
    simp

/-- **C104** is false: the settings of the caller are removed from their dict; every further call with the same dict and method uses the defaults
instead, without notice. -/
theorem C104_later (m : Method) (dflt no : V) (d : Kw V) (before : List (Method × V)) (x : V) :
    ((fitOptCalls no ((m, x) :: before ++ [(m, dflt)]) d).getLast?).map (·.start) = some dflt ∧
    ((fitOptCalls no ((m, x) :: before ++ [(m, dflt)]) d).getLast?).map (·.disp) = some no := by
  have gen : ∀ (before : List (Method × V)) (d : Kw V), d (startKeyword m) = none → d "disp".toList = none →
      ((fitOptCalls no (before ++ [(m, dflt)]) d).getLast?).map (·.start) = some dflt ∧
      ((fitOptCalls no (before ++ [(m, dflt)]) d).getLast?).map (·.disp) = some no := by
    intro before
    induction before with
    | nil =>
      intro d h1 h2
      obtain ⟨e1, e2, -⟩ := C104_first_partial m dflt no d
      simp only [List.nil_append, fitOptCalls, List.getLast?_singleton, Option.map_some, e1, e2, h1, h2, Option.getD_none, and_self]
    | cons b bs ih =>
      intro d h1 h2
      have hk : (fitOptCall b.1 b.2 no d).2 (startKeyword m) = none := by
        by_cases e : startKeyword b.1 = startKeyword m
        · unfold fitOptCall pop
          simp [key_eq, e]
        · have := (C104_first_partial b.1 b.2 no d).2.2.1 (startKeyword m) (Ne.symm e) (key_ne_disp m)
          exact this.trans h1
      have := ih (fitOptCall b.1 b.2 no d).2 hk ((C104_first_partial b.1 b.2 no d).2.2.2.2)
      rw [List.cons_append, fitOptCalls]
      rw [List.getLast?_cons, Option.map_some, Option.map_some]
      cases hl : (fitOptCalls no (bs ++ [(m, dflt)]) (fitOptCall b.1 b.2 no d).2).getLast? with
      | none =>
        rw [hl] at this
        simp at this
      | some y =>
        rw [hl] at this
        simpa using this
  rw [List.cons_append, fitOptCalls]
  obtain ⟨-, -, -, h4, h5⟩ := C104_first_partial m x no d
  have := gen before (fitOptCall m x no d).2 h4 h5
  rw [List.getLast?_cons]
  cases hl : (fitOptCalls no (before ++ [(m, dflt)]) (fitOptCall m x no d).2).getLast? with
  | none =>
    rw [hl] at this
    simp at this
  | some y =>
    rw [hl] at this
    simpa using this

/-- The same call twice, with the bounds 7 given by the caller: the second call uses the default 1. -/
theorem C104_counterexample : (fitOptCalls (V := Nat) 0 [(.de, 1), (.de, 1)] (fun k => if k = "bounds".toList then some 7 else none)).map (·.start) =
    [7, 1] := by decide +kernel

/-- **C104** (where it holds) If the dict has neither start values (bounds) nor `disp`, all calls of any history get the same. -/
theorem C104_no_key_partial (m : Method) (dflt no : V) (d : Kw V) (h1 : d (startKeyword m) = none) (h2 : d "disp".toList = none) :
    (fitOptCall m dflt no d).2 = d := by
  unfold fitOptCall pop
  rw [key_eq]
  funext k
  simp only
  by_cases e : k = startKeyword m
  · subst e; simp [h1]
  · rw [Function.update_of_ne e]
    by_cases e2 : k = "disp".toList
    · rw [e2, Function.update_self, h2]
    · rw [Function.update_of_ne e2]

/-- **C104** The result is built with the found parameters and the given constant ones; optimizing a parameter which is given is an error. -/
theorem C104_result (what : List Text) (hw : what.Nodup) (d : Kw V) (xopt : List V) (hl : xopt.length = what.length) :
    ((∃ k ∈ what, (d k).isSome) → fitOptResult what d xopt = none) ∧
    ((∀ k ∈ what, d k = none) → ∃ r, fitOptResult what d xopt = some r ∧ (∀ k, k ∉ what → r k = d k) ∧
      ∀ (i : Nat) (k : Text), what[i]? = some k → r k = xopt[i]?) := by
  constructor
  · rintro ⟨k, hk, hs⟩
    unfold fitOptResult
    rw [if_pos (List.any_eq_true.2 ⟨k, hk, hs⟩)]
  · intro h
    unfold fitOptResult
    rw [if_neg]
    · refine ⟨_, rfl, ?_⟩
      clear h
      induction what generalizing d xopt with
      | nil => exact ⟨fun _ _ => rfl, by simp⟩
      | cons w ws ih =>
        cases xopt with
        | nil => simp at hl
        | cons x xs =>
          obtain ⟨hwn, hws⟩ := List.nodup_cons.1 hw
          obtain ⟨i1, i2⟩ := ih hws (Function.update d w (some x)) xs (by simpa using hl)
          rw [List.zip_cons_cons, List.foldl_cons]
          refine ⟨?_, ?_⟩
          · intro k hk
            simp only [List.mem_cons, not_or] at hk
            rw [i1 k hk.2, Function.update_of_ne hk.1]
          · intro i k hk
            cases i with
            | zero =>
              have : w = k := by simpa using hk
              subst this
              rw [i1 w hwn]
              simp
            | succ i =>
              rw [i2 i k (by simpa using hk)]
              simp
    · simp only [List.any_eq_true, not_exists, not_and]
      intro k hk
      simp [h k hk]

example : ["p".toList, "r".toList].Nodup := by decide +kernel

/-! ## C107 -/

/-- **C107** (where it holds) If the function returns, the file opened for it is closed, and the result is passed on. A file object of the caller is
neither opened nor closed. -/
theorem C107_return_partial {α ε : Type} (fn : Text) (v : α) (res : Except ε α) :
    AllClosed (openAndClose (ε := ε) (.name fn) (.ok v)).1 ∧ (openAndClose (ε := ε) (.name fn) (.ok v)).2 = .ok v ∧
    openAndClose (.handle fn) res = ([.used fn], res) ∧ (openAndClose (.name fn) res).2 = res := by
  refine ⟨?_, rfl, rfl, by cases res <;> rfl⟩
  intro fn' gz i hi
  match i with
  | 0 =>
    simp only [openAndClose, List.getElem?_cons_zero, Option.some.injEq, Ev.opened.injEq] at hi
    refine ⟨2, by omega, by simp [openAndClose, hi.1], ?_⟩
    intro k hk
    simp only [openAndClose]
    rw [List.getElem?_eq_none (by simp; omega)]
    simp
  | 1 => simp [openAndClose] at hi
  | 2 => simp [openAndClose] at hi
  | i + 3 => simp [openAndClose] at hi

/-- **C107** (how it is opened) A file name is opened exactly once, before it is used, as a gzip file if and only if the name ends with `.gz`. -/
theorem C107_open {α ε : Type} (fn : Text) (res : Except ε α) : ∃ gz rest, (openAndClose (.name fn) res).1 = .opened fn gz :: .used fn :: rest ∧
    (∀ fn' gz', Ev.opened fn' gz' ∉ rest) ∧ (gz = true ↔ ∃ stem, fn = stem ++ ".gz".toList) := by
  have hg : isGz fn = true ↔ ∃ stem, fn = stem ++ ".gz".toList := by
    unfold isGz
    rw [List.isSuffixOf_iff_suffix]
    exact ⟨fun ⟨t, h⟩ => ⟨t, h.symm⟩, fun ⟨t, h⟩ => ⟨t, h.symm⟩⟩
  cases res with
  | ok v => exact ⟨isGz fn, [.closed fn], rfl, by simp, hg⟩
  | error e => exact ⟨isGz fn, [], rfl, by simp, hg⟩

/-- **C107** is false if the function raises (e.g. `readtxt` of a file without header): the file stays open. -/
theorem C107_exception {α ε : Type} (fn : Text) (e : ε) : ¬ AllClosed (openAndClose (α := α) (.name fn) (.error e)).1 := by
  intro h
  obtain ⟨j, h1, h2, -⟩ := h fn (isGz fn) 0 rfl
  match j with
  | 0 => omega
  | 1 => simp [openAndClose] at h2
  | j + 2 => simp [openAndClose] at h2

end Pwtools.Alias
