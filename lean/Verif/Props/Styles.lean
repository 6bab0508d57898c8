import Verif.Model.Styles
import Verif.Spec.Styles
import Mathlib.Tactic.Linarith
import Mathlib.Tactic.NormNum
import Mathlib.Tactic.FieldSimp
import Mathlib.Tactic.Ring
/-!
# C153, C154: plot styles, colour transitions, legends
-/
namespace Pwtools.Styles
open Pwtools Pwtools.Spec

/-- What is left of an object after `k` draws from it. -/
def left (o : Obj) : Nat → List String
  | 0 => o.base.list
  | k + 1 => match left o k with
    | _ :: r => r
    | [] => if o.cyclic then o.base.list.tail else []

theorem nextObj_state (o : Obj) (s : St) : (nextObj o s).2 = Function.update s o (match s o with
    | _ :: r => r | [] => if o.cyclic then o.base.list.tail else []) := by
  unfold nextObj
  cases h : s o with
  | cons x r => rfl
  | nil =>
    simp only
    split
    · cases hb : o.base.list with
      | nil => simp only [List.tail_nil]; rw [← h, Function.update_eq_self]
      | cons x r => rfl
    · simp only; rw [← h, Function.update_eq_self]

/-- How often the object was drawn in a history. -/
def cnt (o : Obj) (h : List String) : Nat := (h.filter fun n => names.lookup n = some o).length

theorem state_after (h : List String) : ∀ (s : St) (k : Obj → Nat), (∀ o, s o = left o (k o)) →
    ∀ o, (h.foldl (fun s n => (next n s).2) s) o = left o (k o + cnt o h) := by
  induction h with
  | nil => intro s k hs o; simpa [cnt] using hs o
  | cons n h ih =>
    intro s k hs o
    rw [List.foldl_cons]
    cases hn : names.lookup n with
    | none =>
      have : (next n s).2 = s := by unfold next; rw [hn]
      rw [this, ih s k hs o]
      simp [cnt, hn]
    | some o' =>
      have e : (next n s).2 = (nextObj o' s).2 := by unfold next; rw [hn]
      have hs' : ∀ p, (next n s).2 p = left p (if p = o' then k p + 1 else k p) := by
        intro p
        rw [e, nextObj_state]
        by_cases hp : p = o'
        · subst hp
          rw [Function.update_self, if_pos rfl, left, hs p]
        · rw [Function.update_of_ne hp, if_neg hp, hs p]
      rw [ih _ _ hs' o]
      by_cases ho : o = o'
      · subst ho
        rw [if_pos rfl]
        simp only [cnt, List.filter_cons, hn, decide_true, if_true, List.length_cons]
        congr 1; omega
      · rw [if_neg ho]
        simp [cnt, List.filter_cons, hn, Ne.symm ho]

theorem run_get (h : List String) (s : St) (t : Nat) (n : String) (ht : h[t]? = some n) :
    (run h s)[t]? = some (next n ((h.take t).foldl (fun s n => (next n s).2) s)).1 := by
  induction h generalizing s t with
  | nil => simp at ht
  | cons m h ih =>
    cases t with
    | zero => simp at ht; subst ht; rfl
    | succ t =>
      simp only [List.getElem?_cons_succ] at ht
      rw [run, List.getElem?_cons_succ, ih _ t ht]
      rfl

theorem left_stop (o : Obj) (ho : o.cyclic = false) (k : Nat) : left o k = o.base.list.drop k := by
  induction k with
  | zero => rfl
  | succ k ih =>
    rw [left, ih]
    cases h : o.base.list.drop k with
    | nil =>
      simp only [ho]
      rw [List.drop_eq_nil_iff] at h
      exact (List.drop_eq_nil_iff.2 (by omega)).symm
    | cons x r =>
      have : o.base.list.drop (k + 1) = (o.base.list.drop k).drop 1 := by rw [List.drop_drop]
      rw [this, h]; rfl

theorem base_pos (b : Base) : 0 < b.list.length := by cases b <;> decide +kernel

theorem left_cycle (o : Obj) (ho : o.cyclic = true) (k : Nat) :
    left o k = o.base.list.drop (k % o.base.list.length) ∨ left o k = [] ∧ k % o.base.list.length = 0 := by
  have hp := base_pos o.base
  induction k with
  | zero => left; rw [Nat.zero_mod]; rfl
  | succ k ih =>
    set L := o.base.list with hL
    have hd : left o k = [] ∧ k % L.length = 0 ∨ ∃ x, left o k = x :: L.drop (k % L.length + 1) := by
      rcases ih with ih | ih
      · right
        have hlt := Nat.mod_lt k hp
        exact ⟨L[k % L.length], by rw [ih, List.drop_eq_getElem_cons hlt]⟩
      · exact .inl ih
    have hmod : left o (k + 1) = L.drop (k % L.length + 1) := by
      rw [left]
      rcases hd with ⟨h1, h2⟩ | ⟨x, hx⟩
      · rw [h1, h2]; simp [ho, hL]
      · rw [hx]
    rw [hmod]
    have hlt := Nat.mod_lt k hp
    by_cases hlast : k % L.length + 1 = L.length
    · right
      refine ⟨by rw [hlast]; exact List.drop_length, ?_⟩
      rw [Nat.add_mod]
      by_cases h1 : L.length = 1
      · rw [h1]; exact Nat.mod_one _
      · rw [Nat.mod_eq_of_lt (show 1 < L.length by omega), hlast, Nat.mod_self]
    · left
      rw [Nat.add_mod, Nat.mod_eq_of_lt (show 1 < L.length by omega),
        Nat.mod_eq_of_lt (show k % L.length + 1 < L.length by omega)]

theorem draw_cycle (o : Obj) (ho : o.cyclic = true) (s : St) (k : Nat) (hs : s o = left o k) :
    ∃ x, o.base.list[k % o.base.list.length]? = some x ∧ (nextObj o s).1 = .style x := by
  have hp := base_pos o.base
  have hlt := Nat.mod_lt k hp
  refine ⟨o.base.list[k % o.base.list.length], List.getElem?_eq_getElem hlt, ?_⟩
  unfold nextObj
  rcases left_cycle o ho k with h | ⟨h1, h2⟩
  · rw [hs, h, List.drop_eq_getElem_cons hlt]
  · rw [hs, h1]
    simp only [ho, if_true]
    have e : o.base.list[k % o.base.list.length] = o.base.list[0] := by simp only [h2]
    rw [e]
    clear e
    clear h2 hlt
    revert hp
    generalize o.base.list = L
    intro hp
    cases L with
    | nil => simp at hp
    | cons x r => rfl

theorem draw_stop (o : Obj) (ho : o.cyclic = false) (s : St) (k : Nat) (hs : s o = left o k) :
    (nextObj o s).1 = match o.base.list[k]? with | some x => .style x | none => .stopIteration := by
  unfold nextObj
  rw [hs, left_stop o ho k]
  by_cases h : k < o.base.list.length
  · rw [List.drop_eq_getElem_cons h, List.getElem?_eq_getElem h]
  · rw [List.drop_eq_nil_iff.2 (by omega), List.getElem?_eq_none (by omega)]
    simp [ho]

theorem mem_combine (foo bar : List String) (s : String) : s ∈ combine foo bar ↔ ∃ x ∈ foo, ∃ y ∈ bar, s = x ++ y := by
  unfold combine itProduct
  simp only [List.foldl_cons, List.foldl_nil, List.flatMap_cons, List.flatMap_nil, List.append_nil, List.nil_append, List.mem_map,
    List.mem_flatMap, exists_exists_and_eq_and]
  constructor
  · rintro ⟨a, ⟨x, hx, y, hy, rfl⟩, rfl⟩
    exact ⟨x, hx, y, hy, by simp⟩
  · rintro ⟨x, hx, y, hy, rfl⟩
    exact ⟨_, ⟨x, hx, y, hy, rfl⟩, by simp⟩

/-- The parts of each list. -/
def Base.parts : Base → List (List String)
  | .c => [plotColors] | .m => [plotMarkers] | .l => [plotLines]
  | .cm => [plotColors, plotMarkers] | .cl => [plotColors, plotLines]
  | .mc => [plotMarkers, plotColors] | .lc => [plotLines, plotColors]

theorem made_two (p q : List String) (s : String) : MadeOf s [p, q] ↔ ∃ x ∈ p, ∃ y ∈ q, s = x ++ y := by
  constructor
  · rintro ⟨x, hx, t, ht, h⟩
    exact ⟨x, hx, t, ht, h⟩
  · rintro ⟨x, hx, t, ht, h⟩
    exact ⟨x, hx, t, ht, h⟩

theorem all_styles (b : Base) : AllStyles b.parts b.list := by
  refine ⟨by cases b <;> decide +kernel, fun s => ?_⟩
  cases b
  · exact Iff.rfl
  · exact Iff.rfl
  · exact Iff.rfl
  · exact (mem_combine _ _ s).trans (made_two _ _ s).symm
  · exact (mem_combine _ _ s).trans (made_two _ _ s).symm
  · exact (mem_combine _ _ s).trans (made_two _ _ s).symm
  · exact (mem_combine _ _ s).trans (made_two _ _ s).symm

/-- The names of one object are its long and its short name. -/
theorem names_cycle : ∀ e ∈ styleNames, ∃ b : Base, names.lookup e.1 = some ⟨true, b⟩ ∧ names.lookup e.2.1 = some ⟨true, b⟩ ∧
    (∀ m ∈ names, m.2 = ⟨true, b⟩ → m.1 = e.1 ∨ m.1 = e.2.1) ∧ AllStyles e.2.2 b.list := by
  intro e he
  simp only [styleNames, List.mem_cons, List.not_mem_nil, or_false] at he
  rcases he with rfl | rfl | rfl | rfl | rfl | rfl
  · exact ⟨.c, by decide +kernel, by decide +kernel, by decide +kernel, all_styles .c⟩
  · exact ⟨.m, by decide +kernel, by decide +kernel, by decide +kernel, all_styles .m⟩
  · exact ⟨.cm, by decide +kernel, by decide +kernel, by decide +kernel, all_styles .cm⟩
  · exact ⟨.cl, by decide +kernel, by decide +kernel, by decide +kernel, all_styles .cl⟩
  · exact ⟨.mc, by decide +kernel, by decide +kernel, by decide +kernel, all_styles .mc⟩
  · exact ⟨.lc, by decide +kernel, by decide +kernel, by decide +kernel, all_styles .lc⟩

theorem names_stop : ∀ e ∈ stopNames, ∃ b : Base, names.lookup e.1 = some ⟨false, b⟩ ∧ names.lookup e.2.1 = some ⟨false, b⟩ ∧
    (∀ m ∈ names, m.2 = ⟨false, b⟩ → m.1 = e.1 ∨ m.1 = e.2.1) ∧ AllStyles e.2.2 b.list := by
  intro e he
  simp only [stopNames, List.mem_cons, List.not_mem_nil, or_false] at he
  rcases he with rfl | rfl | rfl | rfl | rfl | rfl
  · exact ⟨.c, by decide +kernel, by decide +kernel, by decide +kernel, all_styles .c⟩
  · exact ⟨.m, by decide +kernel, by decide +kernel, by decide +kernel, all_styles .m⟩
  · exact ⟨.cm, by decide +kernel, by decide +kernel, by decide +kernel, all_styles .cm⟩
  · exact ⟨.cl, by decide +kernel, by decide +kernel, by decide +kernel, all_styles .cl⟩
  · exact ⟨.mc, by decide +kernel, by decide +kernel, by decide +kernel, all_styles .mc⟩
  · exact ⟨.lc, by decide +kernel, by decide +kernel, by decide +kernel, all_styles .lc⟩

theorem lookup_mem {n : String} {o : Obj} {l : List (String × Obj)} (h : l.lookup n = some o) : (n, o) ∈ l := by
  induction l with
  | nil => simp at h
  | cons e l ih =>
    rw [List.lookup_cons] at h
    split at h
    · rename_i heq
      cases h
      have : n = e.1 := by simpa using heq
      rw [this]; simp
    · exact List.mem_cons_of_mem _ (ih h)

theorem cnt_names (o : Obj) (long short : String) (h1 : names.lookup long = some o) (h2 : names.lookup short = some o)
    (h3 : ∀ m ∈ names, m.2 = o → m.1 = long ∨ m.1 = short) (h : List String) (t : Nat) :
    cnt o (h.take t) = drawnBefore long short h t := by
  unfold cnt drawnBefore
  congr 1
  apply List.filter_congr
  intro n _
  simp only [decide_eq_decide]
  constructor
  · intro hn
    exact h3 _ (lookup_mem hn) rfl
  · rintro (rfl | rfl)
    · exact h1
    · exact h2

theorem style_at (o : Obj) (h : List String) (t : Nat) (n : String) (ht : h[t]? = some n) (hn : names.lookup n = some o) :
    ∃ s : St, s o = left o (cnt o (h.take t)) ∧ (run h start)[t]? = some (nextObj o s).1 := by
  refine ⟨(h.take t).foldl (fun s n => (next n s).2) start, ?_, ?_⟩
  · have := state_after (h.take t) start (fun _ => 0) (fun _ => rfl) o
    simpa using this
  · rw [run_get h start t n ht]
    unfold next
    rw [hn]

/-- **C153** (endless styles). For each endless iterator there is a list of all its styles (all combinations of its parts, each
once) such that in any history
of draws, by any users in the process and through the long or the short name, the draw that has `k` draws from the same
iterator before it gets style number `k` of the list, counted around: consecutive draws walk through all styles before any of
them comes again, and draws from other iterators do not disturb it. -/
theorem C153_cycle (e : String × String × List (List String)) (he : e ∈ styleNames) :
    ∃ styles : List String, AllStyles e.2.2 styles ∧
      ∀ (h : List String) (t : Nat) (n : String), h[t]? = some n → n = e.1 ∨ n = e.2.1 →
        ∃ x, styles[drawnBefore e.1 e.2.1 h t % styles.length]? = some x ∧ (run h start)[t]? = some (.style x) := by
  obtain ⟨b, h1, h2, h3, hst⟩ := names_cycle e he
  refine ⟨b.list, hst, ?_⟩
  intro h t n ht hn
  have hlk : names.lookup n = some ⟨true, b⟩ := by rcases hn with rfl | rfl <;> assumption
  obtain ⟨s, hs, hr⟩ := style_at _ h t n ht hlk
  rw [cnt_names _ e.1 e.2.1 h1 h2 h3] at hs
  obtain ⟨x, hx, hd⟩ := draw_cycle _ rfl s _ hs
  exact ⟨x, hx, by rw [hr, hd]⟩

/-- **C153** (styles that run out). The iterators `iter_…` give each style once per process: the draw with `k` draws before
it gets style number `k`, and from then on every draw, by anyone, stops. -/
theorem C153_iter (e : String × String × List (List String)) (he : e ∈ stopNames) :
    ∃ styles : List String, AllStyles e.2.2 styles ∧
      ∀ (h : List String) (t : Nat) (n : String), h[t]? = some n → n = e.1 ∨ n = e.2.1 →
        (∀ x, styles[drawnBefore e.1 e.2.1 h t]? = some x → (run h start)[t]? = some (.style x)) ∧
        (styles.length ≤ drawnBefore e.1 e.2.1 h t → (run h start)[t]? = some .stopIteration) := by
  obtain ⟨b, h1, h2, h3, hst⟩ := names_stop e he
  refine ⟨b.list, hst, ?_⟩
  intro h t n ht hn
  have hlk : names.lookup n = some ⟨false, b⟩ := by rcases hn with rfl | rfl <;> assumption
  obtain ⟨s, hs, hr⟩ := style_at _ h t n ht hlk
  rw [cnt_names _ e.1 e.2.1 h1 h2 h3] at hs
  have hd := draw_stop _ rfl s _ hs
  refine ⟨fun x hx => ?_, fun hle => ?_⟩
  · rw [hr, hd]
    simp only [hx]
  · rw [hr, hd, List.getElem?_eq_none (by simpa using hle)]

/-- Non-vacuity: two users draw colours through different names. -/
example : run ["cc", "cm", "cycle_colors", "cc"] start = [.style "b", .style "o", .style "g", .style "r"] := by decide +kernel

/-! ### Colour transitions -/

/-- **C153** (colour transition). In a loop over `range(niter)` with at least two passes `smooth_color` goes from 0 to 1 in
equal steps; `smooth_color_func` is the list of the function values at these numbers. -/
theorem C153_smooth (niter : Nat) (hn : 2 ≤ niter) :
    (∃ z : Nat → ℝ, (∀ i : Nat, smoothColor i niter = some (z i)) ∧ z 0 = 0 ∧ z (niter - 1) = 1 ∧
      (∀ i, z (i + 1) - z i = 1 / ((niter : ℝ) - 1)) ∧ (∀ i, i < niter → 0 ≤ z i ∧ z i ≤ 1) ∧
      ∀ {α : Type} (func : ℝ → α), smoothColorFunc niter func = some ((List.range niter).map fun i : Nat => func (z i))) := by
  have hpos : (0 : ℝ) < (niter : ℝ) - 1 := by
    have : (2 : ℝ) ≤ niter := by exact_mod_cast hn
    linarith
  refine ⟨fun i => (i : ℝ) / ((niter : ℝ) - 1), ?_, by simp, ?_, ?_, ?_, ?_⟩
  · intro i
    unfold smoothColor
    rw [if_neg (by omega)]
    push_cast
    rfl
  · show ((niter - 1 : Nat) : ℝ) / ((niter : ℝ) - 1) = 1
    rw [Nat.cast_sub (by omega)]
    simp only [Nat.cast_one]
    exact div_self hpos.ne'
  · intro i
    push_cast
    field_simp
    ring
  · intro i hi
    have : (i : ℝ) + 1 ≤ niter := by exact_mod_cast hi
    exact ⟨by positivity, by rw [div_le_one hpos]; linarith⟩
  · intro α func
    unfold smoothColorFunc
    have key : ∀ (l : List Nat) (acc : List α), l.foldl (fun col (ii : Nat) => col.bind fun col =>
        if (niter : ℝ) - 1 = 0 then none else some (col ++ [func ((ii : ℝ) / ((niter : ℝ) - 1))])) (some acc) =
        some (acc ++ l.map fun i : Nat => func ((i : ℝ) / ((niter : ℝ) - 1))) := by
      intro l
      induction l with
      | nil => intro acc; simp
      | cons i l ih => intro acc; rw [List.foldl_cons, Option.bind_some, if_neg hpos.ne', ih]; simp
    rw [key]
    simp

/-- **C153** (one pass). A loop with one pass divides by zero. -/
theorem C153_smooth_one {α : Type} (func : ℝ → α) (i : Int) : smoothColor i 1 = none ∧ smoothColorFunc 1 func = none ∧
    smoothColorFunc 0 func = some [] := by
  refine ⟨by simp [smoothColor], ?_, rfl⟩
  simp [smoothColorFunc]

/-! ### Legends -/

/-- **C154**. With at least one axis the handles and the labels are those of the axes one after the other, and the `k`-th
handle still goes with the `k`-th label. Without axes the call stops. -/
theorem C154_legends {H : Type} (axs : List (List H × List String)) (hax : ∀ a ∈ axs, a.1.length = a.2.length) :
    (axs ≠ [] → ∃ hs ls, collectLegends axs = some (hs, ls) ∧ hs.zip ls = axs.flatMap fun a => a.1.zip a.2) ∧
    (axs ≠ [] → ∀ hs ls, collectLegends axs = some (hs, ls) → hs = axs.flatMap (·.1) ∧ ls = axs.flatMap (·.2)) ∧
    (axs = [] → collectLegends axs = none) := by
  refine ⟨?_, ?_, ?_⟩
  · intro hne
    refine ⟨_, _, by unfold collectLegends; rw [if_neg hne], ?_⟩
    clear hne
    induction axs with
    | nil => rfl
    | cons a axs ih =>
      simp only [List.map_cons, List.flatten_cons, List.flatMap_cons]
      rw [List.zip_append (hax a (by simp)), ih fun b hb => hax b (List.mem_cons_of_mem _ hb)]
  · intro hne hs ls h
    unfold collectLegends at h
    rw [if_neg hne] at h
    cases h
    exact ⟨List.flatMap_def.symm, List.flatMap_def.symm⟩
  · rintro rfl; rfl

/-- Non-vacuity. -/
example : collectLegends [([1, 2], ["a", "b"]), ([3], ["c"])] = some ([1, 2, 3], ["a", "b", "c"]) := by decide

/-- **C154** (plots by name). `prepare_plots(names)` has one plot for every name, in the order of the names; when the names
differ the `i`-th entry is the `i`-th name with the `i`-th plot made. -/
theorem C154_prepare {P : Type} (made : Nat → P) (nms : List String) (h : nms.Nodup) :
    preparePlots made nms = nms.zipIdx.map fun e => (e.1, made e.2) := by
  unfold preparePlots
  have key : ∀ (l : List String) (k : Nat) (d : List (String × P)), l.Nodup → (∀ x ∈ l, ∀ kv ∈ d, kv.1 ≠ x) →
      (l.zipIdx k).foldl (fun d e =>
        if d.any (·.1 = e.1) then d.map fun kv => if kv.1 = e.1 then (e.1, made e.2) else kv else d ++ [(e.1, made e.2)]) d =
      d ++ (l.zipIdx k).map fun e => (e.1, made e.2) := by
    intro l
    induction l with
    | nil => intro k d _ _; simp
    | cons x l ih =>
      intro k d hnd hd
      rw [List.zipIdx_cons, List.foldl_cons, if_neg, ih (k + 1) _ (List.nodup_cons.1 hnd).2]
      · simp
      · intro y hy kv hkv
        rcases List.mem_append.1 hkv with hkv | hkv
        · exact hd y (List.mem_cons_of_mem _ hy) kv hkv
        · simp at hkv
          rw [hkv]
          rintro rfl
          exact (List.nodup_cons.1 hnd).1 hy
      · simp only [List.any_eq_true, decide_eq_true_eq, not_exists, not_and]
        exact fun kv hkv => hd x (by simp) kv hkv
  rw [key nms 0 [] h (by simp)]
  rfl

end Pwtools.Styles
