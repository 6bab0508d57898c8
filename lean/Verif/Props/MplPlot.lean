import Verif.Spec.MplPlot
import Mathlib.Data.List.Nodup
import Mathlib.Tactic.Linarith
import Mathlib.Tactic.FieldSimp
import Mathlib.Tactic.Ring
/-!
# C163: the drawing helpers of `mpl`
-/
namespace Pwtools.MplPlot
open Pwtools.Spec

theorem mapM_ok {β : Type} (f : Nat → Except PErr β) (g : Nat → β) : ∀ l : List Nat, (∀ j ∈ l, f j = .ok (g j)) → l.mapM f = .ok (l.map g)
  | [], _ => rfl
  | a :: l, h => by
    rw [List.mapM_cons, h a (by simp), mapM_ok f g l (fun j hj => h j (by simp [hj]))]
    rfl

/-- **C163** (`plotlines3d`, a curve for each column of `z`). -/
theorem C163_lines_partial {α : Type} [Inhabited α] (x : Arr α) (y : List α) (n m : Nat) (f : Nat → Nat → α)
    (hm : m = y.length) (hx : HasCols x m) (hn : rows x = n) :
    ∃ calls, plotlines3d x y (.d2 n m f) = .ok calls ∧ Curves x y (.d2 n m f) calls := by
  subst hm
  obtain ⟨xx, hxx, hxc⟩ : ∃ g : Nat → Nat → α, expand x y.length = (n, y.length, g) ∧
      ∀ i j, i < n → j < y.length → curveAt x i j (g i j) := by
    cases x with
    | d1 l =>
      simp only [rows] at hn
      refine ⟨fun i _ => l.getD i default, by simp [expand, hn], fun i j hi _ => ?_⟩
      simp only [curveAt]
      rw [← hn] at hi
      simp [hi]
    | d2 n' m' g =>
      simp only [rows] at hn
      simp only [HasCols] at hx
      subst hn hx
      exact ⟨g, rfl, fun i j hi hj => ⟨hi, hj, rfl⟩⟩
  refine ⟨(List.range y.length).map (fun j => (column n xx j, List.replicate n (y.getD j default), column n f j)), ?_, ?_, ?_⟩
  · unfold plotlines3d
    simp only [show expand (.d2 n y.length f) y.length = (n, y.length, f) from rfl, hxx, ne_eq, not_true_eq_false, if_false,
      and_self]
    exact mapM_ok _ _ _ (fun j _ => rfl)
  · simp
  · intro j yj hj
    obtain ⟨hjl, hyj⟩ := List.getElem?_eq_some_iff.1 hj
    refine ⟨column n xx j, List.replicate n (y.getD j default), column n f j, by simp [hjl], by simp [column, hn], by simp [hn], by simp [column, hn], ?_⟩
    intro i hi
    rw [hn] at hi
    refine ⟨xx i j, f i j, by simp [column, hi], ?_, by simp [column, hi], hxc i j hi hjl, hi, hjl, rfl⟩
    rw [List.getElem?_replicate, if_pos hi]
    simp [hjl, hyj]

/-- **C163** (`plotlines3d`, wrong shapes). Nothing is drawn if the shapes do not fit. -/
theorem C163_lines_shapes {α : Type} [Inhabited α] (x : Arr α) (y : List α) (n m : Nat) (f : Nat → Nat → α)
    (h : m ≠ y.length ∨ ¬ HasCols x m ∨ rows x ≠ n) : plotlines3d x y (.d2 n m f) = .error .assertion := by
  unfold plotlines3d
  simp only [show expand (.d2 n m f) y.length = (n, m, f) from rfl]
  cases x with
  | d1 l =>
    simp only [expand, rows, HasCols, not_true_eq_false, false_or] at *
    by_cases hl : l.length = n
    · have : m ≠ y.length := by tauto
      simp [hl, Ne.symm this]
    · simp [hl]
  | d2 n' m' g =>
    simp only [expand, rows, HasCols] at *
    by_cases hl : (n', m') = (n, m)
    · obtain ⟨rfl, rfl⟩ := Prod.mk.injEq .. ▸ hl
      have : m' ≠ y.length := by tauto
      simp [Ne.symm this]
    · exact if_pos hl

/-- **C163** is false for a 1d `z`: the documented use ("the same curve will be plotted len(y) times") fails for
all arguments with at least one curve, since the loop takes a column of `z` and not of `zz`. -/
theorem C163_lines_1d {α : Type} [Inhabited α] (l : List α) (y : List α) (x : Arr α) (hy : y ≠ []) :
    ∀ calls, plotlines3d x y (.d1 l) ≠ .ok calls := by
  intro calls
  unfold plotlines3d
  simp only [show expand (.d1 l) y.length = (l.length, y.length, fun i _ => l.getD i default) from rfl]
  split_ifs with h1 h2
  · simp
  · have hpos : (expand x y.length).2.1 = y.length := h2.1.symm
    rw [hpos]
    obtain ⟨a, y', rfl⟩ := List.exists_cons_of_ne_nil hy
    rw [List.length_cons, List.range_succ_eq_map, List.mapM_cons]
    intro h
    cases h
  · simp

/-- The 1d case which should work. -/
theorem C163_lines_counterexample : plotlines3d (.d1 [0, 1, 2]) [5, 6] (.d1 [7, 8, (9 : Nat)]) = .error .index ∧
    ∃ calls, Curves (.d1 [0, 1, 2]) [5, 6] (.d1 [7, 8, (9 : Nat)]) calls := by
  refine ⟨by rfl, [([0, 1, 2], [5, 5, 5], [7, 8, 9]), ([0, 1, 2], [6, 6, 6], [7, 8, 9])], rfl, ?_⟩
  intro j yj hj
  have hrow : ∀ i, i < rows (Arr.d1 [0, 1, 2]) → i = 0 ∨ i = 1 ∨ i = 2 := by intro i hi; simp [rows] at hi; omega
  rcases j with _ | _ | j
  · simp at hj; subst hj
    refine ⟨_, _, _, rfl, rfl, rfl, rfl, fun i hi => ?_⟩
    rcases hrow i hi with rfl | rfl | rfl <;> exact ⟨_, _, rfl, rfl, rfl, rfl, rfl⟩
  · simp at hj; subst hj
    refine ⟨_, _, _, rfl, rfl, rfl, rfl, fun i hi => ?_⟩
    rcases hrow i hi with rfl | rfl | rfl <;> exact ⟨_, _, rfl, rfl, rfl, rfl, rfl⟩
  · simp at hj

/-- **C163** (`color_ax`). For `axis` x or y and places which exist: label and ticks of this direction and the spine get the
colour, the other spine is made invisible (last), and everything else stays as it is. -/
theorem C163_color_partial (ax : AxColors) (color axis : String) (ha : axis = "x" ∨ axis = "y") (s i : Option String)
    (hs : ∀ k, s = some k → k ∈ spineKeys) (hi : ∀ k, i = some k → k ∈ spineKeys) :
    ∃ ax', colorAx ax color axis s i = .ok ax' ∧
      (∀ k, ax'.label k = if k = axis then some color else ax.label k) ∧
      (∀ k, ax'.ticks k = if k = axis then some color else ax.ticks k) ∧
      (∀ k, ax'.spine k = if i = some k then none else if s = some k then some color else ax.spine k) := by
  have h0 : axis ++ "axis" ∈ axisAttrs := by rcases ha with rfl | rfl <;> decide
  unfold colorAx
  rw [if_neg (not_not.2 h0)]
  cases s with
  | none =>
    cases i with
    | none => exact ⟨_, rfl, fun k => rfl, fun k => rfl, fun k => by simp⟩
    | some i =>
      have := hi i rfl
      simp only [this, not_true_eq_false, if_false]
      exact ⟨_, rfl, fun k => rfl, fun k => rfl, fun k => by simp [setKey, eq_comm]⟩
  | some s =>
    have h1 := hs s rfl
    simp only [h1, not_true_eq_false, if_false]
    cases i with
    | none => exact ⟨_, rfl, fun k => rfl, fun k => rfl, fun k => by simp [setKey, eq_comm]⟩
    | some i =>
      have := hi i rfl
      simp only [this, not_true_eq_false, if_false]
      exact ⟨_, rfl, fun k => rfl, fun k => rfl, fun k => by simp [setKey, eq_comm]⟩

/-- **C163** is false for `axis="both"`, a documented value: there is no attribute `bothaxis`. -/
theorem C163_color_both (ax : AxColors) (color : String) (s i : Option String) :
    colorAx ax color "both" s i = .error .attribute := by
  unfold colorAx
  rw [if_pos (by decide)]

/-- **C163** (`Plot.savefig`). One file for each extension, in order; no file twice if the extensions differ. -/
theorem C163_savefig (base : String) (ext : List String) :
    (savefig base ext).length = ext.length ∧ (∀ (k : Nat) (e : String), ext[k]? = some e → (savefig base ext)[k]? = some (base ++ "." ++ e)) ∧
    (ext.Nodup → (savefig base ext).Nodup) := by
  refine ⟨by simp [savefig], fun k e h => by simp [savefig, h], fun h => ?_⟩
  refine List.Nodup.map (f := fun ex => base ++ "." ++ ex) ?_ h
  intro a b hab
  have := congrArg String.toList hab
  simp only [String.toList_append, List.append_cancel_left_eq] at this
  exact String.toList_inj.1 this

/-! ### `new_axis` -/

theorem fmt6_close (x : ℝ) : |fmt6 x - x| ≤ 1 / (2 * 10 ^ 6) := by
  have h := abs_sub_round (x * 10 ^ 6)
  unfold fmt6
  have e : (round (x * 10 ^ 6) : ℝ) / 10 ^ 6 - x = -(x * 10 ^ 6 - round (x * 10 ^ 6)) / 10 ^ 6 := by field_simp; ring
  rw [e, abs_div, abs_neg, abs_of_pos (show (0 : ℝ) < 10 ^ 6 by norm_num), div_le_div_iff₀ (by norm_num) (by norm_num)]
  generalize |x * 10 ^ 6 - (round (x * 10 ^ 6) : ℝ)| = t at h ⊢
  linarith

/-- **C163** (direction of the new line). It is moved away from the plot by `off` points, and its label is an x label
above and below, and a y label at the sides. -/
theorem C163_offset (loc : Loc) (off : ℝ) (label : String) :
    (axisLine loc off label).loc = loc ∧ (axisLine loc off label).label = label ∧
    (axisLine loc off label).offset = (off * (outward loc).1, off * (outward loc).2) ∧
    ((axisLine loc off label).xlabel = true ↔ loc = .top ∨ loc = .bottom) := by
  cases loc <;> simp [axisLine, outward]

/-- One call. -/
theorem newAxis_box (f g : Fig) (off : ℝ) (loc : Loc) (wsadd : ℝ) (label : String) (h : newAxis f off loc wsadd label = .ok g) :
    g.lines = f.lines ++ [axisLine loc off label] ∧ |moved loc f.box g.box - wsadd| ≤ 1 / (2 * 10 ^ 6) ∧
    (∀ l, l ≠ loc → moved l f.box g.box = 0) ∧ g.box.left < g.box.right ∧ g.box.bottom < g.box.top := by
  unfold newAxis at h
  split at h
  · cases h
  · rename_i b hb
    cases h
    unfold adjust at hb
    simp only at hb
    split_ifs at hb with hc
    · cases hb
      push Not at hc
      refine ⟨rfl, ?_, ?_, hc.1, hc.2⟩
      · have := fmt6_close (newWs f.box loc wsadd)
        cases loc <;> simp only [moved, Box.set, newWs, Box.get, reduceCtorEq, or_self, or_true, or_false, if_true, if_false] at this ⊢ <;>
          rw [abs_le] at this ⊢ <;> constructor <;> linarith [this.1, this.2]
      · intro l hl
        cases loc <;> cases l <;> first | exact absurd rfl hl | simp [moved, Box.set]

/-- **C163** (whitespace). For every sequence of calls which all succeed: each side of the plot has moved to the inside by the sum
of the whitespace asked for at this side, up to half a millionth for each call; the axis lines are those asked
for, in order; and some of the plot is left. -/
theorem C163_whitespace (f g : Fig) (calls : List (ℝ × Loc × ℝ × String)) (h : newAxes f calls = .ok g) :
    (∀ loc, |moved loc f.box g.box - wsAt loc calls| ≤ (calls.filter (fun c => decide (c.2.1 = loc))).length / (2 * 10 ^ 6)) ∧
    g.lines = f.lines ++ calls.map (fun c => axisLine c.2.1 c.1 c.2.2.2) ∧
    (calls ≠ [] → g.box.left < g.box.right ∧ g.box.bottom < g.box.top) := by
  induction calls generalizing f with
  | nil =>
    cases h
    refine ⟨fun loc => ?_, by simp, fun h => absurd rfl h⟩
    cases loc <;> simp [moved, wsAt]
  | cons c cs ih =>
    unfold newAxes at h
    split at h
    · cases h
    · rename_i f1 h1
      obtain ⟨l1, m1, o1, b1⟩ := newAxis_box f f1 _ _ _ _ h1
      obtain ⟨m2, l2, b2⟩ := ih f1 h
      refine ⟨fun loc => ?_, ?_, fun _ => ?_⟩
      · have hsum : moved loc f.box g.box = moved loc f.box f1.box + moved loc f1.box g.box := by
          cases loc <;> simp only [moved] <;> ring
        rw [hsum]
        have m2' := m2 loc
        by_cases hloc : c.2.1 = loc
        · rw [hloc] at m1
          have e1 : wsAt loc (c :: cs) = c.2.2.1 + wsAt loc cs := by simp [wsAt, hloc]
          have e2 : ((c :: cs).filter (fun c => decide (c.2.1 = loc))).length = (cs.filter (fun c => decide (c.2.1 = loc))).length + 1 := by
            simp [hloc]
          rw [e1, e2]
          push_cast
          rw [add_div]
          rw [abs_le] at m1 m2' ⊢
          constructor <;> linarith [m1.1, m1.2, m2'.1, m2'.2]
        · have e1 : wsAt loc (c :: cs) = wsAt loc cs := by simp [wsAt, hloc]
          have e2 : (c :: cs).filter (fun c => decide (c.2.1 = loc)) = cs.filter (fun c => decide (c.2.1 = loc)) := by
            simp [hloc]
          rw [e1, e2, o1 loc (Ne.symm hloc), zero_add]
          exact m2'
      · rw [l2, l1]; simp
      · by_cases hcs : cs = []
        · subst hcs
          cases h
          exact b1
        · exact b2 hcs

/-- **C163** (names). The comment promises `bottom2`, `bottom3`, …; each new line gets its own parasite axes,
so its name in there is always `bottom2` (`left2`, …). -/
theorem C163_name (loc : String) (hl : loc ∈ spineKeys) (fuel : Nat) : lineName spineKeys loc 2 (fuel + 1) = some (loc ++ "2") := by
  have h : loc ++ toString 2 ∉ spineKeys := by
    simp only [spineKeys, List.mem_cons, List.not_mem_nil, or_false] at hl
    rcases hl with rfl | rfl | rfl | rfl <;> decide
  unfold lineName
  rw [if_neg h]
  rfl

/-! Non-vacuity -/

example : ∃ calls, plotlines3d (.d1 [0, 1]) [5, 6, 7] (.d2 2 3 (fun i j => 10 * i + j)) = .ok calls ∧ calls.length = 3 := ⟨_, rfl, rfl⟩

/-- Two lines below a plot of default size. -/
example : ∃ g, newAxes ⟨⟨1 / 8, 9 / 10, 22 / 25, 11 / 100⟩, []⟩ [(50, .bottom, 1 / 10, "T"), (100, .bottom, 1 / 10, "P")] = .ok g := by
  have r1 : fmt6 (11 / 100 + 1 / 10) = 21 / 100 := by
    unfold fmt6
    rw [show ((11 / 100 + 1 / 10 : ℝ) * 10 ^ 6) = ((210000 : Int) : ℝ) by norm_num, round_intCast]; norm_num
  have r2 : fmt6 (21 / 100 + 1 / 10) = 31 / 100 := by
    unfold fmt6
    rw [show ((21 / 100 + 1 / 10 : ℝ) * 10 ^ 6) = ((310000 : Int) : ℝ) by norm_num, round_intCast]; norm_num
  refine ⟨⟨⟨1 / 8, 9 / 10, 22 / 25, 31 / 100⟩, [axisLine .bottom 50 "T", axisLine .bottom 100 "P"]⟩, ?_⟩
  have s1 : newAxis ⟨⟨1 / 8, 9 / 10, 22 / 25, 11 / 100⟩, []⟩ 50 .bottom (1 / 10) "T" = .ok ⟨⟨1 / 8, 9 / 10, 22 / 25, 21 / 100⟩, [axisLine .bottom 50 "T"]⟩ := by
    simp only [newAxis, newWs, Box.get, reduceCtorEq, or_self, if_false, r1, adjust, Box.set]
    rw [if_neg (by norm_num)]; rfl
  have s2 : newAxis ⟨⟨1 / 8, 9 / 10, 22 / 25, 21 / 100⟩, [axisLine .bottom 50 "T"]⟩ 100 .bottom (1 / 10) "P" =
      .ok ⟨⟨1 / 8, 9 / 10, 22 / 25, 31 / 100⟩, [axisLine .bottom 50 "T", axisLine .bottom 100 "P"]⟩ := by
    simp only [newAxis, newWs, Box.get, reduceCtorEq, or_self, if_false, r2, adjust, Box.set]
    rw [if_neg (by norm_num)]; rfl
  simp only [newAxes, s1, s2]

end Pwtools.MplPlot
