import Verif.Spec.GibbsHist
import Verif.Props.Gibbs
/-!
# C141: a `Gibbs` object over its life
-/
namespace Pwtools.Thermo
open Spec Gibbs

theorem lastOf_snoc {α β : Type} (f : α → Option β) (d : β) (l : List α) (x : α) : lastOf f d (l ++ [x]) = (f x).getD (lastOf f d l) := by
  unfold lastOf
  rw [List.filterMap_append]
  cases h : f x with
  | none => simp [h]
  | some y => simp [h]

/-- Before the first calculation: all functions are those set last. -/
theorem run_before (junk : List Nat → ℝ) (g : Gibbs) (pre : List GOp) (h : ∀ o ∈ pre, ¬ IsCalc o) : (GObj.new g).run junk pre = ⟨withLast g pre, none⟩ := by
  induction pre using List.reverseRec with
  | nil => rfl
  | append_singleton pre op ih =>
    have ih := ih fun o ho => h o (List.mem_append_left _ ho)
    unfold GObj.run at ih ⊢
    rw [List.foldl_append, ih]
    show GObj.step junk ⟨withLast g pre, none⟩ op = _
    cases op with
    | compute c => exact absurd trivial (h (.compute c) (by simp))
    | set s =>
      unfold withLast
      simp only [lastOf_snoc]
      cases s <;> rfl

/-- The object after a history whose first calculation comes after `pre`. -/
theorem run_after (junk : List Nat → ℝ) (g : Gibbs) (pre : List GOp) (h : ∀ o ∈ pre, ¬ IsCalc o) (c : Calc) (post : List GOp) :
    (GObj.new g).run junk (pre ++ .compute c :: post) = ⟨withLast g (pre ++ .compute c :: post), some (lastOf givenAx g.fit1ax pre)⟩ := by
  induction post using List.reverseRec with
  | nil =>
    unfold GObj.run
    rw [List.foldl_append]
    have := run_before junk g pre h
    unfold GObj.run at this
    rw [this]
    unfold withLast
    simp only [lastOf_snoc]
    rfl
  | append_singleton post op ih =>
    have e : pre ++ .compute c :: (post ++ [op]) = (pre ++ .compute c :: post) ++ [op] := by simp
    rw [e]
    unfold GObj.run at ih ⊢
    rw [List.foldl_append, ih]
    unfold withLast
    simp only [lastOf_snoc]
    cases op with
    | compute c' => rfl
    | set s => cases s <;> rfl

/-- **C141** Full form: in any history, a calculation gives what a new object with the fit functions set last would give, except that the function for the axes (`'1d-ax'`) is the one which was set
when the first calculation of the object began. -/
theorem C141_history (junk : List Nat → ℝ) (g : Gibbs) (ops : List GOp) (c : Calc) :
    ∃ pre, pre <+: ops ∧ (∀ o ∈ pre, ¬ IsCalc o) ∧ (pre = ops ∨ ∃ c' post, ops = pre ++ .compute c' :: post) ∧
      (((GObj.new g).run junk ops).calc junk c).2 = ({ withLast g ops with fit1ax := lastOf givenAx g.fit1ax pre } : Gibbs).calc junk c := by
  classical
  have hs : (∀ o ∈ ops, ¬ IsCalc o) ∨ ∃ pre c' post, ops = pre ++ .compute c' :: post ∧ ∀ o ∈ pre, ¬ IsCalc o := by
    induction ops with
    | nil => exact .inl (by simp)
    | cons o ops ih =>
      cases o with
      | compute c' => exact .inr ⟨[], c', ops, rfl, by simp⟩
      | set s =>
        rcases ih with ih | ⟨pre, c', post, h1, h2⟩
        · left
          intro o ho
          rcases List.mem_cons.1 ho with rfl | ho
          · exact id
          · exact ih o ho
        · refine .inr ⟨.set s :: pre, c', post, by rw [h1]; rfl, ?_⟩
          intro o ho
          rcases List.mem_cons.1 ho with rfl | ho
          · exact id
          · exact h2 o ho
  rcases hs with h | ⟨pre, c', post, rfl, h⟩
  · refine ⟨ops, List.prefix_refl _, h, .inl rfl, ?_⟩
    rw [run_before junk g ops h]
    rfl
  · refine ⟨pre, List.prefix_append _ _, h, .inr ⟨c', post, rfl⟩, ?_⟩
    rw [run_after junk g pre h c' post]
    rfl

/-- **C141** The same for each calculation by its name: the results are those of `calc_F`, `calc_H` and `calc_G` (C68) with these functions. -/
theorem C141_results (junk : List Nat → ℝ) (g : Gibbs) (ops : List GOp) :
    ∃ pre, pre <+: ops ∧ (∀ o ∈ pre, ¬ IsCalc o) ∧ (pre = ops ∨ ∃ c' post, ops = pre ++ .compute c' :: post) ∧
      let g' : Gibbs := { withLast g ops with fit1ax := lastOf givenAx g.fit1ax pre }
      (∀ all, (((GObj.new g).run junk ops).calc junk (.F all)).2 = g'.calcF junk all) ∧
      (∀ all, (((GObj.new g).run junk ops).calc junk (.H all)).2 = g'.calcH junk all) ∧
      (∀ ret all, (((GObj.new g).run junk ops).calc junk (.G ret all)).2 = g'.calcG junk ret all) := by
  obtain ⟨pre, h1, h2, h3, -⟩ := C141_history junk g ops (.F true)
  refine ⟨pre, h1, h2, h3, fun all => ?_, fun all => ?_, fun ret all => ?_⟩ <;>
  · rcases h3 with rfl | ⟨c', post, rfl⟩
    · rw [run_before junk g _ h2]; rfl
    · rw [run_after junk g pre h2 c' post]; rfl

/-- **C141** A calculation does not depend on earlier calculations, and `set_fitfunc` is in effect for all later ones, if the function for the axes is not set after the first calculation.
Missing: this exception (`C141_stale_counterexample`). -/
theorem C141_fresh_partial (junk : List Nat → ℝ) (g : Gibbs) (ops : List GOp) (c : Calc)
    (h : ∀ pre c' post, ops = pre ++ .compute c' :: post → ∀ o ∈ post, givenAx o = none) :
    (((GObj.new g).run junk ops).calc junk c).2 = ((GObj.new (withLast g ops)).calc junk c).2 := by
  obtain ⟨pre, -, h2, h3, h4⟩ := C141_history junk g ops c
  rw [h4]
  have e : lastOf givenAx g.fit1ax pre = (withLast g ops).fit1ax := by
    rcases h3 with rfl | ⟨c', post, rfl⟩
    · rfl
    · show _ = lastOf givenAx g.fit1ax (pre ++ .compute c' :: post)
      unfold lastOf
      rw [List.filterMap_append, List.filterMap_cons_none (by rfl)]
      have : post.filterMap givenAx = [] := List.filterMap_eq_nil_iff.2 (h pre c' post rfl)
      rw [this, List.append_nil]
  rw [e]
  rfl

/-- **C141** No function is lost or changed by calculations: without `set_fitfunc` all calculations of an object are those of a new one, in any order and any number. -/
theorem C141_repeat (junk : List Nat → ℝ) (g : Gibbs) (ops : List GOp) (h : ∀ o ∈ ops, IsCalc o) (c : Calc) :
    (((GObj.new g).run junk ops).calc junk c).2 = ((GObj.new g).calc junk c).2 := by
  have hn : ∀ {β : Type} (f : GOp → Option β), (∀ c, f (.compute c) = none) → ops.filterMap f = [] := by
    intro β f hf
    refine List.filterMap_eq_nil_iff.2 fun o ho => ?_
    cases o with
    | compute c => exact hf c
    | set s => exact (h _ ho).elim
  rw [C141_fresh_partial junk g ops c]
  · have : withLast g ops = g := by
      unfold withLast lastOf
      rw [hn given1G fun _ => rfl, hn given2G fun _ => rfl, hn givenAx fun _ => rfl, hn givenAlpha fun _ => rfl, hn givenC fun _ => rfl]
      rfl
    rw [this]
  · intro pre c' post e o ho
    have := h o (by rw [e]; simp [ho])
    cases o with
    | compute c => rfl
    | set s => exact this.elim

/-- The value for the axis at the minimum, from `C68_opt_1d`, for the example. -/
theorem exG_ax (junk : List Nat → ℝ) (f : ℝ → ℝ) : ∃ d a, ({ exG with fit1ax := fun _ _ => ⟨f, fun _ => f, 0⟩ } : Gibbs).calcG junk none true = some d ∧ d (.optTP (.ax 0)) = some (some a) ∧
    a.get [0, 0] = f 1 := by
  set g : Gibbs := { exG with fit1ax := fun _ _ => ⟨f, fun _ => f, 0⟩ } with hg
  obtain ⟨d, hd⟩ := g.C68_F_ok junk true (fun p hp => exG_harm p (by
    simp only [hg, exG, List.mem_cons, List.not_mem_nil, or_false] at hp
    rcases hp with rfl | rfl <;> rfl))
  obtain ⟨F, hF, hs, -⟩ := g.C68_F junk true rfl d hd .F (by simp)
  obtain ⟨d', G, H, h, -, -, h2⟩ := g.C68_opt_1d junk rfl (by simp [hg, exG]) none d F (.inr ⟨rfl, hd⟩) hF hs
  obtain ⟨val, hv, ⟨a, h3, -, h4, -⟩, -⟩ := h2 (.ax 0) (.inr (.inr (.inr ⟨0, by simp [hg, exG], rfl⟩)))
  refine ⟨d', a, h, h3, ?_⟩
  rw [h4 0 (by simp [hg, exG]) 0 (by simp [hg, exG]), hv]
  simp [hg, exG]

theorem stale_eq (junk : List Nat → ℝ) (g : Gibbs) (f : List ℝ → List ℝ → Fit) (c : Calc) :
    (((GObj.new g).run junk [.compute (.F false), .set (.ax1 f)]).calc junk c).2 = g.calc junk c ∧
    ((GObj.new (withLast g [.compute (.F false), .set (.ax1 f)])).calc junk c).2 = ({ g with fit1ax := f } : Gibbs).calc junk c := ⟨rfl, rfl⟩

/-- **C141** is false for `'1d-ax'`: when it is set after a calculation it has no effect; the axis at the minimum is still the one of the old function. -/
theorem C141_stale_counterexample : ∃ (g : Gibbs) (junk : List Nat → ℝ) (ops : List GOp) (d d' : Dict) (a a' : Arr),
    (((GObj.new g).run junk ops).calc junk (.G none true)).2 = some d ∧ ((GObj.new (withLast g ops)).calc junk (.G none true)).2 = some d' ∧
    d (.optTP (.ax 0)) = some (some a) ∧ d' (.optTP (.ax 0)) = some (some a') ∧ a.get [0, 0] ≠ a'.get [0, 0] := by
  obtain ⟨d, a, h1, h2, h3⟩ := exG_ax (fun _ => 0) id
  obtain ⟨d', a', k1, k2, k3⟩ := exG_ax (fun _ => 0) (fun v => v + 1)
  refine ⟨{ exG with fit1ax := fun _ _ => ⟨id, fun _ => id, 0⟩ }, fun _ => 0, [.compute (.F false), .set (.ax1 fun _ _ => ⟨fun v => v + 1, fun _ v => v + 1, 0⟩)], d, d', a, a', (stale_eq _ _ _ _).1.trans h1,
    (stale_eq _ _ _ _).2.trans k1, h2, k2, ?_⟩
  rw [h3, k3]
  norm_num

/-- Hypotheses of `C141_fresh_partial`: the example of the documentation, with the fit functions set before and the one for the heat capacity again later. -/
example (f f' : List ℝ → List ℝ → Fit) : ∀ pre c' post, ([.set (.c f), .set (.ax1 f), .compute (.G none true), .set (.c f'), .compute (.H true)] : List GOp) = pre ++ .compute c' :: post →
    ∀ o ∈ post, givenAx o = none := by
  intro pre c' post h o ho
  match pre, h with
  | [], h => cases h
  | [_], h => cases h
  | [_, _], h =>
    cases h
    simp only [List.mem_cons, List.not_mem_nil, or_false] at ho
    rcases ho with rfl | rfl <;> rfl
  | [_, _, _], h => cases h
  | [_, _, _, _], h => cases h; cases ho
  | _ :: _ :: _ :: _ :: _ :: _, h => simp at h

end Pwtools.Thermo
