import Verif.Spec.GettersLife
import Verif.Props.Getters
import Verif.Props.NdArray
/-!
# C144: an object of a class derived from `FlexibleGetters` over its life
-/
namespace Pwtools.GL
open Spec

variable {N V : Type} [DecidableEq N] {G : N → Prog N V} {rank : N → Nat} {init : N → Option V}

/-- Invariant: given values are there, and every value which is there is the right one. -/
structure Sound (G : N → Prog N V) (init : N → Option V) (s : GSt N V) : Prop where
  ini : ∀ a v, init a = some v → s.attr a = some v
  val : ∀ a v, s.attr a = some v → Val G init a (some v)

theorem Sound.start (log : List N) : Sound G init (⟨init, log⟩ : GSt N V) := ⟨fun _ _ h => h, fun _ _ h => .given h⟩

theorem run_sound {f : Nat}
    (hT : ∀ a s, rank a < f → Sound G init s → ∃ s', trySetAttr G f a s = some s' ∧ Sound G init s' ∧ Val G init a (s'.attr a) ∧ ∀ b v, s.attr b = some v → s'.attr b = some v)
    {n : Nat} {p : Prog N V} (hb : Below rank n p) (hnf : n ≤ f) :
    ∀ s, Sound G init s → ∃ v s', runProg (trySetAttr G f) p s = some (v, s') ∧ Sound G init s' ∧ Comp G init p v ∧ ∀ b v, s.attr b = some v → s'.attr b = some v := by
  induction hb with
  | ret => intro s hg; exact ⟨_, s, rfl, hg, .ret, fun _ _ h => h⟩
  | @check a k ha _ ih =>
    intro s hg
    obtain ⟨s1, e1, g1, v1, k1⟩ := hT a s (by omega) hg
    obtain ⟨v, s2, e2, g2, c2, k2⟩ := ih (s1.attr a) s1 g1
    exact ⟨v, s2, by rw [runProg, e1]; exact e2, g2, .check v1 c2, fun b w h => k2 b w (k1 b w h)⟩

theorem try_sound (hac : Acyclic G rank) (f : Nat) : ∀ a s, rank a < f → Sound G init s →
    ∃ s', trySetAttr G f a s = some s' ∧ Sound G init s' ∧ Val G init a (s'.attr a) ∧ ∀ b v, s.attr b = some v → s'.attr b = some v := by
  induction f with
  | zero => intro a s h; omega
  | succ f ih =>
    intro a s hr hg
    unfold trySetAttr
    by_cases hset : s.isSet a = true
    · rw [if_pos hset]
      obtain ⟨v, hv⟩ := Option.isSome_iff_exists.1 hset
      exact ⟨s, rfl, hg, by rw [hv]; exact hg.val a v hv, fun _ _ h => h⟩
    · rw [if_neg hset]
      have hnone : s.attr a = none := by simpa [GSt.isSet] using hset
      have hinit : init a = none := by
        cases h : init a with
        | none => rfl
        | some v => rw [hg.ini a v h] at hnone; cases hnone
      obtain ⟨v, s1, e1, g1, c1, k1⟩ := run_sound ih (hac a) (by omega) { s with log := s.log ++ [a] } ⟨hg.ini, hg.val⟩
      have hval : Val G init a v := .computed hinit c1
      rw [e1]
      refine ⟨s1.set a v, rfl, ⟨?_, ?_⟩, by simpa [GSt.set] using hval, ?_⟩
      · intro b w hb
        have hba : b ≠ a := by rintro rfl; rw [hinit] at hb; cases hb
        simpa [GSt.set, hba] using g1.ini b w hb
      · intro b w hb
        by_cases hba : b = a
        · subst hba
          have : v = some w := by simpa [GSt.set] using hb
          rw [← this]; exact hval
        · exact g1.val b w (by simpa [GSt.set, hba] using hb)
      · intro b w hb
        have hba : b ≠ a := by rintro rfl; rw [hnone] at hb; cases hb
        simpa [GSt.set, hba] using k1 b w hb

theorem setAll_sound (hac : Acyclic G rank) (f : Nat) : ∀ (l : List N), (∀ a ∈ l, rank a < f) → ∀ s, Sound G init s →
    ∃ s', setAll G f l s = some s' ∧ Sound G init s' ∧ (∀ a ∈ l, Val G init a (s'.attr a)) ∧ ∀ b v, s.attr b = some v → s'.attr b = some v
  | [], _, s, hg => ⟨s, rfl, hg, by simp, fun _ _ h => h⟩
  | a :: l, hr, s, hg => by
    obtain ⟨s1, e1, g1, v1, k1⟩ := try_sound hac f a s (hr a List.mem_cons_self) hg
    obtain ⟨s2, e2, g2, v2, k2⟩ := setAll_sound hac f l (fun b hb => hr b (List.mem_cons_of_mem _ hb)) s1 g1
    refine ⟨s2, by rw [setAll, e1]; exact e2, g2, fun b hb => ?_, fun b w h => k2 b w (k1 b w h)⟩
    rcases List.mem_cons.1 hb with rfl | hb
    · cases h : s1.attr b with
      | some w => rw [k2 b w h, ← h]; exact v1
      | none =>
        rw [h] at v1
        cases h2 : s2.attr b with
        | none => exact v1
        | some w => exact g2.val b w h2
    · exact v2 b hb

theorem init_sound (l : List N) : ∀ (s : GSt N V), (∀ a ∈ l, init a = none) → Sound G init s → Sound G init (initAttrs l s) := by
  induction l with
  | nil => intro s _ hg; exact hg
  | cons a l ih =>
    intro s h hg
    refine ih (s.set a none) (fun b hb => h b (List.mem_cons_of_mem _ hb)) ⟨fun b w hb => ?_, fun b w hb => ?_⟩
    · have hba : b ≠ a := by rintro rfl; rw [h b List.mem_cons_self] at hb; cases hb
      simpa [GSt.set, hba] using hg.ini b w hb
    · by_cases hba : b = a
      · subst hba; simp [GSt.set] at hb
      · exact hg.val b w (by simpa [GSt.set, hba] using hb)

theorem allHave_iff (hac : Acyclic G rank) (l : List N) (s : GSt N V) (h : ∀ a ∈ l, Val G init a (s.attr a)) : l.all s.isSet = true ↔ AllHave G init l := by
  rw [List.all_eq_true]
  constructor
  · intro hs a ha
    obtain ⟨w, hw⟩ := Option.isSome_iff_exists.1 (hs a ha)
    exact ⟨w, by rw [← hw]; exact h a ha⟩
  · intro hs a ha
    obtain ⟨w, hw⟩ := hs a ha
    have := val_det hac (h a ha) hw
    simp [GSt.isSet, this]

theorem assertSet_sound (hac : Acyclic G rank) (f : Nat) : ∀ (l : List N), (∀ a ∈ l, rank a < f) → ∀ s, Sound G init s →
    Sound G init (assertSet G f l s).2 ∧ (((assertSet G f l s).1 = .nothing ∧ AllHave G init l) ∨ ((assertSet G f l s).1 = .assertion ∧ ¬ AllHave G init l))
  | [], _, s, hg => ⟨hg, .inl ⟨rfl, by simp [AllHave]⟩⟩
  | a :: l, hr, s, hg => by
    obtain ⟨s1, e1, g1, v1, -⟩ := try_sound hac f a s (hr a List.mem_cons_self) hg
    obtain ⟨h1, h2⟩ := assertSet_sound hac f l (fun b hb => hr b (List.mem_cons_of_mem _ hb)) s1 g1
    unfold assertSet
    rw [e1]
    simp only
    by_cases hs : s1.isSet a = true
    · rw [if_pos hs]
      obtain ⟨w, hw⟩ := Option.isSome_iff_exists.1 hs
      have ha : ∃ v, Val G init a (some v) := ⟨w, by rw [← hw]; exact v1⟩
      have : AllHave G init (a :: l) ↔ AllHave G init l := by
        unfold AllHave
        simp only [List.mem_cons, forall_eq_or_imp]
        exact ⟨fun h => h.2, fun h => ⟨ha, h⟩⟩
      rw [this]
      exact ⟨h1, h2⟩
    · rw [if_neg hs]
      refine ⟨g1, .inr ⟨rfl, fun h => hs ?_⟩⟩
      obtain ⟨w, hw⟩ := h a List.mem_cons_self
      have := val_det hac v1 hw
      simp [GSt.isSet, this]

theorem step_sound (hac : Acyclic G rank) (f : Nat) (o : Op N) (ho : KeepsGiven init o) (hr : ∀ a ∈ asked o, rank a < f) (s : GSt N V) (hg : Sound G init s) :
    Sound G init (step G f o s).2 ∧ RightAnswer G init o (step G f o s).1 := by
  have hset : ∀ l : List N, (l.all s.isSet = true → AllHave G init l) := by
    intro l h a ha
    obtain ⟨w, hw⟩ := Option.isSome_iff_exists.1 (List.all_eq_true.1 h a ha)
    exact ⟨w, hg.val a w hw⟩
  cases o with
  | set l =>
    obtain ⟨s', e, g, -⟩ := setAll_sound hac f l hr s hg
    simp only [step, e]
    exact ⟨g, rfl⟩
  | check l =>
    obtain ⟨s', e, g, v, -⟩ := setAll_sound hac f l hr s hg
    simp only [step, checkSetAttrLst, e]
    exact ⟨g, _, rfl, allHave_iff hac l s' v⟩
  | get a =>
    obtain ⟨s', e, g, v, -⟩ := try_sound hac f a s (hr a List.mem_cons_self) hg
    simp only [step, getReturn, e]
    refine ⟨g, _, rfl, ?_⟩
    cases h : s'.attr a with
    | none => rw [h] at v; simpa [GSt.isSet, h] using v
    | some w => rw [h] at v; simpa [GSt.isSet, h] using v
  | isSet l => exact ⟨hg, _, rfl, hset l⟩
  | assertAttrs l =>
    refine ⟨hg, ?_⟩
    show GL.assertAttrs l s = .assertion ∨ GL.assertAttrs l s = .nothing ∧ AllHave G init l
    unfold GL.assertAttrs
    split
    · rename_i h
      exact .inr ⟨rfl, hset l h⟩
    · exact .inl rfl
  | assertSet l => exact assertSet_sound hac f l hr s hg
  | init l => exact ⟨init_sound l s ho hg, rfl⟩

theorem run_history (hac : Acyclic G rank) (f : Nat) (ops : List (Op N)) : ∀ (s : GSt N V), (∀ o ∈ ops, KeepsGiven init o ∧ ∀ a ∈ asked o, rank a < f) → Sound G init s →
    Sound G init (run G f ops s) := by
  induction ops with
  | nil => intro s _ hg; exact hg
  | cons o ops ih =>
    intro s h hg
    obtain ⟨h1, h2⟩ := h o List.mem_cons_self
    exact ih _ (fun x hx => h x (List.mem_cons_of_mem _ hx)) (step_sound hac f o h1 h2 s hg).1

/-- **C144** After any history of calls the answer of every method is the right one, given by the values of the attributes (C09), which do not depend on the history. -/
theorem C144_history (hac : Acyclic G rank) (fuel : Nat) (ops : List (Op N)) (h : ∀ o ∈ ops, KeepsGiven init o ∧ ∀ a ∈ asked o, rank a < fuel) (log : List N)
    (o : Op N) (ho : KeepsGiven init o) (hr : ∀ a ∈ asked o, rank a < fuel) : RightAnswer G init o (step G fuel o (run G fuel ops ⟨init, log⟩)).1 :=
  (step_sound hac fuel o ho hr _ (run_history hac fuel ops _ h (Sound.start log))).2

/-- **C144** The same call after different histories, in objects which were the same at first, gives the same value. -/
theorem C144_same (hac : Acyclic G rank) (fuel : Nat) (ops ops' : List (Op N)) (h : ∀ o ∈ ops, KeepsGiven init o ∧ ∀ a ∈ asked o, rank a < fuel)
    (h' : ∀ o ∈ ops', KeepsGiven init o ∧ ∀ a ∈ asked o, rank a < fuel) (a : N) (hr : rank a < fuel) :
    (step G fuel (.get a) (run G fuel ops ⟨init, []⟩)).1 = (step G fuel (.get a) (run G fuel ops' ⟨init, []⟩)).1 := by
  obtain ⟨v, e, hv⟩ := C144_history hac fuel ops h [] (.get a) trivial (by simpa [asked] using hr)
  obtain ⟨v', e', hv'⟩ := C144_history hac fuel ops' h' [] (.get a) trivial (by simpa [asked] using hr)
  rw [e, e', val_det hac hv hv']

/-- Without the condition it is false: an attribute which was given is reset, and another one which was computed from it is still there. -/
theorem C144_reset_remark : ∃ (G : Nat → Prog Nat Nat) (rank : Nat → Nat) (init : Nat → Option Nat) (v : Nat), Acyclic G rank ∧
    (step G 5 (.get 1) (run G 5 [.get 1, .init [0]] ⟨init, []⟩)).1 = .value (some v) ∧ (step G 5 (.get 1) (run G 5 [.init [0]] ⟨init, []⟩)).1 = .value none :=
  ⟨fun a => if a = 1 then .check 0 .ret else .ret none, id, fun a => if a = 0 then some 7 else none, 7, by
    intro a
    by_cases h : a = 1
    · subst h
      exact .check (by simp) fun r => .ret
    · simp only [h, if_false]
      exact .ret, rfl, rfl⟩

/-! ### `_<name>_raw` -/

theorem slicetake_full {α : Type} (a : Nd.Arr α) (axis : Int) (ax : Nat) (h : IsAxis a.shape.length axis ax) :
    ∃ b, Nd.slicetake a (.sl {}) axis = .ok b ∧ SameArr a b := by
  obtain ⟨m, h1, h2⟩ := Nd.takeAll_full a.shape
  refine ⟨⟨a.shape, fun idx => a.get (m idx)⟩, ?_, rfl, fun idx hi => by simp only [h2 idx (Nd.inShape_length hi)]⟩
  unfold Nd.slicetake Nd.listSet
  rw [List.length_replicate, Nd.Arr.ndim, (Nd.pyIndex_some _ _ _).2 h]
  have : (List.replicate a.shape.length Nd.Ix.full).set ax (.sl {}) = List.replicate a.shape.length Nd.Ix.full := by
    apply List.ext_getElem (by simp)
    intro i h1 h2
    rw [List.getElem_set]
    split <;> simp [Nd.Ix.full]
  simp only [this, Nd.Arr.index, h1]

/-- **C144** (part) `raw_return(name)` is the same as `raw_slice_get(name, slice(None), axis)` for any valid axis, as its docstring says: the object afterwards is the same, and both are None,
or both are the same array. Missing: the case of a one-dimensional array of length one. There it is false, see `C144_raw_counterexample`. -/
theorem C144_raw_partial {α : Type} (G : List Char → Prog (List Char) (Nd.Arr α)) (fuel : Nat) (name : List Char) (s : GSt (List Char) (Nd.Arr α)) (axis : Int)
    (hax : ∀ s' a, trySetAttr G fuel (rawName name) s = some s' → s'.attr (rawName name) = some a → (∃ ax, IsAxis a.shape.length axis ax) ∧ a.shape ≠ [1]) :
    (rawReturn G fuel name s).2 = (rawSliceGet G fuel name (.sl {}) axis s).2 ∧
    (((rawReturn G fuel name s).1 = .raised ∧ (rawSliceGet G fuel name (.sl {}) axis s).1 = .raised) ∨
     ((rawReturn G fuel name s).1 = .none ∧ (rawSliceGet G fuel name (.sl {}) axis s).1 = .none) ∨
     ∃ a b, (rawReturn G fuel name s).1 = .arr a ∧ (rawSliceGet G fuel name (.sl {}) axis s).1 = .arr b ∧ SameArr a b) := by
  unfold rawReturn rawSliceGet checkSetAttr
  cases h : trySetAttr G fuel (rawName name) s with
  | none => exact ⟨rfl, .inl ⟨rfl, rfl⟩⟩
  | some s' =>
    cases h2 : s'.attr (rawName name) with
    | none => simp [GSt.isSet, h2]
    | some a =>
      obtain ⟨⟨ax, hx⟩, h1⟩ := hax s' a h h2
      obtain ⟨b, e, hs⟩ := slicetake_full a axis ax hx
      have hb : ¬ (b.ndim = 1 ∧ b.shape.headD 0 = 1) := by
        rw [Nd.Arr.ndim, ← hs.1]
        intro ⟨q1, q2⟩
        apply h1
        match hq : a.shape, q1 with
        | [n], _ => rw [hq] at q2; simpa using q2
      have hset : s'.isSet (rawName name) = true := by simp [GSt.isSet, h2]
      simp only [hset, h2, e, if_neg hb]
      exact ⟨trivial, .inr (.inr ⟨a, b, rfl, rfl, hs⟩)⟩

/-- **C144** (counterexample to the docstring of `raw_return`) For an array of shape `(1,)` `raw_slice_get` returns the number and `raw_return` the array. -/
theorem C144_raw_counterexample : ∃ (G : List Char → Prog (List Char) (Nd.Arr Nat)) (s : GSt (List Char) (Nd.Arr Nat)) (a : Nd.Arr Nat), IsAxis a.shape.length 0 0 ∧
    (rawReturn G 1 "energy".toList s).1 = .arr a ∧ (rawSliceGet G 1 "energy".toList (.sl {}) 0 s).1 = .scalar 7 := by
  refine ⟨fun _ => .ret none, ⟨fun _ => some ⟨[1], fun _ => 7⟩, []⟩, ⟨[1], fun _ => 7⟩, ⟨by decide, .inl rfl⟩, rfl, ?_⟩
  obtain ⟨b, e, hs⟩ := slicetake_full (⟨[1], fun _ => 7⟩ : Nd.Arr Nat) 0 0 ⟨by decide, .inl rfl⟩
  have h1 : b.shape = [1] := hs.1.symm
  have h2 : b.get [0] = 7 := (hs.2 [0] (by simp [InShape])).symm
  simp [rawSliceGet, checkSetAttr, trySetAttr, GSt.isSet, e, Nd.Arr.ndim, h1, h2]

/-- **C144** `raw_slice_get(name, sl, axis)` for an attribute which can be set: the selected entries along the axis (C24), as a number if it is a single one in one dimension; None if it cannot be set. -/
theorem C144_slice {α : Type} {sl : Nd.Ix} {axis : Int} (G : List Char → Prog (List Char) (Nd.Arr α)) (fuel : Nat) (name : List Char) (s s' : GSt (List Char) (Nd.Arr α))
    (h : trySetAttr G fuel (rawName name) s = some s') :
    (rawSliceGet G fuel name sl axis s).2 = s' ∧
    (s'.attr (rawName name) = none → (rawSliceGet G fuel name sl axis s).1 = .none) ∧
    ∀ a b, s'.attr (rawName name) = some a → Nd.slicetake a sl axis = .ok b →
      (b.shape ≠ [1] → (rawSliceGet G fuel name sl axis s).1 = .arr b) ∧ (b.shape = [1] → (rawSliceGet G fuel name sl axis s).1 = .scalar (b.get [0])) := by
  unfold rawSliceGet checkSetAttr
  rw [h]
  refine ⟨?_, fun h2 => by simp [GSt.isSet, h2], fun a b h2 e => ?_⟩
  · cases h2 : s'.attr (rawName name) with
    | none => simp [GSt.isSet, h2]
    | some a =>
      simp only [GSt.isSet, h2, Option.isSome_some]
      cases Nd.slicetake a sl axis with
      | error e => rfl
      | ok b =>
        simp only
        split <;> rfl
  · simp only [GSt.isSet, h2, Option.isSome_some, e]
    constructor
    · intro hb
      rw [if_neg]
      intro ⟨q1, q2⟩
      apply hb
      rw [Nd.Arr.ndim] at q1
      match hq : b.shape, q1 with
      | [n], _ => rw [hq] at q2; simpa using q2
    · intro hb
      rw [if_pos (by simp [Nd.Arr.ndim, hb])]

/-- **C144** After `init_attr_lst` the attributes of the list are None and the others are as before. -/
theorem C144_init (G : N → Prog N V) (fuel : Nat) (l : List N) (s : GSt N V) (a : N) :
    (a ∈ l → (step G fuel (.init l) s).2.attr a = none) ∧ (a ∉ l → (step G fuel (.init l) s).2.attr a = s.attr a) := by
  show (a ∈ l → (initAttrs l s).attr a = none) ∧ (a ∉ l → (initAttrs l s).attr a = s.attr a)
  induction l generalizing s with
  | nil => simp [initAttrs]
  | cons b l ih =>
    obtain ⟨h1, h2⟩ := ih (s.set b none)
    change (a ∈ b :: l → (initAttrs l (s.set b none)).attr a = none) ∧ (a ∉ b :: l → (initAttrs l (s.set b none)).attr a = s.attr a)
    by_cases hl : a ∈ l
    · exact ⟨fun _ => h1 hl, fun h => absurd (List.mem_cons_of_mem _ hl) h⟩
    · rw [h2 hl]
      constructor
      · intro h
        rcases List.mem_cons.1 h with rfl | h
        · simp [GSt.set]
        · exact absurd h hl
      · intro h
        have : a ≠ b := fun e => h (e ▸ List.mem_cons_self)
        simp [GSt.set, this]

/-! ### A case -/

/-- A small parser: attribute 0 is a file name (given), 1 a grid from the file, 2 computed from 1, 3 cannot be computed. -/
def exGet : Nat → Prog Nat Nat
  | 1 => .check 0 fun r => .ret (r.map (· + 1))
  | 2 => .check 1 fun r => match r with
    | some x => .ret (some (2 * x))
    | none => .ret none
  | 3 => .check 2 fun _ => .ret none
  | _ => .ret none

def exInit : Nat → Option Nat := fun a => if a = 0 then some 5 else none

theorem exGet_acyclic : Acyclic exGet id := by
  intro a
  match a with
  | 0 => exact .ret
  | 1 => exact .check (by simp) fun r => .ret
  | 2 => exact .check (by simp) fun r => by cases r <;> exact .ret
  | 3 => exact .check (by simp) fun r => .ret
  | n + 4 => exact .ret

def exOps : List (Op Nat) := [.isSet [2], .get 2, .init [1], .set [3], .assertSet [2, 3]]

example : ∀ o ∈ exOps, KeepsGiven exInit o ∧ ∀ a ∈ asked o, id a < 9 := by
  simp [exOps, KeepsGiven, asked, exInit]

example : (step exGet 9 (.init [1]) (run exGet 9 [.get 2] ⟨exInit, []⟩)).2.attr 1 = none := rfl
example : (step exGet 9 (.init [1]) (run exGet 9 [.get 2] ⟨exInit, []⟩)).2.attr 2 = some 12 := rfl
example : (step exGet 9 (.isSet [2]) (run exGet 9 [] ⟨exInit, []⟩)).1 = .bool false := rfl
example : (step exGet 9 (.isSet [2]) (run exGet 9 exOps ⟨exInit, []⟩)).1 = .bool true := rfl
example : (step exGet 9 (.get 1) (run exGet 9 exOps ⟨exInit, []⟩)).1 = .value (some 6) := rfl
example : (step exGet 9 (.get 2) (run exGet 9 exOps ⟨exInit, []⟩)).1 = .value (some 12) := rfl
example : (step exGet 9 (.assertSet [2, 3]) (run exGet 9 exOps ⟨exInit, []⟩)).1 = .assertion := rfl
example : (step exGet 9 (.check [1, 2]) (run exGet 9 exOps ⟨exInit, []⟩)).1 = .bool true := rfl

/-- A raw attribute of shape (2,) meets the hypothesis of `C144_raw_partial`. -/
example : ∀ s' a, trySetAttr (fun _ => .ret none) 1 (rawName "energy".toList) (⟨fun _ => some ⟨[2], fun _ => 7⟩, []⟩ : GSt (List Char) (Nd.Arr Nat)) = some s' → s'.attr (rawName "energy".toList) = some a →
    (∃ ax, IsAxis a.shape.length (-1) ax) ∧ a.shape ≠ [1] := by
  intro s' a h1 h2
  simp only [trySetAttr, GSt.isSet, Option.isSome_some, if_true, Option.some.injEq] at h1
  subst h1
  cases h2
  exact ⟨⟨0, by decide, .inr rfl⟩, by decide⟩

end Pwtools.GL
