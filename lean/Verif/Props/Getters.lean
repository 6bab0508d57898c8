import Verif.Spec.Getters
import Mathlib.Data.List.Basic
import Mathlib.Data.List.Count
import Mathlib.Tactic.Linarith
/-!
# C09, C10, C11: lazy attribute machinery and timers
-/
namespace Pwtools
open Spec

/-! ## C09 FlexibleGetters -/
section getters
variable {N V : Type} [DecidableEq N] {G : N → Prog N V} {rank : N → Nat} {init : N → Option V}

theorem comp_det {n : Nat} {p : Prog N V} (hb : Below rank n p)
    (hd : ∀ b r1 r2, rank b < n → Val G init b r1 → Val G init b r2 → r1 = r2) :
    ∀ {r1 r2}, Comp G init p r1 → Comp G init p r2 → r1 = r2 := by
  induction hb with
  | ret => intro r1 r2 h1 h2; cases h1; cases h2; rfl
  | check ha _ ih =>
    intro r1 r2 h1 h2
    cases h1 with
    | check v1 c1 => cases h2 with
      | check v2 c2 =>
        have := hd _ _ _ ha v1 v2
        subst this
        exact ih _ c1 c2

/-- Attribute values are uniquely determined for acyclic getters. -/
theorem val_det (hac : Acyclic G rank) {a : N} {r1 r2 : Option V}
    (h1 : Val G init a r1) (h2 : Val G init a r2) : r1 = r2 := by
  have key : ∀ n a, rank a < n → ∀ r1 r2, Val G init a r1 → Val G init a r2 → r1 = r2 := by
    intro n
    induction n with
    | zero => intro a h; omega
    | succ n ih =>
      intro a ha r1 r2 h1 h2
      cases h1 with
      | given g1 => cases h2 with
        | given g2 => rw [← g1, ← g2]
        | computed g2 _ => rw [g1] at g2; cases g2
      | computed g1 c1 => cases h2 with
        | given g2 => rw [g1] at g2; cases g2
        | computed g2 c2 =>
          exact comp_det (hac a) (fun b r1 r2 hb => ih b (by omega) r1 r2) c1 c2
  exact key _ a (Nat.lt_succ_self _) r1 r2 h1 h2

/-- What one call may do to the object. -/
structure Tr (G : N → Prog N V) (init : N → Option V) (rank : N → Nat) (P : N → Prop) (n : Nat)
    (s s' : GSt N V) : Prop where
  keep : ∀ b v, s.attr b = some v → s'.attr b = some v
  frame : ∀ b, n ≤ rank b → s'.attr b = s.attr b ∧ s'.log.count b = s.log.count b
  new : ∀ b v, s'.attr b = some v → s.attr b = some v ∨ P b
  cnt : ∀ b v, Val G init b (some v) →
    (s.attr b = none → s'.log.count b ≤ s.log.count b + 1 ∧
      (s'.attr b = none → s'.log.count b = s.log.count b)) ∧
    ((s.attr b).isSome → s'.log.count b = s.log.count b)

/-- `c` is needed for `a`. -/
inductive Reach (G : N → Prog N V) (init : N → Option V) : N → N → Prop where
  | refl {a} : Reach G init a a
  | step {a b c} : init a = none → Asks G init (G a) b → Reach G init b c → Reach G init a c

theorem Reach.snoc {a b c : N} (h : Reach G init a b) (hi : init b = none) (hb : Asks G init (G b) c) :
    Reach G init a c := by
  induction h with
  | refl => exact .step hi hb .refl
  | step h1 h2 _ ih => exact .step h1 h2 (ih hi hb)

theorem need_iff {want : List N} {a : N} : Need G init want a ↔ ∃ w ∈ want, Reach G init w a := by
  constructor
  · intro h
    induction h with
    | want h => exact ⟨_, h, .refl⟩
    | dep _ hi hb ih => obtain ⟨w, hw, hr⟩ := ih; exact ⟨w, hw, hr.snoc hi hb⟩
  · rintro ⟨w, hw, hr⟩
    have : Need G init want w := .want hw
    clear hw
    induction hr with
    | refl => exact this
    | step hi hb _ ih => exact ih (.dep this hi hb)

/-- Invariant of the object. -/
structure Good (G : N → Prog N V) (init : N → Option V) (s : GSt N V) : Prop where
  ini : ∀ a v, init a = some v → s.attr a = some v
  val : ∀ a v, s.attr a = some v → Val G init a (some v)
  closed : ∀ a, s.attr a ≠ none → ∀ c, Reach G init a c → Val G init c (s.attr c)

theorem Good.start (log : List N) : Good G init (⟨init, log⟩ : GSt N V) where
  ini _ _ h := h
  val _ _ h := .given h
  closed a ha c hr := by
    cases hr with
    | refl =>
      obtain ⟨v, hv⟩ := Option.ne_none_iff_exists'.1 ha
      simp only at hv ⊢
      rw [hv]; exact .given hv
    | step hi _ _ => exact absurd hi ha

/-- A correct attribute stays correct. -/
theorem settled_mono {s s' : GSt N V} (hk : ∀ b v, s.attr b = some v → s'.attr b = some v)
    (hg : ∀ a v, s'.attr a = some v → Val G init a (some v)) {c : N}
    (h : Val G init c (s.attr c)) : Val G init c (s'.attr c) := by
  cases h1 : s.attr c with
  | some w => rw [hk c w h1, ← h1]; exact h
  | none =>
    rw [h1] at h
    cases h3 : s'.attr c with
    | none => exact h
    | some w => exact hg c w h3

theorem Tr.refl (P : N → Prop) (n : Nat) (s : GSt N V) : Tr G init rank P n s s :=
  ⟨fun _ _ h => h, fun _ _ => ⟨rfl, rfl⟩, fun _ _ h => .inl h,
   fun _ _ _ => ⟨fun _ => ⟨by omega, fun _ => rfl⟩, fun _ => rfl⟩⟩

theorem Tr.trans {P : N → Prop} {n m : Nat} {s s' s'' : GSt N V} (hmn : m ≤ n)
    (h1 : Tr G init rank P m s s') (h2 : Tr G init rank P n s' s'') : Tr G init rank P n s s'' where
  keep b v h := h2.keep b v (h1.keep b v h)
  frame b hb := by
    have a := h1.frame b (by omega)
    have c := h2.frame b hb
    exact ⟨c.1.trans a.1, c.2.trans a.2⟩
  new b v h := by
    rcases h2.new b v h with h | h
    · exact h1.new b v h
    · exact .inr h
  cnt b v hv := by
    have a := h1.cnt b v hv
    have c := h2.cnt b v hv
    refine ⟨fun hn => ?_, fun hs => ?_⟩
    · have a1 := a.1 hn
      cases hs' : s'.attr b with
      | none =>
        have a2 := a1.2 hs'
        have c1 := c.1 hs'
        refine ⟨by omega, fun hn2 => by rw [c1.2 hn2, a2]⟩
      | some w =>
        have c2 := c.2 (by simp [hs'])
        refine ⟨by omega, fun hn2 => ?_⟩
        rw [h2.keep b w hs'] at hn2; cases hn2
    · obtain ⟨w, hw⟩ := Option.isSome_iff_exists.1 hs
      have hw' := h1.keep b w hw
      rw [c.2 (by simp [hw']), a.2 hs]

theorem run_spec {P : N → Prop} {f : Nat} (hac : Acyclic G rank)
    (hT : ∀ a s, rank a < f → Good G init s → P a →
      ∃ s', trySetAttr G f a s = some s' ∧ Tr G init rank P (rank a + 1) s s' ∧ Good G init s' ∧
        ∀ c, Reach G init a c → Val G init c (s'.attr c))
    {n : Nat} {p : Prog N V} (hb : Below rank n p) (hnf : n ≤ f) :
    ∀ s, Good G init s → (∀ b, Asks G init p b → P b) →
      ∃ v s', runProg (trySetAttr G f) p s = some (v, s') ∧ Tr G init rank P n s s' ∧
        Good G init s' ∧ Comp G init p v ∧
        ∀ b, Asks G init p b → ∀ c, Reach G init b c → Val G init c (s'.attr c) := by
  induction hb with
  | ret => intro s hg _; exact ⟨_, s, rfl, Tr.refl _ _ _, hg, .ret, fun b h => (by cases h)⟩
  | @check a k ha _ ih =>
    intro s hg hP
    obtain ⟨s1, e1, t1, g1, v1⟩ := hT a s (by omega) hg (hP a .here)
    have va := v1 a .refl
    obtain ⟨v, s2, e2, t2, g2, c2, d2⟩ := ih (s1.attr a) s1 g1 (fun b hb => hP b (.later va hb))
    refine ⟨v, s2, ?_, Tr.trans (by omega) t1 t2, g2, .check va c2, ?_⟩
    · rw [runProg, e1]; exact e2
    · intro b hb c hr
      cases hb with
      | here => exact settled_mono t2.keep g2.val (v1 c hr)
      | later hv hl =>
        have := val_det hac hv va
        subst this
        exact d2 b hl c hr

theorem trySet_spec (hac : Acyclic G rank) {P : N → Prop}
    (hP : ∀ a b, P a → init a = none → Asks G init (G a) b → P b) (f : Nat) :
    ∀ a s, rank a < f → Good G init s → P a →
      ∃ s', trySetAttr G f a s = some s' ∧ Tr G init rank P (rank a + 1) s s' ∧ Good G init s' ∧
        ∀ c, Reach G init a c → Val G init c (s'.attr c) := by
  induction f with
  | zero => intro a s h; omega
  | succ f ih =>
    intro a s hr hg hPa
    unfold trySetAttr
    by_cases hset : s.isSet a = true
    · rw [if_pos hset]
      obtain ⟨v, hv⟩ := Option.isSome_iff_exists.1 hset
      exact ⟨s, rfl, Tr.refl _ _ _, hg, hg.closed a (by simp [hv])⟩
    · rw [if_neg hset]
      have hnone : s.attr a = none := by simpa [GSt.isSet] using hset
      have hinit : init a = none := by
        cases h : init a with
        | none => rfl
        | some v => rw [hg.ini a v h] at hnone; cases hnone
      obtain ⟨v, s1, e1, t1, g1, c1, d1⟩ := run_spec hac ih (hac a) (by omega)
        { s with log := s.log ++ [a] } ⟨hg.ini, hg.val, hg.closed⟩ (fun b hb => hP a b hPa hinit hb)
      have hval : Val G init a v := .computed hinit c1
      have hval' : ∀ b w, (s1.set a v).attr b = some w → Val G init b (some w) := by
        intro b w hb
        by_cases hba : b = a
        · subst hba
          have : v = some w := by simpa [GSt.set] using hb
          rw [← this]; exact hval
        · exact g1.val b w (by simpa [GSt.set, hba] using hb)
      have hset1 : ∀ c, Val G init c (s1.attr c) → Val G init c ((s1.set a v).attr c) := by
        intro c hc
        by_cases hca : c = a
        · subst hca; simpa [GSt.set] using hval
        · simpa [GSt.set, hca] using hc
      have hreach : ∀ c, Reach G init a c → Val G init c ((s1.set a v).attr c) := by
        intro c hc
        cases hc with
        | refl => simpa [GSt.set] using hval
        | step _ hb hr => exact hset1 c (d1 _ hb c hr)
      rw [e1]
      refine ⟨s1.set a v, rfl, ⟨?_, ?_, ?_, ?_⟩, ⟨?_, hval', ?_⟩, hreach⟩
      · intro b w hb
        have hba : b ≠ a := by rintro rfl; rw [hnone] at hb; cases hb
        simpa [GSt.set, hba] using t1.keep b w hb
      · intro b hb
        have hba : b ≠ a := by rintro rfl; omega
        have := t1.frame b (by omega)
        refine ⟨by simpa [GSt.set, hba] using this.1, ?_⟩
        have h2 := this.2
        have hab : (a == b) = false := by simpa using fun e => hba e.symm
        simpa [GSt.set, List.count_append, List.count_singleton, hab] using h2
      · intro b w hb
        by_cases hba : b = a
        · subst hba; exact .inr hPa
        · exact t1.new b w (by simpa [GSt.set, hba] using hb)
      · intro b w hb
        by_cases hba : b = a
        · subst hba
          have hfr := (t1.frame b (le_refl _)).2
          have hv : v = some w := val_det hac hval hb
          refine ⟨fun _ => ⟨?_, ?_⟩, fun h => ?_⟩
          · simp only [GSt.set]
            rw [hfr]; simp
          · intro h; simp [GSt.set, hv] at h
          · rw [hnone] at h; cases h
        · have := t1.cnt b w hb
          have hab : (a == b) = false := by simpa using fun e => hba e.symm
          simpa [GSt.set, List.count_append, List.count_singleton, hab, hba] using this
      · intro b w hb
        have hba : b ≠ a := by rintro rfl; rw [hinit] at hb; cases hb
        simpa [GSt.set, hba] using g1.ini b w hb
      · intro b hb c hc
        by_cases hba : b = a
        · subst hba; exact hreach c hc
        · exact hset1 c (g1.closed b (by simpa [GSt.set, hba] using hb) c hc)

theorem setAll_spec (hac : Acyclic G rank) {P : N → Prop}
    (hP : ∀ a b, P a → init a = none → Asks G init (G a) b → P b) (f : Nat)
    (want : List N) (hr : ∀ a ∈ want, rank a < f) (hw : ∀ a ∈ want, P a) :
    ∀ s, Good G init s → ∃ s', setAll G f want s = some s' ∧ Tr G init rank P f s s' ∧
      Good G init s' ∧ ∀ a ∈ want, ∀ c, Reach G init a c → Val G init c (s'.attr c) := by
  induction want with
  | nil => intro s hg; exact ⟨s, rfl, Tr.refl _ _ _, hg, by simp⟩
  | cons a as ih =>
    intro s hg
    have hra := hr a (by simp)
    obtain ⟨s1, e1, t1, g1, v1⟩ := trySet_spec hac hP f a s hra hg (hw a (by simp))
    obtain ⟨s2, e2, t2, g2, v2⟩ := ih (fun b hb => hr b (by simp [hb])) (fun b hb => hw b (by simp [hb])) s1 g1
    refine ⟨s2, by rw [setAll, e1]; exact e2, Tr.trans (by omega) t1 t2, g2, ?_⟩
    intro b hb c hc
    rcases List.mem_cons.1 hb with rfl | hb
    · exact settled_mono t2.keep g2.val (v1 c hc)
    · exact v2 b hb c hc

/-- **C09.** Let the getters be acyclic and call `try_set_attr` on any list `want` of
attributes, in any order and with any repetitions (`set_all`, `check_set_attr_lst` are such
lists), on an object where the attributes `init` are already set. With recursion depth
available this succeeds, and every attribute needed for the wanted ones has its value
`Val` afterwards, every other attribute is as before, and attributes set before keep their
value. -/
theorem C09_values (hac : Acyclic G rank) (fuel : Nat) (want : List N)
    (hf : ∀ a ∈ want, rank a < fuel) (log : List N) :
    ∃ s', setAll G fuel want ⟨init, log⟩ = some s' ∧
      (∀ a, Need G init want a → Val G init a (s'.attr a)) ∧
      (∀ a, ¬ Need G init want a → s'.attr a = init a) ∧
      (∀ a v, init a = some v → s'.attr a = some v) := by
  obtain ⟨s', e, t, g, v⟩ := setAll_spec hac (P := Need G init want)
    (fun a b ha hi hb => .dep ha hi hb) fuel want hf (fun a ha => .want ha)
    ⟨init, log⟩ (Good.start log)
  refine ⟨s', e, ?_, ?_, g.ini⟩
  · intro a ha
    obtain ⟨w, hw, hr⟩ := need_iff.1 ha
    exact v w hw a hr
  intro a ha
  cases h : s'.attr a with
  | some w =>
    rcases t.new a w h with h' | h'
    · exact h'.symm
    · exact absurd h' ha
  | none =>
    cases hi : init a with
    | none => rfl
    | some w => rw [g.ini a w hi] at h; cases h

/-- **C09** (order). Two call sequences asking for the same attributes, in different order
or with repetitions, leave the object with the same attribute values. -/
theorem C09_order_independent (hac : Acyclic G rank) (f1 f2 : Nat) (w1 w2 : List N)
    (hf1 : ∀ a ∈ w1, rank a < f1) (hf2 : ∀ a ∈ w2, rank a < f2) (hw : ∀ a, a ∈ w1 ↔ a ∈ w2)
    (s1 s2 : GSt N V) (h1 : setAll G f1 w1 ⟨init, []⟩ = some s1)
    (h2 : setAll G f2 w2 ⟨init, []⟩ = some s2) : s1.attr = s2.attr := by
  obtain ⟨_, e1, a1, b1, _⟩ := C09_values (init := init) hac f1 w1 hf1 []
  obtain ⟨_, e2, a2, b2, _⟩ := C09_values (init := init) hac f2 w2 hf2 []
  rw [h1] at e1; rw [h2] at e2; cases e1; cases e2
  have hn : ∀ a, Need G init w1 a ↔ Need G init w2 a := by
    intro a; rw [need_iff, need_iff]
    constructor <;> rintro ⟨w, hw', hr⟩
    · exact ⟨w, (hw w).1 hw', hr⟩
    · exact ⟨w, (hw w).2 hw', hr⟩
  funext a
  by_cases h : Need G init w1 a
  · exact val_det hac (a1 a h) (a2 a ((hn a).1 h))
  · rw [b1 a h, b2 a (fun h' => h ((hn a).2 h'))]

/-- **C09** (`check_set_attr`): returns whether the attribute has a value. -/
theorem C09_check_set_attr (hac : Acyclic G rank) (fuel : Nat) (a : N) (hf : rank a < fuel) (log : List N) :
    ∃ r s', checkSetAttr G fuel a ⟨init, log⟩ = some (r, s') ∧
      Val G init a (s'.attr a) ∧ (r = true ↔ ∃ v, Val G init a (some v)) := by
  obtain ⟨s', e, _, g, v⟩ := trySet_spec (init := init) hac (P := fun _ => True)
    (fun _ _ _ _ _ => trivial) fuel a ⟨init, log⟩ hf (Good.start log) trivial
  refine ⟨s'.isSet a, s', by rw [checkSetAttr, e], v a .refl, ?_⟩
  constructor
  · intro h
    obtain ⟨w, hw⟩ := Option.isSome_iff_exists.1 h
    exact ⟨w, g.val a w hw⟩
  · rintro ⟨w, hw⟩
    have := val_det hac (v a .refl) hw
    simp [GSt.isSet, this]

/-- **C09** (`check_set_attr_lst`): returns whether all attributes of the list have a value. -/
theorem C09_check_set_attr_lst (hac : Acyclic G rank) (fuel : Nat) (want : List N) (hf : ∀ a ∈ want, rank a < fuel)
    (log : List N) :
    ∃ r s', checkSetAttrLst G fuel want ⟨init, log⟩ = some (r, s') ∧
      (∀ a ∈ want, Val G init a (s'.attr a)) ∧ (r = true ↔ ∀ a ∈ want, ∃ v, Val G init a (some v)) := by
  obtain ⟨s', e, _, g, v⟩ := setAll_spec (init := init) hac (P := fun _ => True)
    (fun _ _ _ _ _ => trivial) fuel want hf (fun _ _ => trivial) ⟨init, log⟩ (Good.start log)
  refine ⟨want.all s'.isSet, s', by rw [checkSetAttrLst, e], fun a ha => v a ha a .refl, ?_⟩
  rw [List.all_eq_true]
  constructor
  · intro h a ha
    obtain ⟨w, hw⟩ := Option.isSome_iff_exists.1 (h a ha)
    exact ⟨w, g.val a w hw⟩
  · intro h a ha
    obtain ⟨w, hw⟩ := h a ha
    have := val_det hac (v a ha a .refl) hw
    simp [GSt.isSet, this]

/-- **C09** (once). In such a run, starting with an empty execution log, the getter of an
attribute whose value is not `None` is executed at most once, and not at all if the
attribute was set before. -/
theorem C09_once (hac : Acyclic G rank) (fuel : Nat) (want : List N)
    (hf : ∀ a ∈ want, rank a < fuel) (s' : GSt N V)
    (h : setAll G fuel want ⟨init, []⟩ = some s') (a : N) (v : V) (hv : Val G init a (some v)) :
    s'.log.count a ≤ 1 ∧ ((init a).isSome → s'.log.count a = 0) := by
  obtain ⟨s2, e, t, _, _⟩ := setAll_spec hac (P := fun _ => True)
    (fun _ _ _ _ _ => trivial) fuel want hf (fun _ _ => trivial)
    ⟨init, []⟩ (Good.start [])
  rw [h] at e
  cases e
  have := t.cnt a v hv
  constructor
  · cases hi : init a with
    | none => have := (this.1 hi).1; simpa using this
    | some w => have := this.2 (by simp [hi]); simp at this; simp [this]
  · intro hi; have := this.2 hi; simpa using this

/-- A getter which returns `None` is executed again at every request: "at most once" needs
the value to be different from `None`. -/
theorem C09_none_reexecuted :
    ∃ s', setAll (N := Nat) (V := Nat) (fun _ => .ret none) 1 [0, 0] ⟨fun _ => none, []⟩ = some s' ∧
      s'.log = [0, 0] := by
  refine ⟨_, rfl, rfl⟩

/-- **C09** (names): different attributes have different getters. -/
theorem C09_getter_names_injective (a b : List Char) (h : getterName a = getterName b) : a = b := by
  unfold getterName at h
  split at h <;> split at h <;> simp_all

/-- Non-vacuity: `foo` (2) needs `bar` (1) and `_baz` (0), `bar` needs `_baz`
(the example of `base.py:36-62`). -/
example : ∃ (G : Nat → Prog Nat Nat), Acyclic G id ∧
    Val G (fun _ => none) 2 (some 11) ∧
    ∃ s', setAll G 3 [2, 0, 1] ⟨fun _ => none, []⟩ = some s' ∧ s'.log = [2, 1, 0] := by
  let G : Nat → Prog Nat Nat := fun n => match n with
    | 0 => .ret (some 5)
    | 1 => .check 0 (fun r => .ret (r.map (· + 1)))
    | 2 => .check 1 (fun r1 => .check 0 (fun r0 => match r0, r1 with
      | some a, some b => .ret (some (a + b))
      | _, _ => .ret none))
    | _ => .ret none
  refine ⟨G, ?_, ?_, _, rfl, rfl⟩
  · intro a
    match a with
    | 0 => exact .ret
    | 1 => exact .check (by decide) (fun _ => .ret)
    | 2 =>
      refine .check (by decide) (fun r1 => .check (by decide) (fun r0 => ?_))
      cases r0 <;> cases r1 <;> exact .ret
    | n + 3 => exact .ret
  · have v0 : Val G (fun _ => none) 0 (some 5) := .computed rfl .ret
    have v1 : Val G (fun _ => none) 1 (some 6) := .computed rfl (.check v0 .ret)
    exact .computed rfl (.check v1 (.check v0 .ret))

end getters

/-! ## C10 lazyprop -/
section lazy
variable {I V : Type} [DecidableEq I]

/-- What repeated accesses on one instance must look like: the decorated function is called
(call numbers `n`, `n+1`, ...) until it returns a value; from then on this value. -/
def Spec.lazyOutcomes (f : Nat → Option V) : Nat → Option V → Nat → List (Option V)
  | 0, _, _ => []
  | k + 1, some v, n => some v :: Spec.lazyOutcomes f k (some v) n
  | k + 1, none, n => f n :: Spec.lazyOutcomes f k (f n) (n + 1)

/-- How often the function is called for `k` accesses. -/
def Spec.lazyCalls (f : Nat → Option V) : Nat → Option V → Nat → Nat
  | 0, _, n => n
  | _ + 1, some _, n => n
  | k + 1, none, n => Spec.lazyCalls f k (f n) (n + 1)

/-- **C10.** In any history of accesses over any number of instances, the outcomes seen on
instance `i` are those of accessing `i` alone (other instances do not interfere), and so is
the number of calls of the decorated function. -/
theorem C10_lazyprop (fget : I → Nat → Option V) (hist : List I) (s : LazySt I V) (i : I) :
    ((lazyRun fget s hist).1.filter (fun x => x.1 = i)).map Prod.snd
      = Spec.lazyOutcomes (fget i) (hist.count i) (s.cache i) (s.calls i) ∧
    (lazyRun fget s hist).2.calls i
      = Spec.lazyCalls (fget i) (hist.count i) (s.cache i) (s.calls i) := by
  induction hist generalizing s with
  | nil => simp [lazyRun, Spec.lazyOutcomes, Spec.lazyCalls]
  | cons j hist ih =>
    simp only [lazyRun]
    by_cases hj : j = i
    · subst hj
      rw [List.count_cons_self]
      cases hc : s.cache j with
      | some v =>
        have e : lazyGet fget s j = (some v, s) := by simp [lazyGet, hc]
        rw [e]
        obtain ⟨h1, h2⟩ := ih s
        rw [hc] at h1 h2
        refine ⟨by simp [Spec.lazyOutcomes, h1], ?_⟩
        simp only
        rw [h2]
        cases hist.count j <;> simp [Spec.lazyCalls]
      | none =>
        cases hr : fget j (s.calls j) with
        | none =>
          have e : lazyGet fget s j = (none, { s with calls := fun i => if i = j then s.calls j + 1 else s.calls i }) := by
            simp [lazyGet, hc, hr]
          rw [e]
          obtain ⟨h1, h2⟩ := ih { s with calls := fun i => if i = j then s.calls j + 1 else s.calls i }
          simp only [hc, if_true] at h1 h2
          exact ⟨by simp [Spec.lazyOutcomes, h1, hr], by simp [Spec.lazyCalls, h2, hr]⟩
        | some v =>
          have e : lazyGet fget s j = (some v, { calls := fun i => if i = j then s.calls j + 1 else s.calls i, cache := fun i => if i = j then some v else s.cache i }) := by
            simp [lazyGet, hc, hr]
          rw [e]
          obtain ⟨h1, h2⟩ := ih { calls := fun i => if i = j then s.calls j + 1 else s.calls i, cache := fun i => if i = j then some v else s.cache i }
          simp only [if_true] at h1 h2
          exact ⟨by simp [Spec.lazyOutcomes, h1, hr], by simp [Spec.lazyCalls, h2, hr]⟩
    · have hcnt : (j :: hist).count i = hist.count i := by
        rw [List.count_cons_of_ne hj]
      have hij : i ≠ j := fun e => hj e.symm
      have hframe : (lazyGet fget s j).2.cache i = s.cache i ∧ (lazyGet fget s j).2.calls i = s.calls i := by
        unfold lazyGet
        cases hc : s.cache j with
        | some v => simp
        | none =>
          cases hr : fget j (s.calls j) <;> simp [hij, hr]
      obtain ⟨h1, h2⟩ := ih (lazyGet fget s j).2
      rw [hframe.1, hframe.2] at h1 h2
      rw [hcnt]
      exact ⟨by simpa [hj] using h1, h2⟩

theorem lazyOutcomes_some (f : Nat → Option V) (k : Nat) (v : V) (n : Nat) :
    Spec.lazyOutcomes f k (some v) n = List.replicate k (some v) := by
  induction k with
  | zero => rfl
  | succ k ih => simp [Spec.lazyOutcomes, ih, List.replicate_succ]

theorem lazyCalls_some (f : Nat → Option V) (k : Nat) (v : V) (n : Nat) :
    Spec.lazyCalls f k (some v) n = n := by
  cases k <;> rfl

/-- **C10** (computed once). If the first call on an instance returns `v`, then in every
history all accesses on that instance return `v`, and the function is called exactly once
on it as soon as it is accessed at all. -/
theorem C10_lazyprop_once (fget : I → Nat → Option V) (hist : List I) (i : I) (v : V)
    (hv : fget i 0 = some v) :
    let r := lazyRun fget ⟨fun _ => none, fun _ => 0⟩ hist
    (∀ x ∈ r.1, x.1 = i → x.2 = some v) ∧
    (i ∈ hist → r.2.calls i = 1) ∧ (i ∉ hist → r.2.calls i = 0) := by
  intro r
  obtain ⟨h1, h2⟩ := C10_lazyprop fget hist ⟨fun _ => none, fun _ => 0⟩ i
  refine ⟨?_, ?_, ?_⟩
  · intro x hx hxi
    have hm : x.2 ∈ (r.1.filter (fun x => x.1 = i)).map Prod.snd :=
      List.mem_map.2 ⟨x, List.mem_filter.2 ⟨hx, by simpa using hxi⟩, rfl⟩
    rw [h1] at hm
    cases hc : hist.count i with
    | zero => rw [hc] at hm; simp [Spec.lazyOutcomes] at hm
    | succ k =>
      rw [hc] at hm
      simp only [Spec.lazyOutcomes, hv, lazyOutcomes_some, List.mem_cons, List.mem_replicate] at hm
      rcases hm with h | h
      · exact h
      · exact h.2
  · intro hi
    have hpos := List.count_pos_iff.2 hi
    show (lazyRun fget ⟨fun _ => none, fun _ => 0⟩ hist).2.calls i = 1
    rw [h2]
    cases hc : hist.count i with
    | zero => omega
    | succ k => simp [Spec.lazyCalls, hv, lazyCalls_some]
  · intro hi
    show (lazyRun fget ⟨fun _ => none, fun _ => 0⟩ hist).2.calls i = 0
    rw [h2, List.count_eq_zero_of_not_mem hi]; rfl

/-- Non-vacuity, with a first call that raises on instance 1. -/
example : (lazyRun (fun i n => if i = 1 ∧ n = 0 then none else some (10 * i + n))
    ⟨fun _ => none, fun _ => 0⟩ [1, 0, 1, 0, 1]).1
    = [(1, none), (0, some 0), (1, some 11), (0, some 0), (1, some 11)] := by decide

end lazy

/-! ## C11 TagTimer -/
section timer
variable {Tag : Type} [DecidableEq Tag]

/-- The stored pair belongs to the readings `l` of the tag. -/
def Stores (l : List Int) (p : Option (Option Int × Option Int)) : Prop :=
  (l = [] ∧ p = none) ∨
  (∃ l' a, l = l' ++ [a] ∧ l.length % 2 = 1 ∧ p = some (some a, none)) ∨
  (∃ l' a b, l = l' ++ [a, b] ∧ l.length % 2 = 0 ∧ p = some (some a, some b))

theorem timerT_same {s : TimerSt Tag} {tag : Tag} {l : List Int} (h : Stores l (s tag)) (now : Int) :
    Stores (l ++ [now]) (timerT s tag now tag) := by
  rcases h with ⟨rfl, h⟩ | ⟨l', a, rfl, ho, h⟩ | ⟨l', a, b, rfl, ho, h⟩
  · right; left; exact ⟨[], now, rfl, rfl, by simp [timerT, h, TimerSt.put]⟩
  · right; right
    exact ⟨l', a, now, by simp, by simp at ho ⊢; omega, by simp [timerT, h, TimerSt.put]⟩
  · right; left
    exact ⟨l' ++ [a, b], now, rfl, by simp at ho ⊢; omega, by simp [timerT, h, TimerSt.put]⟩

theorem timerT_other (s : TimerSt Tag) {tag tg : Tag} (h : tg ≠ tag) (now : Int) :
    timerT s tag now tg = s tg := by
  unfold timerT
  rcases (s tag).getD (none, none) with ⟨_ | a, _ | b⟩ <;> simp [TimerSt.put, h]

theorem timerRun_stores (ops : List (TimerOp Tag)) (s : TimerSt Tag) (tag : Tag) (l : List Int)
    (h : Stores l (s tag)) : Stores (readings tag l ops) ((timerRun s ops).2 tag) := by
  induction ops generalizing s l with
  | nil => exact h
  | cons o ops ih =>
    cases o with
    | t tg now =>
      simp only [timerRun, readings]
      apply ih
      by_cases htg : tg = tag
      · subst htg; rw [if_pos rfl]; exact timerT_same h now
      · rw [if_neg htg, timerT_other s (fun e => htg e.symm)]; exact h
    | pt tg now =>
      simp only [timerRun, readings]
      apply ih
      by_cases htg : tg = tag
      · subst htg
        rcases h with ⟨rfl, h⟩ | ⟨l', a, rfl, ho, h⟩ | ⟨l', a, b, rfl, ho, h⟩
        · rw [if_neg (by simp)]
          simp only [timerPt, h]
          exact .inl ⟨rfl, rfl⟩
        · rw [if_pos ⟨rfl, ho⟩]
          simp only [timerPt, h]
          exact timerT_same (.inr (.inl ⟨l', a, rfl, ho, h⟩)) now
        · rw [if_neg (by rw [ho]; simp)]
          simp only [timerPt, h]
          exact .inr (.inr ⟨l', a, b, rfl, ho, rfl⟩)
      · rw [if_neg (fun e => htg e.1)]
        have : (timerPt s tg now).2 tag = s tag := by
          unfold timerPt
          split <;> simp [timerT_other s (fun e : tag = tg => htg e.symm)]
        rw [this]; exact h

theorem readings_append (tag : Tag) (acc : List Int) (p q : List (TimerOp Tag)) :
    readings tag acc (p ++ q) = readings tag (readings tag acc p) q := by
  induction p generalizing acc with
  | nil => rfl
  | cons o p ih => cases o <;> simp [readings, ih]

/-- **C11.** After any interleaving of `t` and `pt` calls for any tags, `pt(tag)` reports
stop minus start of the last start/stop pair among the readings of that very tag (taking the
stop reading itself if the clock is running), and fails exactly if the tag was never
started: calls for other tags have no influence. -/
theorem C11_tagtimer (pre : List (TimerOp Tag)) (tag : Tag) (now : Int) :
    (timerPt (timerRun (fun _ => none) pre).2 tag now).1
      = (if readings tag [] pre = [] then none
         else lastInterval (readings tag [] (pre ++ [.pt tag now]))) ∧
    (readings tag [] pre ≠ [] → (lastInterval (readings tag [] (pre ++ [.pt tag now]))).isSome) := by
  have h := timerRun_stores pre (fun _ => none) tag [] (.inl ⟨rfl, rfl⟩)
  rw [readings_append]
  generalize readings tag [] pre = l at h
  rcases h with ⟨rfl, h⟩ | ⟨l', a, rfl, ho, h⟩ | ⟨l', a, b, rfl, ho, h⟩
  · simp [timerPt, h]
  · have : readings tag (l' ++ [a]) [.pt tag now] = l' ++ [a] ++ [now] := by
      simp only [readings, ho, and_self, if_true]
    rw [this]
    simp [timerPt, h, lastInterval]
  · have : readings tag (l' ++ [a, b]) [.pt tag now] = l' ++ [a, b] := by
      simp only [readings, ho, and_false, if_false, Nat.zero_ne_one]
    rw [this]
    simp [timerPt, h, lastInterval]

/-- The reports of a whole run are the reports of the single `pt` calls. -/
theorem timerRun_append (s : TimerSt Tag) (p q : List (TimerOp Tag)) :
    timerRun s (p ++ q) = ((timerRun s p).1 ++ (timerRun (timerRun s p).2 q).1,
      (timerRun (timerRun s p).2 q).2) := by
  induction p generalizing s with
  | nil => simp [timerRun]
  | cons o p ih => cases o <;> simp [timerRun, ih]

/-- **C11** (starting and stopping alternate): `n` calls of `t(tag)` with any calls for other
tags in between pair up as start/stop, start/stop, ...; the report belongs to the last
start. -/
example : (timerRun (fun _ => none) [.t 'a' 1, .t 'b' 3, .pt 'a' 10, .t 'a' 20, .t 'b' 23, .t 'a' 27,
    .pt 'b' 50, .pt 'a' 60, .pt 'c' 61]).1
    = [('a', some 9), ('b', some 20), ('a', some 7), ('c', none)] := by decide

end timer
end Pwtools
