import Verif.Spec.CrossVal
import Mathlib.Data.List.Basic
import Mathlib.Tactic.NormNum
/-!
# C116: cross validation
-/
namespace Pwtools.Cv
open Spec
variable {V O P M : Type}

theorem mapM_part {A : Type} (arr : List A) (idxs : List Nat) (part : List A) :
    (idxs.mapM fun i => arr[i]?) = some part ↔ IsPart arr idxs part := by
  induction idxs generalizing part with
  | nil =>
    simp only [List.mapM_nil, IsPart, List.length_nil, List.length_eq_zero_iff]
    constructor
    · intro h
      exact ⟨(Option.some.inj h).symm, by simp⟩
    · rintro ⟨rfl, -⟩; rfl
  | cons i idxs ih =>
    rw [List.mapM_cons]
    constructor
    · intro h
      cases ha : arr[i]? with
      | none => rw [ha] at h; cases h
      | some a =>
        cases hl : idxs.mapM fun i => arr[i]? with
        | none => rw [ha, hl] at h; cases h
        | some l =>
          rw [ha, hl] at h
          have e : a :: l = part := Option.some.inj h
          have := (ih l).1 hl
          subst e
          refine ⟨by simp [this.1], fun k j hk => ?_⟩
          cases k with
          | zero =>
            simp only [List.getElem?_cons_zero, Option.some.injEq] at hk
            subst hk
            exact ⟨a, ha, rfl⟩
          | succ k => exact this.2 k j (by simpa using hk)
    · intro h
      obtain ⟨a, ha, hp⟩ := h.2 0 i rfl
      cases part with
      | nil => cases hp
      | cons b l =>
        simp only [List.getElem?_cons_zero, Option.some.injEq] at hp
        subst hp
        have : IsPart arr idxs l := ⟨by simpa using h.1, fun k j hk => h.2 (k + 1) j (by simpa using hk)⟩
        rw [ha, (ih l).2 this]
        rfl

theorem pick_ok {A : Type} (arr : List A) (idxs : List Nat) (part : List A) : pick arr idxs = .ok part ↔ IsPart arr idxs part := by
  rw [← mapM_part]
  unfold pick
  cases idxs.mapM fun i => arr[i]? <;> simp

theorem getRbfi_ok (F : Fitter V O P M) (kw : RbfKw V O) (params : List V) (ps : List P) (vs : List ℝ) (m : M) :
    getRbfi F kw params ps vs = .ok m ↔ ∃ p r, ParamsMean F.rDefault kw params p r ∧ F.build p r kw.other ps vs = some m := by
  constructor
  · intro h
    unfold getRbfi at h
    match params, h with
    | [p], h =>
      simp only at h
      by_cases hp : kw.p.isSome
      · rw [if_pos hp] at h; cases h
      · rw [if_neg hp] at h
        cases hb : F.build p (kw.r.getD F.rDefault) kw.other ps vs with
        | none => rw [hb] at h; cases h
        | some m' =>
          rw [hb] at h
          simp only [Except.ok.injEq] at h
          subst h
          exact ⟨p, _, .one p (by simpa using hp), hb⟩
    | [p, r], h =>
      simp only at h
      by_cases hp : (kw.p.isSome || kw.r.isSome) = true
      · rw [if_pos hp] at h; cases h
      · rw [if_neg hp] at h
        simp only [Bool.or_eq_true, not_or] at hp
        cases hb : F.build p r kw.other ps vs with
        | none => rw [hb] at h; cases h
        | some m' =>
          rw [hb] at h
          simp only [Except.ok.injEq] at h
          subst h
          exact ⟨p, r, .two p r (by simpa using hp.1) (by simpa using hp.2), hb⟩
    | [], h => cases h
    | _ :: _ :: _ :: _, h => cases h
  · rintro ⟨p, r, hp, hb⟩
    cases hp with
    | one _ h => simp only [getRbfi, h, Option.isSome_none, Bool.false_eq_true, if_false, hb]
    | two _ _ h h' => simp only [getRbfi, h, h', Option.isSome_none, Bool.or_self, Bool.false_eq_true, if_false, hb]

theorem bind_ok {A B : Type} (x : Except VErr A) (f : A → Except VErr B) (b : B) : (x >>= f) = .ok b ↔ ∃ a, x = .ok a ∧ f a = .ok b := by
  cases x with
  | error e => simp [bind, Except.bind]
  | ok a => simp [bind, Except.bind]

theorem fitMatch_ok (o : Option ℝ) (e : ℝ) : (match o with | some e => (.ok e : Except VErr ℝ) | none => .error .model) = .ok e ↔ o = some e := by
  cases o <;> simp

theorem cvStep_ok (F : Fitter V O P M) (kw : RbfKw V O) (params : List V) (points : List P) (values : List ℝ) (train test : List Nat) (e : ℝ) :
    cvStep F kw params points values train test = .ok e ↔
      ∃ m, TrainedOn F kw params points values train m ∧ TestedOn F points values test m e := by
  unfold cvStep
  simp only [bind_ok, pick_ok, getRbfi_ok, fitMatch_ok]
  constructor
  · rintro ⟨ps, h1, vs, h2, m, ⟨p, r, h3, h4⟩, pt, h5, vt, h6, h7⟩
    exact ⟨m, ⟨p, r, ps, vs, h3, h1, h2, h4⟩, pt, vt, h5, h6, (fitMatch_ok _ _).1 h7⟩
  · rintro ⟨m, ⟨p, r, ps, vs, h3, h1, h2, h4⟩, pt, vt, h5, h6, h7⟩
    exact ⟨ps, h1, vs, h2, m, ⟨p, r, h3, h4⟩, pt, h5, vt, h6, (fitMatch_ok _ _).2 h7⟩

theorem cvLoop_ok (F : Fitter V O P M) (kw : RbfKw V O) (params : List V) (points : List P) (values : List ℝ) (splits : List (List Nat × List Nat)) :
    ∀ (done junk errs : List ℝ), junk.length = splits.length →
      (cvLoop F kw params points values splits done.length (done ++ junk) = .ok errs ↔
        ∃ new, errs = done ++ new ∧ new.length = splits.length ∧
          ∀ (i : Nat) (train test : List Nat), splits[i]? = some (train, test) → ∃ e, new[i]? = some e ∧ cvStep F kw params points values train test = .ok e) := by
  induction splits with
  | nil =>
    intro done junk errs hj
    have : junk = [] := by simpa using hj
    subst this
    unfold cvLoop
    simp only [List.append_nil, Except.ok.injEq, List.length_nil, List.length_eq_zero_iff]
    constructor
    · rintro rfl
      exact ⟨[], by simp, rfl, by simp⟩
    · rintro ⟨new, h, rfl, -⟩
      simpa using h.symm
  | cons s splits ih =>
    intro done junk errs hj
    obtain ⟨j, junk, rfl⟩ : ∃ j l, junk = j :: l := by
      cases junk with
      | nil => simp at hj
      | cons j l => exact ⟨j, l, rfl⟩
    simp only [List.length_cons, Nat.add_right_cancel_iff] at hj
    rw [cvLoop, bind_ok]
    have hlt : done.length < (done ++ j :: junk).length := by simp
    simp only [if_pos hlt]
    have key : ∀ e, cvLoop F kw params points values splits (done.length + 1) ((done ++ j :: junk).set done.length e) =
        cvLoop F kw params points values splits (done ++ [e]).length (done ++ [e] ++ junk) := by
      intro e
      congr 1
      · simp
      · simp
    constructor
    · rintro ⟨e, he, h⟩
      rw [key, ih (done ++ [e]) junk errs hj] at h
      obtain ⟨new, h1, h2, h3⟩ := h
      refine ⟨e :: new, by simp [h1], by simp [h2], fun i train test hi => ?_⟩
      cases i with
      | zero =>
        simp only [List.getElem?_cons_zero, Option.some.injEq] at hi
        subst hi
        exact ⟨e, rfl, he⟩
      | succ i => exact h3 i train test (by simpa using hi)
    · rintro ⟨new, h1, h2, h3⟩
      obtain ⟨e, he0, he⟩ := h3 0 s.1 s.2 rfl
      cases new with
      | nil => cases he0
      | cons e' new =>
        simp only [List.getElem?_cons_zero, Option.some.injEq] at he0
        subst he0
        refine ⟨e', he, ?_⟩
        rw [key, ih (done ++ [e']) junk errs hj]
        exact ⟨new, by simp [h1], by simpa using h2, fun i train test hi => h3 (i + 1) train test (by simpa using hi)⟩

/-- **C116** `cv` gives one error for each split, in order: the error on the test points of the model built from the training points; whatever was
in memory. -/
theorem C116_cv (F : Fitter V O P M) (kw : RbfKw V O) (params : List V) (points : List P) (values : List ℝ) (splits : List (List Nat × List Nat))
    (junk errs : List ℝ) (hj : junk.length = splits.length) :
    cv F kw params points values splits junk = .ok errs ↔ errs.length = splits.length ∧
      ∀ (i : Nat) (train test : List Nat), splits[i]? = some (train, test) →
        ∃ e m, errs[i]? = some e ∧ TrainedOn F kw params points values train m ∧ TestedOn F points values test m e := by
  have := cvLoop_ok F kw params points values splits [] junk errs hj
  simp only [List.length_nil, List.nil_append, exists_eq_left'] at this
  unfold cv
  rw [this]
  apply and_congr_right
  intro _
  apply forall_congr'; intro i
  apply forall_congr'; intro train
  apply forall_congr'; intro test
  apply imp_congr_right
  intro _
  apply exists_congr; intro e
  rw [cvStep_ok]
  constructor
  · rintro ⟨h, m, h1, h2⟩; exact ⟨m, h, h1, h2⟩
  · rintro ⟨m, h, h1, h2⟩; exact ⟨h, m, h1, h2⟩

theorem part_unique {A : Type} (arr arr' : List A) (idxs : List Nat) (p p' : List A) (h : IsPart arr idxs p) (h' : IsPart arr' idxs p')
    (he : ∀ i ∈ idxs, arr[i]? = arr'[i]?) : p = p' := by
  rw [← mapM_part] at h h'
  have : (idxs.mapM fun i => arr[i]?) = idxs.mapM fun i => arr'[i]? := by
    clear h h'
    induction idxs with
    | nil => rfl
    | cons i idxs ih =>
      rw [List.mapM_cons, List.mapM_cons, he i (by simp), ih fun j hj => he j (by simp [hj])]
  rw [this, h'] at h
  exact (Option.some.inj h).symm

/-- **C116** (no leak) Nothing but the training points enters the model: for two data sets which agree at the training indices of a split (and
may differ in all others, e.g. the values of the test points), both errors of this split are errors of one and the same model. -/
theorem C116_no_leak (F : Fitter V O P M) (kw : RbfKw V O) (params : List V) (points points' : List P) (values values' : List ℝ)
    (splits : List (List Nat × List Nat)) (junk junk' errs errs' : List ℝ) (hj : junk.length = splits.length) (hj' : junk'.length = splits.length)
    (h : cv F kw params points values splits junk = .ok errs) (h' : cv F kw params points' values' splits junk' = .ok errs')
    (i : Nat) (train test : List Nat) (hi : splits[i]? = some (train, test))
    (hp : ∀ k ∈ train, points[k]? = points'[k]?) (hv : ∀ k ∈ train, values[k]? = values'[k]?) :
    ∃ m e e', errs[i]? = some e ∧ errs'[i]? = some e' ∧ TestedOn F points values test m e ∧ TestedOn F points' values' test m e' := by
  obtain ⟨e, m, h1, ⟨p, r, ps, vs, a1, a2, a3, a4⟩, h3⟩ := ((C116_cv F kw params points values splits junk errs hj).1 h).2 i train test hi
  obtain ⟨e', m', h1', ⟨p', r', ps', vs', b1, b2, b3, b4⟩, h3'⟩ := ((C116_cv F kw params points' values' splits junk' errs' hj').1 h').2 i train test hi
  have ep := part_unique _ _ _ _ _ a2 b2 hp
  have ev := part_unique _ _ _ _ _ a3 b3 hv
  have epr : p = p' ∧ r = r' := by
    cases a1 with
    | one => cases b1; exact ⟨rfl, rfl⟩
    | two => cases b1; exact ⟨rfl, rfl⟩
  rw [← ep, ← ev, ← epr.1, ← epr.2, a4] at b4
  have := Option.some.inj b4
  subst this
  exact ⟨m, e, e', h1, h1', h3, h3'⟩

/-- **C116** (the number which is minimised) Calling the object gives the mean of these errors, or, without cross validation, the error on the
points from which the model was built. -/
theorem C116_call (F : Fitter V O P M) (kw : RbfKw V O) (params : List V) (points : List P) (values : List ℝ) :
    (∀ splits junk x, call F kw params points values (some (splits, junk)) = .ok x ↔
      ∃ errs, cv F kw params points values splits junk = .ok errs ∧ x = errs.sum / errs.length) ∧
    ∀ x, call F kw params points values none = .ok x ↔
      ∃ p r m, ParamsMean F.rDefault kw params p r ∧ F.build p r kw.other points values = some m ∧ F.fitError m points values = some x := by
  constructor
  · intro splits junk x
    unfold call errCv
    simp only
    cases cv F kw params points values splits junk with
    | error e => simp [Except.map]
    | ok errs => simp [Except.map, mean, eq_comm]
  · intro x
    unfold call errDirect
    simp only [bind_ok, getRbfi_ok, fitMatch_ok]
    constructor
    · rintro ⟨m, ⟨p, r, h1, h2⟩, h3⟩; exact ⟨p, r, m, h1, h2, (fitMatch_ok _ _).1 h3⟩
    · rintro ⟨p, r, m, h1, h2, h3⟩; exact ⟨m, ⟨p, r, h1, h2⟩, (fitMatch_ok _ _).2 h3⟩

/-- **C116** (parameters) Any number of parameters but one and two, and a parameter which is also in the keywords, are refused. -/
theorem C116_params (F : Fitter V O P M) (kw : RbfKw V O) (params : List V) (points : List P) (values : List ℝ) :
    (params.length ≠ 1 → params.length ≠ 2 → errDirect F kw params points values = .error .params) ∧
    (params.length = 1 → kw.p ≠ none → errDirect F kw params points values = .error .assertion) ∧
    (params.length = 2 → kw.p ≠ none ∨ kw.r ≠ none → errDirect F kw params points values = .error .assertion) := by
  unfold errDirect
  match params with
  | [] => simp [getRbfi, bind, Except.bind]
  | [p] =>
    simp only [List.length_singleton, ne_eq, not_true_eq_false, false_implies, forall_const, true_and, getRbfi]
    refine ⟨fun h => ?_, fun h => by omega⟩
    rw [if_pos (Option.isSome_iff_ne_none.2 h)]; rfl
  | [p, r] =>
    simp only [List.length_cons, List.length_nil, Nat.zero_add, Nat.reduceAdd, ne_eq, not_true_eq_false, false_implies, forall_const, getRbfi,
      implies_true, true_and]
    refine ⟨fun h => by omega, fun h => ?_⟩
    rw [if_pos]
    · rfl
    · rcases h with h | h
      · rw [Option.isSome_iff_ne_none.2 h]; rfl
      · rw [Option.isSome_iff_ne_none.2 h, Bool.or_true]
  | _ :: _ :: _ :: _ => simp [getRbfi, bind, Except.bind]

/-- **C116** is false for `params = [p]` as documented ("r = None -> linear least squares solver: params = [1.5]"): it is the same as `[p, 0]`,
the normal solver, unless `r` is in the keywords. -/
theorem C116_one_parameter (F : Fitter V O P M) (o : O) (p : V) (points : List P) (values : List ℝ)
    (splits : Option (List (List Nat × List Nat) × List ℝ)) :
    call F ⟨none, none, o⟩ [p] points values splits = call F ⟨none, none, o⟩ [p, F.rDefault] points values splits := by
  have h : ∀ ps vs, getRbfi F ⟨none, none, o⟩ [p] ps vs = getRbfi F ⟨none, none, o⟩ [p, F.rDefault] ps vs := fun _ _ => rfl
  have h2 : ∀ tr te, cvStep F ⟨none, none, o⟩ [p] points values tr te = cvStep F ⟨none, none, o⟩ [p, F.rDefault] points values tr te := by
    intro tr te
    unfold cvStep
    simp only [h]
  have h3 : ∀ sp i errs, cvLoop F ⟨none, none, o⟩ [p] points values sp i errs = cvLoop F ⟨none, none, o⟩ [p, F.rDefault] points values sp i errs := by
    intro sp
    induction sp with
    | nil => intro i errs; rfl
    | cons s sp ih =>
      intro i errs
      simp only [cvLoop, h2, ih]
  unfold call errCv errDirect cv
  simp only [h, h3]

/-- A class `Rbf` whose errors show whether the least squares solver (`r = None`) was used. -/
def exFitter : Fitter (Option ℝ) Unit ℝ Bool := ⟨fun _ r _ _ _ => some r.isNone, fun m _ _ => some (if m then 1 else 0), some 0⟩

/-- **C116** counterexample: `[1.5]` and `[1.5, None]` are not the same. -/
theorem C116_counterexample :
    errDirect exFitter ⟨none, none, ()⟩ [some 1.5] [1] [2] = .ok 0 ∧ errDirect exFitter ⟨none, none, ()⟩ [some 1.5, none] [1] [2] = .ok 1 := by
  constructor
  · simp [errDirect, getRbfi, exFitter, bind, Except.bind]
  · simp [errDirect, getRbfi, exFitter, bind, Except.bind]

/-- Non-vacuity: three points, leave one out. The "model" is the sum of the training values. -/
example : cv (⟨fun _ _ _ _ vs => some vs.sum, fun m _ vs => some (m - vs.sum), 0⟩ : Fitter ℝ Unit ℝ ℝ) ⟨none, none, ()⟩ [1] [0, 1, 2] [10, 20, 40]
    [([1, 2], [0]), ([0, 2], [1])] [7, 7] = .ok [50, 30] := by
  simp only [cv, cvLoop, cvStep, pick, getRbfi, bind, Except.bind]
  norm_num [List.mapM_cons, bind, Option.bind, pure, List.mapM_nil]

end Pwtools.Cv
