import Verif.Props.Traj
import Mathlib.Algebra.Module.BigOperators
import Mathlib.Data.List.Dedup
import Mathlib.Data.List.Sort
import Mathlib.Tactic.Abel
import Mathlib.Tactic.Module
/-!
# C50, C51: concatenate, mean, mix
-/
namespace Pwtools.Tr
open Pwtools.Nd Pwtools.Spec

variable {β γ K : Type}

/-! ## concatenate -/

theorem struct2traj_per (n : Nat) (o : Obj β γ K) (h : HasSteps n o) (m : Per) :
    (struct2traj o).per m = part m o := by
  cases o with
  | traj tr => rfl
  | struct st =>
    simp only [struct2traj, getTraj, part]
    split
    · rename_i hm
      rw [h.2.2 m ((onlyTraj_iff m).1 hm)]; rfl
    · simp [List.replicate_one]

theorem struct2traj_oth (o : Obj β γ K) (m : Oth) : (struct2traj o).oth m = othOf m o := by
  cases o <;> rfl

theorem part_length (n : Nat) (o : Obj β γ K) (h : HasSteps n o) (m : Per) (l : List β)
    (hl : part m o = some l) : l.length = n := by
  cases o with
  | traj tr => exact h.2.1 m l hl
  | struct st =>
    simp only [part, Option.map_eq_some_iff] at hl
    obtain ⟨v, -, rfl⟩ := hl
    exact h.1.symm

theorem part_coords (n : Nat) (o : Obj β γ K) (h : HasSteps n o) :
    (part .coords o).isSome ∨ (part .coordsFrac o).isSome := by
  cases o with
  | traj tr => exact h.2.2
  | struct st => simpa [part] using h.2.1

/-- The per-step attributes of the result, in terms of the arguments. -/
theorem concatenate_eq (ns : List Nat) (lst : List (Obj β γ K)) (hne : lst ≠ [])
    (h : List.Forall₂ HasSteps ns lst) :
    ∃ r, concatenate lst = .ok r ∧
      (∀ m, r.per m = if m = .time then none
        else if (∀ o ∈ lst, (part m o).isSome) then some (lst.flatMap (fun o => (part m o).getD []))
        else lst.head?.bind (part m)) ∧
      (∀ m, r.oth m = if (∀ o ∈ lst, (othOf m o).isSome) then lst.head?.bind (othOf m) else none) ∧
      r.nstep = getNstep r.per ∧ r.timestep = none ∧ r.index = -1 := by
  have hmem : ∀ o ∈ lst, ∃ n, HasSteps n o := by
    intro o ho
    have := List.forall₂_iff_get.1 h
    obtain ⟨i, hi, rfl⟩ := List.getElem_of_mem ho
    exact ⟨_, this.2 i (by rw [this.1]; exact hi) hi⟩
  cases lst with
  | nil => exact absurd rfl hne
  | cons o os =>
    refine ⟨_, rfl, ?_, ?_, rfl, rfl, rfl⟩
    · intro m
      have hall : comPer ((o :: os).map struct2traj) m = true ↔ ∀ x ∈ o :: os, (part m x).isSome := by
        simp only [comPer, List.all_eq_true, List.mem_map]
        constructor
        · intro hx x hxm
          obtain ⟨n, hn⟩ := hmem x hxm
          rw [← struct2traj_per n x hn]
          exact hx _ ⟨x, hxm, rfl⟩
        · rintro hx t ⟨x, hxm, rfl⟩
          obtain ⟨n, hn⟩ := hmem x hxm
          rw [struct2traj_per n x hn]
          exact hx x hxm
      have hflat : ((o :: os).map struct2traj).flatMap (fun t => (t.per m).getD [])
          = (o :: os).flatMap (fun x => (part m x).getD []) := by
        rw [List.flatMap_map]
        apply List.flatMap_congr
        intro x hxm
        obtain ⟨n, hn⟩ := hmem x hxm
        rw [struct2traj_per n x hn]
      by_cases hm : m = .time
      · simp [hm]
      · by_cases hc : comPer ((o :: os).map struct2traj) m = true
        · have hc' := hall.1 hc
          simp only [hm, if_false, if_pos hc']
          rw [← hflat]
          simp only [List.map_cons] at hc ⊢
          rw [if_pos hc]
        · have hc' : ¬ ∀ x ∈ o :: os, (part m x).isSome := fun hx => hc (hall.2 hx)
          obtain ⟨n, hn⟩ := hmem o (by simp)
          simp only [hm, if_false, if_neg hc']
          simp only [List.map_cons] at hc ⊢
          rw [if_neg hc]
          simpa using struct2traj_per n o hn m
    · intro m
      have hall : comOth ((o :: os).map struct2traj) m = true ↔ ∀ x ∈ o :: os, (othOf m x).isSome := by
        simp only [comOth, List.all_eq_true, List.mem_map]
        constructor
        · intro hx x hxm
          rw [← struct2traj_oth x]
          exact hx _ ⟨x, hxm, rfl⟩
        · rintro hx t ⟨x, hxm, rfl⟩
          rw [struct2traj_oth x]
          exact hx x hxm
      by_cases hc : comOth ((o :: os).map struct2traj) m = true
      · have hc' := hall.1 hc
        rw [if_pos hc']
        simp only [List.map_cons] at hc ⊢
        rw [if_pos hc]
        simpa using struct2traj_oth o m
      · have hc' : ¬ ∀ x ∈ o :: os, (othOf m x).isSome := fun hx => hc (hall.2 hx)
        rw [if_neg hc']
        simp only [List.map_cons] at hc ⊢
        rw [if_neg hc]

theorem flatMap_length (ns : List Nat) (lst : List (Obj β γ K)) (h : List.Forall₂ HasSteps ns lst)
    (m : Per) (hall : ∀ o ∈ lst, (part m o).isSome) :
    (lst.flatMap (fun o => (part m o).getD [])).length = ns.sum := by
  induction h with
  | nil => rfl
  | @cons n o ns lst h1 _ ih =>
    obtain ⟨l, hl⟩ := Option.isSome_iff_exists.1 (hall o (by simp))
    rw [List.flatMap_cons, List.length_append, List.sum_cons, ih (fun x hx => hall x (by simp [hx])),
      hl, Option.getD_some, part_length n o h1 m l hl]

/-- C50, the part which holds: if the same per-step quantities are present in all arguments, the
result has the sum of the numbers of steps, every per-step quantity (except `time`, which is
removed) is the concatenation of the parts in order, and quantities without time axis which all
arguments have are those of the first one. Missing: arguments with different sets of quantities,
for which the property is false, see `C50_leftover` and `C50_counterexample`. -/
theorem C50_concatenate_partial (ns : List Nat) (lst : List (Obj β γ K)) (hne : lst ≠ [])
    (h : List.Forall₂ HasSteps ns lst) (hk : ∀ a ∈ lst, ∀ b ∈ lst, SameKinds a b) :
    ∃ r, concatenate lst = .ok r ∧ IsTraj ns.sum r ∧
      (∀ m, m ≠ .time → (∀ o ∈ lst, (part m o).isSome) →
        r.per m = some (lst.map (fun o => (part m o).getD [])).flatten) ∧
      (∀ m, (m = .time ∨ ∃ o ∈ lst, part m o = none) → r.per m = none) ∧
      (∀ m, (∀ o ∈ lst, (othOf m o).isSome) → r.oth m = lst.head?.bind (othOf m)) ∧
      (∀ m, (∃ o ∈ lst, othOf m o = none) → r.oth m = none) ∧
      r.timestep = none := by
  obtain ⟨r, hr, hper, hoth, hnst, hdt, -⟩ := concatenate_eq ns lst hne h
  have hsome : ∀ m, m ≠ .time → (∃ o ∈ lst, (part m o).isSome) →
      r.per m = some (lst.flatMap (fun o => (part m o).getD [])) ∧
      ∀ o ∈ lst, (part m o).isSome := by
    intro m hm ⟨o, ho, hs⟩
    have hall : ∀ x ∈ lst, (part m x).isSome := fun x hx => (hk o ho x hx m hm).1 hs
    exact ⟨by rw [hper, if_neg hm, if_pos hall], hall⟩
  have hnone : ∀ m, (m = .time ∨ ∃ o ∈ lst, part m o = none) → r.per m = none := by
    intro m hm
    rw [hper]
    split
    · rfl
    · rename_i hmt
      rcases hm with hm | ⟨o, ho, hn⟩
      · exact absurd hm hmt
      · rw [if_neg (fun hall => by have := hall o ho; rw [hn] at this; cases this)]
        cases lst with
        | nil => rfl
        | cons a as =>
          show part m a = none
          by_contra hc
          have : (part m a).isSome := Option.isSome_iff_ne_none.2 hc
          have := (hk a (by simp) o ho m hmt).1 this
          rw [hn] at this; cases this
  have hlen : ∀ m l, r.per m = some l → l.length = ns.sum := by
    intro m l hl
    by_cases hm : m = .time
    · rw [hnone m (Or.inl hm)] at hl; cases hl
    · by_cases hex : ∃ o ∈ lst, part m o = none
      · rw [hnone m (Or.inr hex)] at hl; cases hl
      · have hall : ∀ o ∈ lst, (part m o).isSome := by
          intro o ho
          rw [Option.isSome_iff_ne_none]
          exact fun hc => hex ⟨o, ho, hc⟩
        rw [hper, if_neg hm, if_pos hall] at hl
        cases hl
        exact flatMap_length ns lst h m hall
  obtain ⟨o, os, rfl⟩ := List.exists_cons_of_ne_nil hne
  obtain ⟨n, hn⟩ : ∃ n, HasSteps n o := by cases h with | cons h1 _ => exact ⟨_, h1⟩
  have hco : (r.per .coords).isSome ∨ (r.per .coordsFrac).isSome := by
    rcases part_coords n o hn with hc | hc
    · left; rw [(hsome .coords (by decide) ⟨o, by simp, hc⟩).1]; rfl
    · right; rw [(hsome .coordsFrac (by decide) ⟨o, by simp, hc⟩).1]; rfl
  refine ⟨r, hr, ⟨?_, hlen, hco⟩, ?_, hnone, ?_, ?_, hdt⟩
  · rw [hnst]
    unfold getNstep
    cases hx : r.per .coords with
    | some l => exact congrArg some (hlen _ l hx)
    | none =>
      rw [hx] at hco
      obtain ⟨l, hl⟩ := Option.isSome_iff_exists.1 (show (r.per .coordsFrac).isSome by simpa using hco)
      rw [hl]
      exact congrArg some (hlen _ l hl)
  · intro m hm hall
    rw [hper, if_neg hm, if_pos hall, List.flatMap_def]
  · intro m hall
    rw [hoth, if_pos hall]
  · rintro m ⟨x, hx, hxn⟩
    rw [hoth, if_neg (fun hall => by have := hall x hx; rw [hxn] at this; cases this)]

/-- C50: an empty list raises. -/
theorem C50_empty : concatenate ([] : List (Obj β γ K)) = .error .typeError := rfl

/-- C50: what really happens to a per-step quantity which the first argument has, but not all
others: the result gets the items of the first argument only, fewer than its number of steps (if
coordinates are present everywhere and the others have steps). -/
theorem C50_leftover (ns : List Nat) (lst : List (Obj β γ K)) (hne : lst ≠ [])
    (h : List.Forall₂ HasSteps ns lst) (hc : ∀ o ∈ lst, (part .coords o).isSome)
    (m : Per) (hm : m ≠ .time) (l : List β) (hl : lst.head?.bind (part m) = some l)
    (hex : ∃ o ∈ lst, part m o = none) :
    ∃ r, concatenate lst = .ok r ∧ r.per m = some l ∧ r.nstep = some ns.sum ∧
      l.length = ns.headD 0 := by
  obtain ⟨r, hr, hper, -, hnst, -, -⟩ := concatenate_eq ns lst hne h
  refine ⟨r, hr, ?_, ?_, ?_⟩
  · obtain ⟨o, ho, hn⟩ := hex
    rw [hper, if_neg hm, if_neg (fun hall => by have := hall o ho; rw [hn] at this; cases this), hl]
  · rw [hnst]
    unfold getNstep
    rw [hper, if_neg (by decide), if_pos hc]
    exact congrArg some (flatMap_length ns lst h _ hc)
  · cases h with
    | nil => exact absurd rfl hne
    | @cons n o ns' lst' h1 _ => exact part_length n o h1 m l hl

/-- Two trajectories, only the first one has forces. -/
def exWith : Traj Int String ℚ :=
  { per := fun m => match m with | .coords => some [1, 2] | .forces => some [7, 8] | _ => none
    oth := fun _ => none, nstep := some 2, timestep := none }
/-- The second one. -/
def exWithout : Traj Int String ℚ :=
  { per := fun m => match m with | .coords => some [3] | _ => none
    oth := fun _ => none, nstep := some 1, timestep := none }

theorem exWith_isTraj : IsTraj 2 exWith :=
  ⟨rfl, fun m l h => by cases m <;> simp [exWith] at h <;> subst h <;> rfl, Or.inl rfl⟩
theorem exWithout_isTraj : IsTraj 1 exWithout :=
  ⟨rfl, fun m l h => by cases m <;> simp [exWithout] at h <;> subst h <;> rfl, Or.inl rfl⟩

/-- C50 is false: the result has three steps, but forces for two of them. -/
theorem C50_counterexample :
    ∃ r, concatenate [.traj exWith, .traj exWithout] = .ok r ∧ r.nstep = some 3 ∧
      r.per .forces = some [7, 8] := by
  obtain ⟨r, h1, h2, h3, -⟩ := C50_leftover [2, 1] [.traj exWith, .traj exWithout] (by simp)
    (.cons exWith_isTraj (.cons exWithout_isTraj .nil))
    (by intro o ho; simp at ho; rcases ho with rfl | rfl <;> rfl) .forces (by decide) [7, 8] rfl
    ⟨.traj exWithout, by simp, rfl⟩
  exact ⟨r, h1, h3, h2⟩

/-- The hypotheses of `C50_concatenate_partial` can be met. -/
example : ∃ r, concatenate [.traj exWith, .traj exWith] = .ok r ∧
    r.per .forces = some [7, 8, 7, 8] := by
  obtain ⟨r, h1, -, h3, -⟩ := C50_concatenate_partial [2, 2] [.traj exWith, .traj exWith] (by simp)
    (.cons exWith_isTraj (.cons exWith_isTraj .nil))
    (by intro a ha b hb; simp at ha hb; subst ha; subst hb; exact fun _ _ => Iff.rfl)
  exact ⟨r, h1, h3 .forces (by decide) (by intro o ho; simp at ho; subst ho; rfl)⟩

theorem traj_ext (a b : Traj β γ K) (h1 : a.per = b.per) (h2 : a.oth = b.oth)
    (h3 : a.nstep = b.nstep) (h4 : a.timestep = b.timestep) (h5 : a.index = b.index) : a = b := by
  cases a; cases b; simp_all

/-- C50: concatenating in two groups gives the same trajectory as concatenating all at once
(arguments with the same per-step quantities). -/
theorem C50_assoc_partial (ns ks : List Nat) (xs ys : List (Obj β γ K)) (hx : xs ≠ []) (hy : ys ≠ [])
    (h1 : List.Forall₂ HasSteps ns xs) (h2 : List.Forall₂ HasSteps ks ys)
    (hk : ∀ a ∈ xs ++ ys, ∀ b ∈ xs ++ ys, SameKinds a b) (rx ry : Traj β γ K)
    (ex : concatenate xs = .ok rx) (ey : concatenate ys = .ok ry) :
    concatenate [.traj rx, .traj ry] = concatenate (xs ++ ys) := by
  obtain ⟨rx', ex', tx, px, nx, -, -⟩ := C50_concatenate_partial ns xs hx h1
    (fun a ha b hb => hk a (by simp [ha]) b (by simp [hb]))
  rw [ex] at ex'; cases ex'
  obtain ⟨ry', ey', ty, py, ny, -, -⟩ := C50_concatenate_partial ks ys hy h2
    (fun a ha b hb => hk a (by simp [ha]) b (by simp [hb]))
  rw [ey] at ey'; cases ey'
  obtain ⟨ox', eox, -, hox, -⟩ := concatenate_eq ns xs hx h1
  rw [ex] at eox; cases eox
  obtain ⟨oy', eoy, -, hoy, -⟩ := concatenate_eq ks ys hy h2
  rw [ey] at eoy; cases eoy
  have h12 : List.Forall₂ HasSteps (ns ++ ks) (xs ++ ys) := List.rel_append h1 h2
  obtain ⟨r, er, hper, hoth, hn, hd, hi⟩ := concatenate_eq (ns ++ ks) (xs ++ ys) (by simp [hx]) h12
  obtain ⟨r', er', hper', hoth', hn', hd', hi'⟩ :=
    concatenate_eq [ns.sum, ks.sum] [.traj rx, .traj ry] (by simp) (.cons tx (.cons ty .nil))
  obtain ⟨x0, xs', rfl⟩ := List.exists_cons_of_ne_nil hx
  obtain ⟨y0, ys', rfl⟩ := List.exists_cons_of_ne_nil hy
  rw [er, er']
  congr 1
  have hP : r'.per = r.per := by
    funext m
    rw [hper, hper']
    by_cases hm : m = .time
    · simp [hm]
    · rw [if_neg hm, if_neg hm]
      by_cases hs : (part m x0).isSome
      · have hall : ∀ o ∈ (x0 :: xs') ++ (y0 :: ys'), (part m o).isSome :=
          fun o ho => (hk x0 (by simp) o ho m hm).1 hs
        have hx' := px m hm (fun o ho => hall o (List.mem_append_left _ ho))
        have hy' := py m hm (fun o ho => hall o (List.mem_append_right _ ho))
        rw [if_pos hall, if_pos]
        · have e1 : part m (.traj rx : Obj β γ K) = rx.per m := rfl
          have e2 : part m (.traj ry : Obj β γ K) = ry.per m := rfl
          rw [List.flatMap_cons, List.flatMap_cons, List.flatMap_nil, e1, e2, hx', hy',
            List.flatMap_append, List.flatMap_def, List.flatMap_def]
          simp only [Option.getD_some, List.append_nil]
        · intro o ho
          simp only [List.mem_cons, List.not_mem_nil, or_false] at ho
          rcases ho with rfl | rfl
          · simp [part, hx']
          · simp [part, hy']
      · have hnone : part m x0 = none := by simpa using hs
        have hx' := nx m (Or.inr ⟨x0, by simp, hnone⟩)
        have n1 : ¬ ∀ o ∈ [(.traj rx : Obj β γ K), .traj ry], (part m o).isSome := by
          intro hall
          have := hall (.traj rx) (by simp)
          simp [part, hx'] at this
        have n2 : ¬ ∀ o ∈ (x0 :: xs') ++ (y0 :: ys'), (part m o).isSome :=
          fun hall => hs (hall x0 (by simp))
        rw [if_neg n1, if_neg n2]
        show rx.per m = part m x0
        rw [hx', hnone]
  refine traj_ext _ _ hP ?_ ?_ ?_ ?_
  · funext m
    rw [hoth, hoth']
    have e1 : othOf m (.traj rx : Obj β γ K) = rx.oth m := rfl
    have e2 : othOf m (.traj ry : Obj β γ K) = ry.oth m := rfl
    by_cases ha : ∀ o ∈ x0 :: xs', (othOf m o).isSome
    · have hrx : rx.oth m = othOf m x0 := by rw [hox, if_pos ha]; rfl
      by_cases hb : ∀ o ∈ y0 :: ys', (othOf m o).isSome
      · have hry : ry.oth m = othOf m y0 := by rw [hoy, if_pos hb]; rfl
        rw [if_pos, if_pos]
        · simp [e1, hrx]
        · intro o ho
          rcases List.mem_append.1 ho with ho | ho
          · exact ha o ho
          · exact hb o ho
        · intro o ho
          simp only [List.mem_cons, List.not_mem_nil, or_false] at ho
          rcases ho with rfl | rfl
          · rw [e1, hrx]; exact ha x0 (by simp)
          · rw [e2, hry]; exact hb y0 (by simp)
      · have hry : ry.oth m = none := by rw [hoy, if_neg hb]
        rw [if_neg, if_neg]
        · exact fun hall => hb (fun o ho => hall o (List.mem_append_right _ ho))
        · intro hall
          have := hall (.traj ry) (by simp)
          rw [e2, hry] at this; cases this
    · have hrx : rx.oth m = none := by rw [hox, if_neg ha]
      rw [if_neg, if_neg]
      · exact fun hall => ha (fun o ho => hall o (List.mem_append_left _ ho))
      · intro hall
        have := hall (.traj rx) (by simp)
        rw [e1, hrx] at this; cases this
  · rw [hn, hn', hP]
  · rw [hd, hd']
  · rw [hi, hi']

/-! ## mean -/

/-- C51: `mean(traj)` has the average of every per-step quantity (`time` is not averaged) and the
quantities without time axis. -/
theorem C51_mean [Field K] [CharZero K] [AddCommGroup β] [Module K β] (tr : Traj β γ K) :
    (∀ m l, m ≠ .time → tr.per m = some l → l ≠ [] →
      ∃ v, (mean tr).per m = some v ∧ IsAverage (K := K) l v) ∧
    (∀ m, (m = .time ∨ tr.per m = none) → (mean tr).per m = none) ∧
    (mean tr).oth = tr.oth := by
  refine ⟨?_, ?_, rfl⟩
  · intro m l hm hl hne
    refine ⟨(1 / (l.length : K)) • l.sum, ?_, hne, ?_⟩
    · simp only [mean, if_neg hm, hl, meanList, if_neg hne]
    · have : (l.length : K) ≠ 0 := by
        have := List.length_pos_iff.2 hne
        exact_mod_cast this.ne'
      rw [smul_smul, mul_one_div_cancel this, one_smul]
  · intro m hm
    simp only [mean]
    split
    · rfl
    · rename_i hmt
      rcases hm with hm | hm
      · exact absurd hm hmt
      · rw [hm]

/-- C51: the mean of a trajectory whose steps are all equal to one structure is that structure;
here for `n` copies made by `get_traj`. -/
theorem C51_mean_const [Field K] [CharZero K] [AddCommGroup β] [Module K β] (st : Struct β γ)
    (n : Nat) (hn : 0 < n)
    (hst : ∀ m, m ∈ [Per.velocity, .ekin, .temperature, .time] → st.per m = none) :
    mean (getTraj (K := K) st n) = st := by
  apply struct_ext
  · intro m
    simp only [mean, getTraj]
    by_cases hm : onlyTraj m = true
    · rw [if_pos hm, hst m ((onlyTraj_iff m).1 hm)]
      split <;> rfl
    · have hmt : m ≠ .time := by rintro rfl; exact hm rfl
      rw [if_neg hm, if_neg hmt]
      cases h : st.per m with
      | none => rfl
      | some v =>
        have hne : List.replicate n v ≠ [] := by
          intro h
          have := congrArg List.length h
          simp at this
          omega
        have hk : (n : K) ≠ 0 := by exact_mod_cast hn.ne'
        simp only [Option.map_some, meanList, if_neg hne, List.length_replicate, List.sum_replicate]
        rw [← Nat.cast_smul_eq_nsmul K, smul_smul, one_div_mul_cancel hk, one_smul]
  · rfl

/-- C51: every step of `get_traj(n)` is the structure. -/
theorem C51_getTraj_steps (st : Struct β γ) (n k : Nat) (hk : k < n)
    (hc : (st.per .coords).isSome ∨ (st.per .coordsFrac).isSome)
    (hst : ∀ m, m ∈ [Per.velocity, .ekin, .temperature, .time] → st.per m = none) :
    getInt (getTraj (K := K) st n) k = .ok st := by
  have hper : ∀ m, (getTraj (K := K) st n).per m = (st.per m).map (fun v => List.replicate n v) := by
    intro m
    simp only [getTraj]
    split
    · rename_i hm
      rw [hst m ((onlyTraj_iff m).1 hm)]; rfl
    · rfl
  have htr : IsTraj n (getTraj (K := K) st n) := by
    have hlen : ∀ m l, (getTraj (K := K) st n).per m = some l → l.length = n := by
      intro m l hl
      rw [hper] at hl
      simp only [Option.map_eq_some_iff] at hl
      obtain ⟨v, -, rfl⟩ := hl
      simp
    have hco : ((getTraj (K := K) st n).per .coords).isSome ∨
        ((getTraj (K := K) st n).per .coordsFrac).isSome := by
      rw [hper, hper]; simpa using hc
    refine ⟨?_, hlen, hco⟩
    show getNstep (getTraj (K := K) st n).per = some n
    unfold getNstep
    cases hx : (getTraj (K := K) st n).per .coords with
    | some l => exact congrArg some (hlen _ l hx)
    | none =>
      rw [hx] at hco
      obtain ⟨l, hl⟩ := Option.isSome_iff_exists.1
        (show ((getTraj (K := K) st n).per .coordsFrac).isSome by simpa using hco)
      rw [hl]
      exact congrArg some (hlen _ l hl)
  obtain ⟨st', h1, h2, h3, h4⟩ := C48_int n _ htr k k ⟨hk, Or.inl rfl⟩
  rw [h1]
  congr 1
  apply struct_ext
  · intro m
    by_cases hm : m ∈ [Per.velocity, .ekin, .temperature, .time]
    · rw [h3 m hm, hst m hm]
    · rw [h2 m hm, hper]
      cases st.per m with
      | none => rfl
      | some v => simp [hk]
  · exact h4

example : ∃ v, (mean (β := ℚ) (γ := String) (K := ℚ)
    { per := fun m => if m = .etot then some [1, 2, 6] else none, oth := fun _ => none,
      nstep := none, timestep := none }).per .etot = some v ∧ v = 3 :=
  ⟨_, rfl, by norm_num⟩

/-! ## mix -/

section Mix
variable {V S : Type} [Field K] [AddCommGroup V] [Module K V] [DecidableEq S]

theorem mixRow_length (r : K) (a b : List V) (h : a.length = b.length) :
    (mixRow r a b).length = a.length := by simp [mixRow, h]

theorem mixRow_get (r : K) (a b : List V) (i : Nat) (x y : V) (hx : a[i]? = some x)
    (hy : b[i]? = some y) : (mixRow r a b)[i]? = some ((1 - r) • x + r • y) := by
  simp [mixRow, List.getElem?_zipWith, hx, hy, add_comm]

theorem mixRow_zero (a b : List V) (h : a.length = b.length) : mixRow (0 : K) a b = a := by
  apply List.ext_getElem?
  intro i
  by_cases hi : i < a.length
  · rw [mixRow_get 0 a b i a[i] (b[i]'(by omega)) (List.getElem?_eq_getElem hi)
      (List.getElem?_eq_getElem _), List.getElem?_eq_getElem hi]
    simp
  · rw [List.getElem?_eq_none (by rw [mixRow_length _ _ _ h]; omega), List.getElem?_eq_none (by omega)]

theorem mixRow_one (a b : List V) (h : a.length = b.length) : mixRow (1 : K) a b = b := by
  apply List.ext_getElem?
  intro i
  by_cases hi : i < a.length
  · rw [mixRow_get 1 a b i a[i] (b[i]'(by omega)) (List.getElem?_eq_getElem hi)
      (List.getElem?_eq_getElem _), List.getElem?_eq_getElem (show i < b.length by omega)]
    simp
  · rw [List.getElem?_eq_none (by rw [mixRow_length _ _ _ h]; omega), List.getElem?_eq_none (by omega)]

/-- What `mix` asks of its arguments. -/
def Mixable (a b : MixSt V S) : Prop :=
  a.coords.length = b.coords.length ∧ a.symbols = b.symbols ∧ a.cell.length = b.cell.length ∧
  ∀ f g, a.forces = some f → b.forces = some g → f.length = g.length

/-- C51: `mix(a, b, alpha)` has one step per entry of `alpha`; row `i` of coordinates, cell and
forces (if both have forces) of step `k` is `(1-alpha[k]) * a + alpha[k] * b`. -/
theorem C51_mix (a b : MixSt V S) (h : Mixable a b) (alpha : List K) :
    ∃ tr, mix a b alpha = .ok tr ∧ tr.length = alpha.length ∧
      ∀ (k : Nat) (r : K) (st : MixSt V S), alpha[k]? = some r → tr[k]? = some st →
        st.symbols = a.symbols ∧ st.coords.length = a.coords.length ∧
        st.cell.length = a.cell.length ∧
        (∀ (i : Nat) (x y : V), a.coords[i]? = some x → b.coords[i]? = some y →
          st.coords[i]? = some ((1 - r) • x + r • y)) ∧
        (∀ (i : Nat) (x y : V), a.cell[i]? = some x → b.cell[i]? = some y →
          st.cell[i]? = some ((1 - r) • x + r • y)) ∧
        (st.forces.isSome ↔ a.forces.isSome ∧ b.forces.isSome) ∧
        (∀ f g f', a.forces = some f → b.forces = some g → st.forces = some f' →
          f'.length = f.length ∧
          ∀ (i : Nat) (x y : V), f[i]? = some x → g[i]? = some y →
            f'[i]? = some ((1 - r) • x + r • y)) := by
  obtain ⟨h1, h2, h3, h4⟩ := h
  refine ⟨_, by simp only [mix, ne_eq, h1, not_true, if_false, h2]; rfl, by simp, ?_⟩
  intro k r st hr hst
  rw [List.getElem?_map, hr] at hst
  simp only [Option.map_some, Option.some.injEq] at hst
  subst hst
  refine ⟨h2.symm, mixRow_length _ _ _ h1, mixRow_length _ _ _ h3, fun i x y hx hy =>
    mixRow_get r _ _ i x y hx hy, fun i x y hx hy => mixRow_get r _ _ i x y hx hy, ?_, ?_⟩
  · cases a.forces <;> cases b.forces <;> simp
  · intro f g f' hf hg hf'
    simp only [hf, hg, Option.some.injEq] at hf'
    subst hf'
    exact ⟨mixRow_length _ _ _ (h4 f g hf hg), fun i x y hx hy => mixRow_get r _ _ i x y hx hy⟩

/-- C51: the end points, `mix(a,b,[0])` is `a` and `mix(a,b,[1])` is `b` (forces are dropped unless
both have them). -/
theorem C51_mix_ends (a b : MixSt V S) (h : Mixable a b) (hf : a.forces.isSome ↔ b.forces.isSome) :
    mix a b [(0 : K), 1] = .ok [a, b] := by
  obtain ⟨h1, h2, h3, h4⟩ := h
  obtain ⟨ac, ace, af, as⟩ := a
  obtain ⟨bc, bce, bf, bs⟩ := b
  simp only at h1 h2 h3 h4 hf
  subst h2
  simp only [mix, h1, ne_eq, not_true, if_false, List.map_cons, List.map_nil, mixRow_zero _ _ h1,
    mixRow_zero _ _ h3, mixRow_one _ _ h1, mixRow_one _ _ h3]
  cases af with
  | none =>
    cases bf with
    | none => rfl
    | some g => simp at hf
  | some f =>
    cases bf with
    | none => simp at hf
    | some g => simp only [mixRow_zero _ _ (h4 f g rfl rfl), mixRow_one _ _ (h4 f g rfl rfl)]

/-- C51: different numbers of atoms or different symbols are refused. -/
theorem C51_mix_refused (a b : MixSt V S) (alpha : List K)
    (h : a.coords.length ≠ b.coords.length ∨ a.symbols ≠ b.symbols) :
    mix a b alpha = .error .assertion := by
  unfold mix
  by_cases h1 : a.coords.length ≠ b.coords.length
  · rw [if_pos h1]
  · rw [if_neg h1]
    rcases h with h | h
    · exact absurd h h1
    · rw [if_pos h]

example : Mixable (V := ℚ) (S := String) ⟨[1, 2], [1, 1, 1], none, ["H", "O"]⟩
    ⟨[3, 4], [2, 2, 2], some [0, 0], ["H", "O"]⟩ :=
  ⟨rfl, rfl, rfl, fun f g h => by cases h⟩

end Mix

end Pwtools.Tr
