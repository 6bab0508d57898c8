import Verif.Spec.Traj
import Verif.Props.NdArray
import Mathlib.Tactic.Ring
import Mathlib.Tactic.Linarith
import Mathlib.Tactic.FieldSimp
import Mathlib.Data.Rat.Cast.Order
/-!
# C48, C49: indexing, slicing and iterating a trajectory
-/
namespace Pwtools.Tr
open Pwtools.Nd Pwtools.Spec

variable {β γ K : Type}

theorem pyIndex_iff (n : Nat) (i : Int) (k : Nat) : pyIndex n i = some k ↔ IsIndex n i k := by
  unfold pyIndex IsIndex
  split
  · split
    · simp only [Option.some.injEq]; omega
    · simp only [reduceCtorEq, false_iff]; omega
  · split
    · simp only [Option.some.injEq]; omega
    · simp only [reduceCtorEq, false_iff]; omega

theorem pyIndex_none (n : Nat) (i : Int) : pyIndex n i = none ↔ (i < -(n : Int) ∨ (n : Int) ≤ i) := by
  unfold pyIndex
  split
  · split
    · simp only [reduceCtorEq, false_iff]; omega
    · simp only [true_iff]; omega
  · split
    · simp only [reduceCtorEq, false_iff]; omega
    · simp only [true_iff]; omega

theorem mem_perNames (m : Per) : m ∈ perNames := by cases m <;> decide

theorem intItem_ok (n : Nat) (i : Int) (k : Nat) (h : IsIndex n i k) (o : Option (List β))
    (ho : ∀ l, o = some l → l.length = n) :
    intItem (some n) i o = .ok (o.bind (fun l => l[k]?)) := by
  cases o with
  | none => rfl
  | some l =>
    have hl := ho l rfl
    simp only [intItem, hl, if_true, (pyIndex_iff n i k).2 h, Option.bind_some]

theorem intLoop_ok (tr : Traj β γ K) (i : Int) (v : Per → Option β)
    (h : ∀ m, onlyTraj m = false → intItem tr.nstep i (tr.per m) = .ok (v m)) :
    ∀ (names : List Per) (f : Per → Option β), ∃ g, intLoop tr i names f = .ok g ∧
      ∀ m, g m = if m ∈ names ∧ onlyTraj m = false then v m else f m := by
  intro names
  induction names with
  | nil => intro f; exact ⟨f, rfl, by simp⟩
  | cons a as ih =>
    intro f
    simp only [intLoop]
    by_cases ha : onlyTraj a = true
    · rw [if_pos ha]
      obtain ⟨g, hg, hm⟩ := ih f
      refine ⟨g, hg, ?_⟩
      intro m
      rw [hm]
      by_cases hma : m = a
      · subst hma; simp [ha]
      · simp [hma]
    · rw [if_neg ha]
      rw [h a (by simpa using ha)]
      obtain ⟨g, hg, hm⟩ := ih (put f a (v a))
      refine ⟨g, hg, ?_⟩
      intro m
      rw [hm]
      by_cases hma : m = a
      · subst hma
        have : onlyTraj m = false := by simpa using ha
        simp [put, this]
      · simp [hma, put]

theorem intLoop_error (tr : Traj β γ K) (i : Int) (m : Per) (hm : onlyTraj m = false) (e : Err)
    (he : intItem tr.nstep i (tr.per m) = .error e) :
    ∀ (names : List Per) (f : Per → Option β), m ∈ names → ∃ e', intLoop tr i names f = .error e' := by
  intro names
  induction names with
  | nil => intro f h; cases h
  | cons a as ih =>
    intro f h
    simp only [intLoop]
    by_cases ha : onlyTraj a = true
    · rw [if_pos ha]
      rcases List.mem_cons.1 h with h | h
      · subst h; rw [hm] at ha; cases ha
      · exact ih f h
    · rw [if_neg ha]
      rcases List.mem_cons.1 h with h | h
      · subst h; rw [he]; exact ⟨e, rfl⟩
      · cases hi : intItem tr.nstep i (tr.per a) with
        | error e' => exact ⟨e', rfl⟩
        | ok v => exact ih _ h

theorem intItem_error (nstep : Option Nat) (i : Int) (o : Option (List β)) (e : Err)
    (h : intItem nstep i o = .error e) : e = .indexError := by
  cases o with
  | none => simp [intItem] at h
  | some l =>
    simp only [intItem] at h
    split at h
    · cases hp : pyIndex l.length i with
      | none => rw [hp] at h; simpa using h.symm
      | some k => rw [hp] at h; cases h
    · cases h

theorem intLoop_error_kind (tr : Traj β γ K) (i : Int) (e : Err) :
    ∀ (names : List Per) (f : Per → Option β), intLoop tr i names f = .error e → e = .indexError := by
  intro names
  induction names with
  | nil => intro f h; simp [intLoop] at h
  | cons a as ih =>
    intro f h
    simp only [intLoop] at h
    split at h
    · exact ih f h
    · cases hi : intItem tr.nstep i (tr.per a) with
      | error e' =>
        rw [hi] at h
        have : e' = e := by simpa using h
        exact this ▸ intItem_error _ _ _ _ hi
      | ok v => rw [hi] at h; exact ih _ h

theorem onlyTraj_iff (m : Per) :
    onlyTraj m = true ↔ m ∈ [Per.velocity, .ekin, .temperature, .time] := by
  cases m <;> decide

/-- C48: `traj[i]` is the structure of step `i`, for every valid index, negative ones included. -/
theorem C48_int (n : Nat) (tr : Traj β γ K) (h : IsTraj n tr) (i : Int) (k : Nat)
    (hi : IsIndex n i k) : ∃ st, getInt tr i = .ok st ∧ IsStep tr k st := by
  obtain ⟨hn, hl, -⟩ := h
  obtain ⟨g, hg, hm⟩ := intLoop_ok tr i (fun m => (tr.per m).bind (fun l => l[k]?))
    (fun m _ => by rw [hn]; exact intItem_ok n i k hi _ (hl m)) perNames (fun _ => none)
  refine ⟨⟨g, tr.oth⟩, by simp only [getInt, hg], ?_, ?_, rfl⟩
  · intro m hmm
    have : onlyTraj m = false := by
      rw [← onlyTraj_iff] at hmm; simpa using hmm
    simp [hm, mem_perNames, this]
  · intro m hmm
    rw [← onlyTraj_iff] at hmm
    simp [hm, hmm]

/-- C48: an integer outside `-nstep … nstep-1` raises `IndexError`. -/
theorem C48_int_out (n : Nat) (tr : Traj β γ K) (h : IsTraj n tr) (i : Int)
    (hi : i < -(n : Int) ∨ (n : Int) ≤ i) : getInt tr i = .error .indexError := by
  obtain ⟨hn, hl, hc⟩ := h
  have key : ∃ m, onlyTraj m = false ∧ (tr.per m).isSome := by
    rcases hc with hc | hc
    · exact ⟨.coords, rfl, hc⟩
    · exact ⟨.coordsFrac, rfl, hc⟩
  obtain ⟨m, hm, hs⟩ := key
  obtain ⟨l, hl'⟩ := Option.isSome_iff_exists.1 hs
  have he : intItem tr.nstep i (tr.per m) = .error .indexError := by
    rw [hl', hn]
    simp only [intItem, hl m l hl', if_true, (pyIndex_none n i).2 hi]
  obtain ⟨e', he'⟩ := intLoop_error tr i m hm _ he perNames (fun _ => none) (mem_perNames m)
  have := intLoop_error_kind tr i e' _ _ he'
  subst this
  simp only [getInt, he']

/-! ## Slices -/

theorem sliceList_spec (s : Sl) (hs : s.step ≠ some 0) (l : List β) :
    ∃ l', sliceList s l = .ok l' ∧
      l'.length = (selected l.length s.start s.stop s.step).length ∧
      ∀ (j k : Nat), (selected l.length s.start s.stop s.step)[j]? = some k → l'[j]? = l[k]? := by
  cases h : s.indices l.length with
  | none => exact absurd ((indices_none s _).1 h) hs
  | some p =>
    obtain ⟨start, step, count⟩ := p
    obtain ⟨hsel, hin⟩ := indices_selected s _ start step count h
    have hget : ∀ j : Nat, j < count → ∃ v, l[(start + (j : Int) * step).toNat]? = some v := by
      intro j hj
      have := hin j hj
      exact ⟨l[(start + (j : Int) * step).toNat]'(by omega), List.getElem?_eq_getElem _⟩
    -- explicit list of values
    have hfm : ∀ (js : List Nat), (∀ j ∈ js, j < count) →
        (js.filterMap (fun j : Nat => l[(start + (j : Int) * step).toNat]?)).map some
          = js.map (fun j : Nat => l[(start + (j : Int) * step).toNat]?) := by
      intro js
      induction js with
      | nil => intro _; rfl
      | cons a as ih =>
        intro hj
        obtain ⟨v, hv⟩ := hget a (hj a (by simp))
        rw [List.filterMap_cons, hv]
        simp only [List.map_cons, hv]
        rw [ih (fun j hj' => hj j (by simp [hj']))]
    have hfm' := hfm (List.range count) (fun j hj => List.mem_range.1 hj)
    refine ⟨(List.range count).filterMap (fun j : Nat => l[(start + (j : Int) * step).toNat]?),
      by simp only [sliceList, h], ?_, ?_⟩
    · rw [← hsel]
      have := congrArg List.length hfm'
      simpa using this
    · intro j k hjk
      rw [← hsel] at hjk
      have hj : j < count := by
        by_contra hc
        rw [List.getElem?_eq_none (by simpa using hc)] at hjk
        cases hjk
      have hk : (start + (j : Int) * step).toNat = k := by
        simpa [List.getElem?_range hj] using hjk
      have := congrArg (fun L => L[j]?) hfm'
      simp only [List.getElem?_map, List.getElem?_range hj, Option.map_some] at this
      obtain ⟨v, hv⟩ := hget j hj
      rw [hv] at this
      rw [← hk, hv]
      cases hx : ((List.range count).filterMap (fun j : Nat => l[(start + (j : Int) * step).toNat]?))[j]? with
      | none => rw [hx] at this; cases this
      | some w => rw [hx] at this; simpa using this

theorem sliceLoop_ok (tr : Traj β γ K) (s : Sl) (v : Per → Option (List β))
    (h : ∀ m, sliceItem tr.nstep s (tr.per m) = .ok (v m)) :
    ∀ (names : List Per) (f : Per → Option (List β)), ∃ g, sliceLoop tr s names f = .ok g ∧
      ∀ m, g m = if m ∈ names then v m else f m := by
  intro names
  induction names with
  | nil => intro f; exact ⟨f, rfl, by simp⟩
  | cons a as ih =>
    intro f
    simp only [sliceLoop]
    rw [h a]
    obtain ⟨g, hg, hm⟩ := ih (put f a (v a))
    refine ⟨g, hg, ?_⟩
    intro m
    rw [hm]
    by_cases hma : m = a
    · subst hma
      simp [put]
    · simp [hma, put]

/-- C48: `traj[a:b:c]` is the trajectory of exactly the steps selected by the slice, in that order,
for every per-step quantity, with a consistent `nstep`; `timestep` is multiplied by the step. -/
theorem C48_slice [Ring K] (n : Nat) (tr : Traj β γ K) (h : IsTraj n tr) (s : Sl)
    (hs : s.step ≠ some 0) :
    ∃ tr', getSlice tr s = .ok tr' ∧
      IsSteps tr (selected n s.start s.stop s.step) tr' ∧
      IsTraj (selected n s.start s.stop s.step).length tr' ∧
      tr'.timestep = tr.timestep.map (fun dt => dt * ((s.step.getD 1 : Int) : K)) ∧
      tr'.index = -1 := by
  obtain ⟨hn, hl, hc⟩ := h
  have hitem : ∀ m, ∃ v, sliceItem tr.nstep s (tr.per m) = .ok v ∧
      (tr.per m = none → v = none) ∧
      (∀ l, tr.per m = some l → ∃ l', v = some l' ∧
        l'.length = (selected n s.start s.stop s.step).length ∧
        ∀ (j k : Nat), (selected n s.start s.stop s.step)[j]? = some k → l'[j]? = l[k]?) := by
    intro m
    cases hm : tr.per m with
    | none => exact ⟨none, rfl, fun _ => rfl, fun l hl' => by cases hl'⟩
    | some l =>
      have hlen := hl m l hm
      obtain ⟨l', h1, h2, h3⟩ := sliceList_spec s hs l
      refine ⟨some l', ?_, fun hx => by simp at hx, ?_⟩
      · simp only [sliceItem, hn, hlen, if_true, h1]
      · intro l0 hl0
        cases hl0
        rw [hlen] at h2 h3
        exact ⟨l', rfl, h2, h3⟩
  choose v hv1 hv2 hv3 using hitem
  obtain ⟨g, hg, hm⟩ := sliceLoop_ok tr s v hv1 perNames (fun _ => none)
  have hm' : ∀ m, g m = v m := by intro m; rw [hm]; simp [mem_perNames]
  have hnst : getNstep g = some (selected n s.start s.stop s.step).length := by
    unfold getNstep
    cases hco : tr.per .coords with
    | some l =>
      obtain ⟨l', hl', hlen, -⟩ := hv3 .coords l hco
      rw [hm', hl']
      simp [hlen]
    | none =>
      rw [hco] at hc
      have hc' : (tr.per .coordsFrac).isSome := by simpa using hc
      obtain ⟨l, hl0⟩ := Option.isSome_iff_exists.1 hc'
      obtain ⟨l', hl', hlen, -⟩ := hv3 .coordsFrac l hl0
      rw [hm', hm', hv2 .coords hco, hl']
      simp [hlen]
  refine ⟨{ per := g, oth := tr.oth, nstep := getNstep g,
            timestep := tr.timestep.map (fun dt => dt * ((s.step.getD 1 : Int) : K)) }, ?_, ?_, ?_,
            rfl, rfl⟩
  · simp only [getSlice, hg]
  · refine ⟨?_, ?_, rfl⟩
    · intro m h0
      show g m = none
      rw [hm', hv2 m h0]
    · intro m l hl0
      obtain ⟨l', a, b, c⟩ := hv3 m l hl0
      exact ⟨l', (hm' m).trans a, b, c⟩
  · refine ⟨hnst, ?_, ?_⟩
    · intro m l' hl'
      have hl'' : v m = some l' := by rw [← hm']; exact hl'
      cases h0 : tr.per m with
      | none => rw [hv2 m h0] at hl''; cases hl''
      | some l =>
        obtain ⟨l2, a, b, -⟩ := hv3 m l h0
        rw [a] at hl''
        cases hl''
        exact b
    · rcases hc with hc | hc
      · left
        obtain ⟨l, hl0⟩ := Option.isSome_iff_exists.1 hc
        obtain ⟨l', a, -, -⟩ := hv3 _ l hl0
        show (g .coords).isSome
        rw [hm', a]; rfl
      · right
        obtain ⟨l, hl0⟩ := Option.isSome_iff_exists.1 hc
        obtain ⟨l', a, -, -⟩ := hv3 _ l hl0
        show (g .coordsFrac).isSome
        rw [hm', a]; rfl

/-- C48: step zero raises `ValueError`. -/
theorem C48_slice_zero [Ring K] (n : Nat) (tr : Traj β γ K) (h : IsTraj n tr) (s : Sl)
    (hs : s.step = some 0) : getSlice tr s = .error .valueError := by
  obtain ⟨hn, hl, hc⟩ := h
  have hitem : ∀ m, sliceItem tr.nstep s (tr.per m) =
      if (tr.per m).isSome then .error .valueError else .ok none := by
    intro m
    cases hm : tr.per m with
    | none => rfl
    | some l =>
      simp only [sliceItem, hn, hl m l hm, if_true, sliceList, (indices_none s n).2 hs]
      rfl
  have loop : ∀ (names : List Per) (f : Per → Option (List β)),
      (∃ m ∈ names, (tr.per m).isSome) → sliceLoop tr s names f = .error .valueError := by
    intro names
    induction names with
    | nil => rintro f ⟨m, hm, -⟩; cases hm
    | cons a as ih =>
      rintro f ⟨m, hm, hso⟩
      simp only [sliceLoop, hitem a]
      by_cases ha : (tr.per a).isSome
      · rw [if_pos ha]
      · rw [if_neg ha]
        rcases List.mem_cons.1 hm with hm | hm
        · subst hm; exact absurd hso ha
        · exact ih _ ⟨m, hm, hso⟩
  have : sliceLoop tr s perNames (fun _ => none) = .error .valueError := by
    apply loop
    rcases hc with hc | hc
    · exact ⟨.coords, by decide, hc⟩
    · exact ⟨.coordsFrac, by decide, hc⟩
  simp only [getSlice, this]

theorem struct_ext (a b : Struct β γ) (h1 : ∀ m, a.per m = b.per m) (h2 : a.oth = b.oth) : a = b := by
  cases a; cases b
  simp only at h1 h2
  rw [funext h1, h2]

theorem isStep_unique (tr : Traj β γ K) (k : Nat) (a b : Struct β γ) (ha : IsStep tr k a)
    (hb : IsStep tr k b) : a = b := by
  apply struct_ext
  · intro m
    by_cases hm : m ∈ [Per.velocity, .ekin, .temperature, .time]
    · rw [ha.2.1 m hm, hb.2.1 m hm]
    · rw [ha.1 m hm, hb.1 m hm]
  · rw [ha.2.2, hb.2.2]

theorem selected_lt (n : Nat) (a b c : Option Int) (k : Nat) (h : k ∈ selected n a b c) : k < n := by
  unfold selected at h
  simp only at h
  split at h
  · simpa using (List.mem_filter.1 h).1
  · simpa using (List.mem_filter.1 h).1

/-- C48: slicing composes with indexing: item `i` of `traj[a:b:c]` is the structure
`traj[s(i)]`, where `s(i)` is the `i`-th step selected by the slice. -/
theorem C48_compose [Ring K] (n : Nat) (tr tr' : Traj β γ K) (h : IsTraj n tr) (s : Sl)
    (hs : getSlice tr s = .ok tr') (i : Int) (j k : Nat)
    (hi : IsIndex (selected n s.start s.stop s.step).length i j)
    (hk : (selected n s.start s.stop s.step)[j]? = some k) :
    getInt tr' i = getInt tr k := by
  have hz : s.step ≠ some 0 := by
    intro hz
    rw [C48_slice_zero n tr h s hz] at hs
    cases hs
  obtain ⟨tr2, h1, hst, htr, -⟩ := C48_slice n tr h s hz
  rw [hs] at h1
  cases h1
  obtain ⟨st, hg, hstep⟩ := C48_int _ tr' htr i j hi
  have hkn : k < n := selected_lt n _ _ _ k (List.mem_of_getElem? hk)
  obtain ⟨st2, hg2, hstep2⟩ := C48_int n tr h (k : Int) k ⟨hkn, Or.inl rfl⟩
  rw [hg, hg2]
  congr 1
  apply struct_ext
  · intro m
    by_cases hm : m ∈ [Per.velocity, .ekin, .temperature, .time]
    · rw [hstep.2.1 m hm, hstep2.2.1 m hm]
    · rw [hstep.1 m hm, hstep2.1 m hm]
      cases h0 : tr.per m with
      | none => rw [hst.1 m h0]; rfl
      | some l =>
        obtain ⟨l', a, -, b⟩ := hst.2.1 m l h0
        rw [a]
        exact b j k hk
  · rw [hstep.2.2, hstep2.2.2, hst.2.2]

/-- C48: slicing composes with slicing: the second slice selects among the steps of the first. -/
theorem C48_compose_slices [Ring K] (n : Nat) (tr tr' : Traj β γ K) (h : IsTraj n tr) (s t : Sl)
    (hs : getSlice tr s = .ok tr') (ht : t.step ≠ some 0) :
    ∃ tr'', getSlice tr' t = .ok tr'' ∧
      IsSteps tr ((selected (selected n s.start s.stop s.step).length t.start t.stop t.step).filterMap
        (fun j => (selected n s.start s.stop s.step)[j]?)) tr'' ∧
      tr''.timestep = tr.timestep.map
        (fun dt => dt * ((s.step.getD 1 * t.step.getD 1 : Int) : K)) := by
  have hz : s.step ≠ some 0 := by
    intro hz
    rw [C48_slice_zero n tr h s hz] at hs
    cases hs
  obtain ⟨tr2, h1, hst, htr, hdt, -⟩ := C48_slice n tr h s hz
  rw [hs] at h1
  cases h1
  obtain ⟨tr3, h3, hst3, htr3, hdt3, -⟩ := C48_slice _ tr' htr t ht
  refine ⟨tr3, h3, ?_, ?_⟩
  · set S := selected n s.start s.stop s.step with hS
    set T := selected S.length t.start t.stop t.step with hT
    have hTlt : ∀ j ∈ T, j < S.length := fun j hj => selected_lt _ _ _ _ j hj
    have gen : ∀ (T : List Nat), (∀ j ∈ T, j < S.length) →
        (T.filterMap (fun j => S[j]?)).length = T.length ∧
        ∀ (i k : Nat), (T.filterMap (fun j => S[j]?))[i]? = some k →
          ∃ j, T[i]? = some j ∧ S[j]? = some k := by
      intro T
      induction T with
      | nil => intro _; exact ⟨rfl, fun i k h => by simp at h⟩
      | cons a as ih =>
        intro hT
        obtain ⟨i1, i2⟩ := ih (fun j hj => hT j (by simp [hj]))
        have ha : S[a]? = some (S[a]'(hT a (by simp))) := List.getElem?_eq_getElem _
        rw [List.filterMap_cons, ha]
        refine ⟨by simp [i1], ?_⟩
        intro i k hik
        cases i with
        | zero => exact ⟨a, rfl, by simpa [ha] using hik⟩
        | succ i => exact i2 i k (by simpa using hik)
    obtain ⟨g1, g2⟩ := gen T hTlt
    refine ⟨?_, ?_, ?_⟩
    · intro m hm
      exact hst3.1 m (hst.1 m hm)
    · intro m l hm
      obtain ⟨l', a, b, c⟩ := hst.2.1 m l hm
      obtain ⟨l3, a3, b3, c3⟩ := hst3.2.1 m l' a
      refine ⟨l3, a3, by rw [b3, g1], ?_⟩
      intro i k hik
      obtain ⟨j, hj, hk⟩ := g2 i k hik
      rw [c3 i j hj, c j k hk]
    · rw [hst3.2.2, hst.2.2]
  · rw [hdt3, hdt, Option.map_map]
    congr 1
    funext dt
    simp [mul_assoc]

/-- C48: with `time[i] = t0 + i*timestep`, the times of the slice have the new `timestep` as
spacing. -/
theorem C48_time {K : Type} [Field K] {γ : Type} (n : Nat) (tr tr' : Traj K γ K) (h : IsTraj n tr)
    (s : Sl) (hs : getSlice tr s = .ok tr') (dt t0 : K) (hdt : tr.timestep = some dt)
    (l l' : List K) (hl : tr.per .time = some l) (hl' : tr'.per .time = some l')
    (ht : ∀ (i : Nat) (x : K), l[i]? = some x → x = t0 + i * dt) :
    ∃ dt', tr'.timestep = some dt' ∧
      ∀ (j : Nat) (x y : K), l'[j]? = some x → l'[j + 1]? = some y → y - x = dt' := by
  have hz : s.step ≠ some 0 := by
    intro hz
    rw [C48_slice_zero n tr h s hz] at hs
    cases hs
  obtain ⟨tr2, h1, hst, htr, hdt', -⟩ := C48_slice n tr h s hz
  rw [hs] at h1
  cases h1
  refine ⟨dt * ((s.step.getD 1 : Int) : K), by rw [hdt', hdt]; rfl, ?_⟩
  intro j x y hx hy
  obtain ⟨l2, a, b, c⟩ := hst.2.1 .time l hl
  rw [hl'] at a
  cases a
  cases hi : s.indices n with
  | none => exact absurd ((indices_none s n).1 hi) hz
  | some p =>
    obtain ⟨start, step, count⟩ := p
    obtain ⟨hsel, hin⟩ := indices_selected s n start step count hi
    have hstep : step = s.step.getD 1 := by
      unfold Sl.indices at hi
      simp only at hi
      split at hi
      · cases hi
      · simp only [Option.some.injEq, Prod.mk.injEq] at hi
        exact hi.2.1.symm
    have hj1 : j + 1 < count := by
      by_contra hc
      have hlen : l'.length = count := by rw [b, ← hsel]; simp
      rw [List.getElem?_eq_none (by omega)] at hy
      cases hy
    have e0 : (selected n s.start s.stop s.step)[j]? = some (start + (j : Int) * step).toNat := by
      rw [← hsel]
      simp [List.getElem?_range (show j < count by omega)]
    have e1 : (selected n s.start s.stop s.step)[j + 1]?
        = some (start + ((j + 1 : Nat) : Int) * step).toNat := by
      rw [← hsel]
      simp [List.getElem?_range hj1]
    rw [c _ _ e0] at hx
    rw [c _ _ e1] at hy
    have hx' := ht _ _ hx
    have hy' := ht _ _ hy
    have p0 := hin j (by omega)
    have p1 := hin (j + 1) hj1
    have c0 : (((start + (j : Int) * step).toNat : Nat) : K) = ((start + (j : Int) * step : Int) : K) := by
      rw [← Int.cast_natCast, Int.toNat_of_nonneg p0.1]
    have c1 : (((start + ((j + 1 : Nat) : Int) * step).toNat : Nat) : K)
        = ((start + ((j + 1 : Nat) : Int) * step : Int) : K) := by
      rw [← Int.cast_natCast, Int.toNat_of_nonneg p1.1]
    rw [hx', hy', c0, c1, ← hstep]
    push_cast
    ring

/-- C48: a per-step quantity whose number of items is not `nstep` is dropped by every slice. -/
theorem C48_other_length [Ring K] (tr tr' : Traj β γ K) (s : Sl) (m : Per) (l : List β)
    (hm : tr.per m = some l) (hn : some l.length ≠ tr.nstep) (hs : getSlice tr s = .ok tr') :
    tr'.per m = none := by
  have loop : ∀ (names : List Per) (f g : Per → Option (List β)), f m = none →
      sliceLoop tr s names f = .ok g → g m = none := by
    intro names
    induction names with
    | nil => intro f g hf h; simp only [sliceLoop, Except.ok.injEq] at h; rw [← h]; exact hf
    | cons a as ih =>
      intro f g hf h
      simp only [sliceLoop] at h
      cases hi : sliceItem tr.nstep s (tr.per a) with
      | error e => rw [hi] at h; cases h
      | ok v =>
        rw [hi] at h
        refine ih _ g ?_ h
        unfold put
        split
        · rename_i hma
          subst hma
          rw [hm] at hi
          simp only [sliceItem, if_neg hn, Except.ok.injEq] at hi
          exact hi.symm
        · exact hf
  unfold getSlice at hs
  cases hl : sliceLoop tr s perNames (fun _ => none) with
  | error e => rw [hl] at hs; cases hs
  | ok g =>
    rw [hl] at hs
    cases hs
    exact loop perNames _ g rfl hl

/-- A small trajectory: three steps, coordinates, energies and times. -/
def exTraj : Traj Int String ℚ :=
  { per := fun m => match m with
      | .coords => some [10, 11, 12]
      | .etot => some [5, 6, 7]
      | .time => some [0, 2, 4]
      | _ => none
    oth := fun m => if m = .symbols then some "H" else none
    nstep := some 3
    timestep := some 2 }

theorem exTraj_isTraj : IsTraj 3 exTraj := by
  refine ⟨rfl, ?_, Or.inl rfl⟩
  intro m l h
  cases m <;> simp [exTraj] at h <;> subst h <;> rfl

example : ∃ st, getInt exTraj (-1) = .ok st ∧ IsStep exTraj 2 st :=
  C48_int 3 exTraj exTraj_isTraj (-1) 2 ⟨by decide, Or.inr (by decide)⟩

example : (getSlice exTraj { step := some (-2) }).toOption.map
    (fun t => (t.per .coords, t.per .time, t.per .ekin, t.nstep, t.timestep))
    = some (some [12, 10], some [4, 0], none, some 2, some (-4)) := by
  simp [getSlice, sliceLoop, perNames, sliceItem, exTraj, sliceList, Sl.indices, put, getNstep,
    Except.toOption, List.range, List.range.loop]
  norm_num

/-! ## Iteration -/

theorem next_stop (tr : Traj β γ K) (n : Nat) (hn : tr.nstep = some n) (hi : tr.index = (n : Int) - 1) :
    next tr = (.stop, { tr with index := -1 }) := by
  unfold next
  rw [hn, hi]
  simp

theorem next_item (tr : Traj β γ K) (n : Nat) (hn : tr.nstep = some n) (j : Nat)
    (hi : tr.index = (j : Int) - 1) (hj : j ≠ n) :
    next tr = (.item (getInt tr j), { tr with index := j }) := by
  have h1 : tr.index + 1 = (j : Int) := by omega
  unfold next
  simp only [h1, hn]
  rw [if_neg]
  simp only [Option.map_some, Option.some.injEq]
  intro h
  exact hj (by exact_mod_cast h.symm)

theorem intLoop_index (tr : Traj β γ K) (i j : Int) (names : List Per) (f : Per → Option β) :
    intLoop { tr with index := j } i names f = intLoop tr i names f := by
  induction names generalizing f with
  | nil => rfl
  | cons a as ih =>
    simp only [intLoop]
    split
    · exact ih f
    · cases intItem tr.nstep i (tr.per a) with
      | error e => rfl
      | ok v => exact ih _

theorem getInt_index (tr : Traj β γ K) (i j : Int) :
    getInt { tr with index := j } i = getInt tr i := by
  simp only [getInt, intLoop_index]

/-- Loops from any position of the iterator: without `break`. -/
theorem forLoop_full (n : Nat) : ∀ (d : Nat) (tr : Traj β γ K) (j seen fuel : Nat),
    tr.nstep = some n → tr.index = (j : Int) - 1 → j + d = n → d < fuel →
    forLoop none fuel seen tr
      = some ((List.range' j d).map (fun k : Nat => getInt tr k), { tr with index := -1 }) := by
  intro d
  induction d with
  | zero =>
    intro tr j seen fuel hn hi hj hf
    obtain ⟨fuel, rfl⟩ : ∃ f, fuel = f + 1 := ⟨fuel - 1, by omega⟩
    have := next_stop tr n hn (by omega)
    simp only [forLoop, this]
    rfl
  | succ d ih =>
    intro tr j seen fuel hn hi hj hf
    obtain ⟨fuel, rfl⟩ : ∃ f, fuel = f + 1 := ⟨fuel - 1, by omega⟩
    have h1 := next_item tr n hn j hi (by omega)
    have h2 := ih { tr with index := (j : Int) } (j + 1) (seen + 1) fuel hn
      (by push_cast; ring) (by omega) (by omega)
    simp only [forLoop, h1, reduceCtorEq, if_false, h2]
    simp only [List.range'_succ, List.map_cons, getInt_index]

/-- Loops from the start, left with `break` at item `b`. -/
theorem forLoop_brk (n b : Nat) : ∀ (d : Nat) (tr : Traj β γ K) (j fuel : Nat),
    tr.nstep = some n → tr.index = (j : Int) - 1 → b < n → j + d = b → d < fuel →
    forLoop (some b) fuel j tr
      = some ((List.range' j (d + 1)).map (fun k : Nat => getInt tr k), { tr with index := b }) := by
  intro d
  induction d with
  | zero =>
    intro tr j fuel hn hi hb hj hf
    obtain ⟨fuel, rfl⟩ : ∃ f, fuel = f + 1 := ⟨fuel - 1, by omega⟩
    have h1 := next_item tr n hn j hi (by omega)
    obtain rfl : j = b := by omega
    simp only [forLoop, h1, if_true]
    rfl
  | succ d ih =>
    intro tr j fuel hn hi hb hj hf
    obtain ⟨fuel, rfl⟩ : ∃ f, fuel = f + 1 := ⟨fuel - 1, by omega⟩
    have h1 := next_item tr n hn j hi (by omega)
    have h2 := ih { tr with index := (j : Int) } (j + 1) fuel hn
      (by push_cast; ring) hb (by omega) (by omega)
    have hne : (some b : Option Nat) ≠ some j := by
      intro h; simp only [Option.some.injEq] at h; omega
    simp only [forLoop, h1, if_neg hne, h2]
    rw [List.range'_succ (s := j) (n := d + 1)]
    simp only [List.map_cons, getInt_index]

/-- A number of loops one after the other; each may be left with `break`. -/
def loops (fuel : Nat) : List (Option Nat) → Traj β γ K →
    Option (List (List (Except Err (Struct β γ))) × Traj β γ K)
  | [], tr => some ([], tr)
  | b :: bs, tr =>
    match forLoop b fuel 0 tr with
    | none => none
    | some (r, tr') =>
      match loops fuel bs tr' with
      | none => none
      | some (rs, tr'') => some (r :: rs, tr'')

/-- C49, the part which holds: as long as no loop is left with `break` and loops are not nested,
every loop visits the steps `0 … nstep-1`, once each and in order, and ends. Missing: `break` and
nested loops, for which the property is false, see `C49_break` and `C49_nested`. -/
theorem C49_full_loops_partial (n : Nat) (tr : Traj β γ K) (h : IsTraj n tr) (hi : tr.index = -1)
    (count fuel : Nat) (hf : n < fuel) :
    ∃ sts : List (Struct β γ), sts.length = n ∧
      (∀ (k : Nat) (st : Struct β γ), sts[k]? = some st → IsStep tr k st) ∧
      loops fuel (List.replicate count none) tr
        = some (List.replicate count (sts.map Except.ok), tr) := by
  have hget : ∀ k : Nat, k < n → ∃ st, getInt tr k = .ok st ∧ IsStep tr k st :=
    fun k hk => C48_int n tr h k k ⟨hk, Or.inl rfl⟩
  have hlist : ∀ m : Nat, m ≤ n → ∃ sts : List (Struct β γ), sts.length = m ∧
      (∀ (k : Nat) (st : Struct β γ), sts[k]? = some st → IsStep tr k st) ∧
      (List.range m).map (fun k : Nat => getInt tr k) = sts.map Except.ok := by
    intro m
    induction m with
    | zero => intro _; exact ⟨[], rfl, fun k st h => by simp at h, rfl⟩
    | succ m ih =>
      intro hm
      obtain ⟨sts, a, b, c⟩ := ih (by omega)
      obtain ⟨st, e, f⟩ := hget m (by omega)
      refine ⟨sts ++ [st], by simp [a], ?_, ?_⟩
      · intro k st' hk
        rw [List.getElem?_append] at hk
        split at hk
        · exact b k st' hk
        · rename_i hkl
          have : k - sts.length = 0 := by
            by_contra hc
            rw [List.getElem?_eq_none (by simp; omega)] at hk
            cases hk
          have hkm : k = m := by omega
          rw [this] at hk
          simp only [List.getElem?_cons_zero, Option.some.injEq] at hk
          rw [hkm, ← hk]; exact f
      · rw [List.range_succ, List.map_append, c]
        simp [e]
  obtain ⟨sts, a, b, c⟩ := hlist n le_rfl
  refine ⟨sts, a, b, ?_⟩
  have htr : ({ tr with index := -1 } : Traj β γ K) = tr := by
    cases tr; simp only at hi; subst hi; rfl
  have one : forLoop none fuel 0 tr = some (sts.map Except.ok, tr) := by
    rw [forLoop_full n n tr 0 0 fuel h.1 (by simp [hi]) (by omega) hf]
    rw [← List.range_eq_range', c, htr]
  induction count with
  | zero => rfl
  | succ count ih =>
    rw [List.replicate_succ, List.replicate_succ]
    simp only [loops, one, ih]

/-- C49: what really happens after a `break`: if a loop is left in the body of step `b`, the next
loop starts at step `b+1` instead of step 0. -/
theorem C49_break (n b : Nat) (tr : Traj β γ K) (h : IsTraj n tr) (hi : tr.index = -1)
    (hb : b < n) (fuel : Nat) (hf : n < fuel) :
    loops fuel [some b, none] tr
      = some ([(List.range (b + 1)).map (fun k : Nat => getInt tr k),
               (List.range' (b + 1) (n - (b + 1))).map (fun k : Nat => getInt tr k)], tr) := by
  have h1 := forLoop_brk n b b tr 0 fuel h.1 (by simp [hi]) hb (by omega) (by omega)
  have h2 := forLoop_full n (n - (b + 1)) { tr with index := (b : Int) } (b + 1) 0 fuel h.1
    (by push_cast; ring) (by omega) (by omega)
  have htr : ({ tr with index := -1 } : Traj β γ K) = tr := by
    cases tr; simp only at hi; subst hi; rfl
  simp only [loops, h1, h2]
  rw [← List.range_eq_range', htr]
  simp only [getInt_index]

/-- C49 is false: after a `break` in the first step, the second loop over a trajectory of three
steps does not visit step 0. -/
theorem C49_counterexample :
    ∃ second, (loops 4 [some 0, none] exTraj).map (fun r => r.1.drop 1) = some [second] ∧
      second.length = 2 := by
  rw [C49_break 3 0 exTraj exTraj_isTraj rfl (by decide) 4 (by decide)]
  exact ⟨_, rfl, rfl⟩

/-- C49: two nested loops over the same trajectory never end: however many turns of the outer loop
are made, the outer loop sees step 0 each time, the inner one the steps `1 … nstep-1`. -/
theorem C49_nested (n : Nat) (tr : Traj β γ K) (h : IsTraj n tr) (hi : tr.index = -1) (hn : 0 < n)
    (turns fuel : Nat) (hf : n < fuel) :
    nested fuel turns tr = some (List.replicate turns
      (getInt tr 0, (List.range' 1 (n - 1)).map (fun k : Nat => getInt tr k)), false) := by
  have htr : ({ tr with index := -1 } : Traj β γ K) = tr := by
    cases tr; simp only at hi; subst hi; rfl
  induction turns with
  | zero => rfl
  | succ turns ih =>
    have h1 := next_item tr n h.1 0 (by simp [hi]) (by omega)
    have h2 := forLoop_full n (n - 1) { tr with index := ((0 : Nat) : Int) } 1 0 fuel h.1
      (by simp) (by omega) (by omega)
    simp only [nested, h1, h2]
    rw [htr, ih, List.replicate_succ]
    simp only [getInt_index, Nat.cast_zero]

/-- C49: nested loops over a trajectory whose next step is `j` (an earlier loop was left with `break`,
or `j = 0`). They end if and only if there is no step left, and then at once; otherwise the first turn
has step `j` and the steps after it, and all further turns are those of `C49_nested`. -/
theorem C49_nested_start (n j : Nat) (tr : Traj β γ K) (h : IsTraj n tr) (hi : tr.index = (j : Int) - 1)
    (turns fuel : Nat) (hf : n < fuel) :
    (j = n → nested fuel (turns + 1) tr = some ([], true)) ∧
    (j < n → nested fuel (turns + 1) tr = some ((getInt tr j,
        (List.range' (j + 1) (n - (j + 1))).map (fun k : Nat => getInt tr k)) ::
      List.replicate turns (getInt tr 0, (List.range' 1 (n - 1)).map (fun k : Nat => getInt tr k)), false)) := by
  constructor
  · intro hjn
    have h1 : next tr = (.stop, { tr with index := -1 }) := by
      unfold next
      rw [h.1, hi, hjn]
      simp
    simp only [nested, h1]
  · intro hjn
    have h1 := next_item tr n h.1 j (by rw [hi]) (by omega)
    have h2 := forLoop_full n (n - (j + 1)) { tr with index := (j : Int) } (j + 1) 0 fuel h.1
      (by push_cast; ring) (by omega) (by omega)
    have h3 := C49_nested n { tr with index := -1 } h rfl (by omega) turns fuel hf
    simp only [nested, h1, h2, h3]
    simp only [getInt_index]

example : IsTraj 3 exTraj ∧ exTraj.index = -1 := ⟨exTraj_isTraj, rfl⟩

/-- Non-vacuity: after a `break` in the last of three steps, nested loops end at once. -/
example : nested 4 1 { exTraj with index := 2 } = some ([], true) :=
  (C49_nested_start 3 3 { exTraj with index := 2 } exTraj_isTraj (by norm_num) 0 4 (by decide)).1 rfl

end Pwtools.Tr
