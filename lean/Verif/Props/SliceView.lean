import Verif.Props.Sliceput
import Verif.Spec.SliceView
/-!
# C81 with arrays and broadcasting, C24 with views and copies
-/
namespace Pwtools.Nd
open Spec

variable {α : Type}

theorem bcastOk_iff (bs sh : List Nat) : bcastOk bs sh = true ↔ ∀ k d : Nat, bs[k]? = some d → d = 1 ∨ sh[k]? = some d := by
  induction bs generalizing sh with
  | nil => simp [bcastOk]
  | cons d bs ih =>
    cases sh with
    | nil =>
      simp only [bcastOk, Bool.and_eq_true, decide_eq_true_eq, ih]
      constructor
      · rintro ⟨h1, h2⟩ k e h
        cases k with
        | zero => simp at h; exact .inl (h ▸ h1)
        | succ k =>
          have := h2 k e (by simpa using h)
          simpa using this
      · intro h
        refine ⟨?_, fun k e hk => ?_⟩
        · simpa using h 0 d rfl
        · have := h (k + 1) e (by simpa using hk)
          simpa using this
    | cons n sh =>
      simp only [bcastOk, Bool.and_eq_true, decide_eq_true_eq, ih]
      constructor
      · rintro ⟨h1, h2⟩ k e h
        cases k with
        | zero =>
          simp only [List.getElem?_cons_zero, Option.some.injEq] at h ⊢
          subst h
          rcases h1 with h1 | h1
          · exact .inr h1.symm
          · exact .inl h1
        | succ k => simpa using h2 k e (by simpa using h)
      · intro h
        refine ⟨?_, fun k e hk => by simpa using h (k + 1) e (by simpa using hk)⟩
        rcases h 0 d rfl with h | h
        · exact .inr h
        · exact .inl (by simpa using h.symm)

theorem bcastIdx_length (bs idx : List Nat) : (bcastIdx bs idx).length = bs.length := by
  induction bs generalizing idx with
  | nil => rfl
  | cons d bs ih => cases idx <;> simp [bcastIdx, ih]

theorem bcastIdx_eq (bs idx bi : List Nat) (hl : bi.length = bs.length) (hs : ∀ k d : Nat, bs[k]? = some d → d = 1 ∨ k < idx.length)
    (h : ∀ k d : Nat, bs[k]? = some d → (d = 1 ∧ bi[k]? = some 0) ∨ (d ≠ 1 ∧ bi[k]? = idx[k]?)) : bcastIdx bs idx = bi := by
  induction bs generalizing idx bi with
  | nil =>
    have : bi = [] := by simpa using hl
    rw [this]; rfl
  | cons d bs ih =>
    rcases bi with _ | ⟨b, bi⟩
    · simp at hl
    cases idx with
    | nil =>
      rw [bcastIdx, ih [] bi (by simpa using hl) (fun k e hk => by simpa using hs (k + 1) e (by simpa using hk)) (fun k e hk => by simpa using h (k + 1) e (by simpa using hk))]
      have := hs 0 d rfl
      have h0 := h 0 d rfl
      simp at this h0
      simp [this] at h0
      rw [h0]
    | cons i idx =>
      rw [bcastIdx, ih idx bi (by simpa using hl) (fun k e hk => by simpa using hs (k + 1) e (by simpa using hk)) (fun k e hk => by simpa using h (k + 1) e (by simpa using hk))]
      have h0 := h 0 d rfl
      simp only [List.getElem?_cons_zero, Option.some.injEq] at h0
      rcases h0 with ⟨h1, h2⟩ | ⟨h1, h2⟩
      · simp [h1, h2]
      · simp [h1, h2]

/-- Writing one entry after the other. -/
theorem foldl_writes {ι κ β : Type} [DecidableEq κ] (key : ι → κ) (val : ι → β) (l : List ι) (hn : (l.map key).Nodup) (f : κ → β) :
    (∀ i ∈ l, l.foldl (fun f i J => if J = key i then val i else f J) f (key i) = val i) ∧
    ∀ J, J ∉ l.map key → l.foldl (fun f i J => if J = key i then val i else f J) f J = f J := by
  induction l generalizing f with
  | nil => simp
  | cons a l ih =>
    rw [List.map_cons, List.nodup_cons] at hn
    obtain ⟨h1, h2⟩ := ih hn.2 (fun J => if J = key a then val a else f J)
    refine ⟨fun i hi => ?_, fun J hJ => ?_⟩
    · rw [List.foldl_cons]
      rcases List.mem_cons.1 hi with rfl | hi
      · rw [h2 _ hn.1, if_pos rfl]
      · exact h1 i hi
    · rw [List.map_cons, List.mem_cons, not_or] at hJ
      rw [List.foldl_cons, h2 J hJ.2, if_neg hJ.1]

theorem selected_nodup (n : Nat) (a b k : Option Int) : (selected n a b k).Nodup := by
  unfold selected
  simp only
  split
  · exact List.nodup_range.filter _
  · exact (List.nodup_reverse.2 List.nodup_range).filter _

theorem position_inj (L : List (List Nat)) (hL : ∀ l ∈ L, l.Nodup) (i j J : List Nat) (hi : InShape i (L.map List.length)) (hj : InShape j (L.map List.length))
    (h1 : PositionOf L i J) (h2 : PositionOf L j J) : i = j := by
  induction L generalizing i j J with
  | nil => cases hi; cases hj; rfl
  | cons l L ih =>
    rcases i with _ | ⟨a, i⟩
    · cases hi
    rcases j with _ | ⟨b, j⟩
    · cases hj
    rcases J with _ | ⟨c, J⟩
    · simp [PositionOf] at h1
    simp only [PositionOf, List.map_cons, List.zipWith_cons_cons, List.cons.injEq] at h1 h2
    cases hi with
    | cons ha hi =>
      cases hj with
      | cons hb hj =>
        rw [ih (fun l hl => hL l (List.mem_cons_of_mem _ hl)) i j J hi hj h1.2 h2.2]
        congr 1
        have e := h1.1.symm.trans h2.1
        rw [List.getElem?_eq_getElem ha, List.getElem?_eq_getElem hb, Option.some.injEq] at e
        exact (List.Nodup.getElem_inj_iff (hL l List.mem_cons_self)).1 e

theorem selectedAll_lengths (shape : List Nat) (ss : List Sl) :
    (selectedAll shape ss).map List.length = List.zipWith (fun n s => (selected n s.start s.stop s.step).length) shape ss := by
  unfold selectedAll; rw [List.map_zipWith]

theorem selectedAll_nodup (shape : List Nat) (ss : List Sl) : ∀ l ∈ selectedAll shape ss, l.Nodup := by
  intro l hl
  unfold selectedAll at hl
  rw [← List.map_uncurry_zip_eq_zipWith] at hl
  obtain ⟨p, -, rfl⟩ := List.mem_map.1 hl
  exact selected_nodup _ _ _ _

/-- The selection of one slice for each axis, with positions. -/
theorem takeAll_positions (shape : List Nat) (ss : List Sl) (hl : ss.length = shape.length) (hstep : ∀ s ∈ ss, s.step ≠ some 0) :
    ∃ m, takeAll shape (ss.map Ix.sl) = .ok ((selectedAll shape ss).map List.length, m) ∧
      (∀ idx, InShape idx ((selectedAll shape ss).map List.length) → PositionOf (selectedAll shape ss) idx (m idx)) ∧
      ∀ i j, InShape i ((selectedAll shape ss).map List.length) → InShape j ((selectedAll shape ss).map List.length) → m i = m j → i = j := by
  obtain ⟨m, h1, h2⟩ := takeAll_slices shape ss hl hstep
  rw [← selectedAll_lengths] at h1 h2
  refine ⟨m, h1, h2, fun i j hi hj e => ?_⟩
  exact position_inj _ (selectedAll_nodup shape ss) i j (m i) hi hj (h2 i hi) (by rw [e]; exact h2 j hj)

/-- **C81** (`axis=None`, array). `sliceput(a, b, slices)` writes the entries of `b`, broadcast as numpy does, to the selected positions in order, and leaves all others as they were. It raises ValueError
exactly if `b` does not fit. -/
theorem C81_array (a b : Arr α) (ss : List Sl) (hl : ss.length = a.shape.length) (hstep : ∀ s ∈ ss, s.step ≠ some 0) :
    (¬ Broadcastable b.shape ((selectedAll a.shape ss).map List.length) → sliceputArr a b (ss.map Ix.sl) = .error .value) ∧
    (Broadcastable b.shape ((selectedAll a.shape ss).map List.length) → ∃ r, sliceputArr a b (ss.map Ix.sl) = .ok r ∧ r.shape = a.shape ∧
      (∀ idx J bi, InShape idx ((selectedAll a.shape ss).map List.length) → PositionOf (selectedAll a.shape ss) idx J → BroadcastIdx b.shape idx bi → r.get J = b.get bi) ∧
      ∀ J, (¬ ∃ idx, InShape idx ((selectedAll a.shape ss).map List.length) ∧ PositionOf (selectedAll a.shape ss) idx J) → r.get J = a.get J) := by
  obtain ⟨m, h1, h2, h3⟩ := takeAll_positions a.shape ss hl hstep
  unfold sliceputArr
  rw [h1]
  simp only
  have hok : bcastOk b.shape.reverse ((selectedAll a.shape ss).map List.length).reverse = true ↔ Broadcastable b.shape ((selectedAll a.shape ss).map List.length) := bcastOk_iff _ _
  refine ⟨fun h => by rw [if_neg (fun e => h (hok.1 e))], fun h => ?_⟩
  rw [if_pos (hok.2 h)]
  have hnd : ((allIdx ((selectedAll a.shape ss).map List.length)).map m).Nodup := by
    rw [allIdx_eq]
    refine List.Nodup.map_on (fun i hi j hj e => ?_) (nodup_indexTuples _)
    exact h3 i j ((mem_indexTuples _ _).1 hi) ((mem_indexTuples _ _).1 hj) e
  obtain ⟨w1, w2⟩ := foldl_writes m (fun idx => b.get (bcastIdx b.shape.reverse idx.reverse).reverse) _ hnd a.get
  refine ⟨_, rfl, rfl, fun idx J bi hi hJ hb => ?_, fun J hJ => ?_⟩
  · have e : J = m idx := by
      have := hJ.trans (h2 idx hi).symm
      exact (List.map_injective_iff.2 (Option.some_injective _)) this
    subst e
    refine (w1 idx (by rw [allIdx_eq]; exact (mem_indexTuples _ _).2 hi)).trans ?_
    congr 1
    rw [bcastIdx_eq b.shape.reverse idx.reverse bi.reverse (by simp [hb.1]) ?_ hb.2, List.reverse_reverse]
    intro k d hk
    rcases h k d hk with h | h
    · exact .inl h
    · right
      have := (List.getElem?_eq_some_iff.1 h).1
      rw [List.length_reverse] at this ⊢
      rw [inShape_length hi]; exact this
  · apply w2
    intro hm
    obtain ⟨idx, hi, rfl⟩ := List.mem_map.1 hm
    rw [allIdx_eq] at hi
    exact hJ ⟨idx, (mem_indexTuples _ _).1 hi, h2 idx ((mem_indexTuples _ _).1 hi)⟩

/-- **C81** (`sliceput`, then `slicetake`). With an array of the shape of the selection, what was put is what is taken. -/
theorem C81_roundtrip (a b : Arr α) (ss : List Sl) (hl : ss.length = a.shape.length) (hstep : ∀ s ∈ ss, s.step ≠ some 0)
    (hb : b.shape = (selectedAll a.shape ss).map List.length) :
    ∃ r t, sliceputArr a b (ss.map Ix.sl) = .ok r ∧ slicetakeAll r (ss.map Ix.sl) = .ok t ∧ t.shape = b.shape ∧ ∀ idx, InShape idx b.shape → t.get idx = b.get idx := by
  obtain ⟨r, e, hs, h1, -⟩ := (C81_array a b ss hl hstep).2 (by rw [hb]; intro k d h; exact .inr h)
  obtain ⟨m, t1, t2, -⟩ := takeAll_positions a.shape ss hl hstep
  refine ⟨r, ⟨(selectedAll a.shape ss).map List.length, fun idx => r.get (m idx)⟩, e, ?_, ?_, ?_⟩
  · unfold slicetakeAll Arr.index
    rw [hs, t1]
  · exact hb.symm
  · intro idx hi
    rw [hb] at hi
    refine h1 idx (m idx) idx hi (t2 idx hi) ⟨by rw [hb, inShape_length hi], fun k d hk => ?_⟩
    by_cases hd : d = 1
    · refine .inl ⟨hd, ?_⟩
      subst hd
      have hr : InShape idx.reverse ((selectedAll a.shape ss).map List.length).reverse := List.rel_reverse hi
      rw [hb] at hk
      have hk' := List.getElem?_eq_some_iff.1 hk
      have hl' := inShape_length hr
      have : idx.reverse[k]'(by rw [hl']; exact hk'.1) < 1 := by
        have := (List.forall₂_iff_get.1 hr).2 k (by rw [hl']; exact hk'.1) hk'.1
        simp only [List.get_eq_getElem] at this
        rw [hk'.2] at this
        exact this
      rw [List.getElem?_eq_getElem (by rw [hl']; exact hk'.1)]
      congr 1
      omega
    · exact .inr ⟨hd, rfl⟩

/-! ### Views and copies -/

theorem read_write (h : Mem α) (r v : Ref) (idx J : List Nat) (x : α) : ((h.write v idx x).read r).get J = if r.obj = v.obj ∧ r.map J = v.map idx then x else (h.read r).get J := by
  unfold Mem.read Mem.write
  by_cases ho : r.obj = v.obj
  · simp [ho]
  · simp [ho]

/-- **C24** (default: a view). The result shows the selected entries of `a`; writing an entry of the result changes exactly the entry of `a` at its position; and writing an entry of `a` is seen in the
result exactly at the entry which has that position. The result is again one to one, so this also holds for slices of slices. -/
theorem C24_view (h : Mem α) (r : Ref) (hr : OneToOne r) (ss : List Sl) (hl : ss.length = r.shape.length) (hstep : ∀ s ∈ ss, s.step ≠ some 0) :
    ∃ v, slicetakeRef h r (ss.map Ix.sl) false = .ok (v, h) ∧ v.shape = (selectedAll r.shape ss).map List.length ∧ OneToOne v ∧
      ∀ idx J, InShape idx v.shape → PositionOf (selectedAll r.shape ss) idx J →
        (h.read v).get idx = (h.read r).get J ∧
        (∀ x, ((h.write v idx x).read r).get J = x ∧ ∀ J', InShape J' r.shape → J' ≠ J → ((h.write v idx x).read r).get J' = (h.read r).get J') ∧
        (∀ x, ((h.write r J x).read v).get idx = x ∧ ∀ i', InShape i' v.shape → i' ≠ idx → ((h.write r J x).read v).get i' = (h.read v).get i') := by
  obtain ⟨m, t1, t2, t3⟩ := takeAll_positions r.shape ss hl hstep
  have hin : ∀ idx, InShape idx ((selectedAll r.shape ss).map List.length) → InShape (m idx) r.shape := by
    intro idx hi
    have h1 := (zip_get_iff (selectedAll r.shape ss) (m idx)).1 ⟨idx, hi, t2 idx hi⟩
    have h2 : List.Forall₂ (fun (l : List Nat) n => ∀ j ∈ l, j < n) (selectedAll r.shape ss) r.shape := by
      unfold selectedAll
      clear h1 t2 t1 t3 hi hr
      generalize r.shape = sh at hl
      induction sh generalizing ss with
      | nil => simp
      | cons n sh ih =>
        rcases ss with _ | ⟨s, ss⟩
        · simp at hl
        refine .cons ?_ (ih ss (fun t ht => hstep t (List.mem_cons_of_mem _ ht)) (by simpa using hl))
        intro j hj
        unfold selected at hj
        simp only at hj
        split at hj
        · exact List.mem_range.1 (List.mem_filter.1 hj).1
        · exact List.mem_range.1 (List.mem_reverse.1 (List.mem_filter.1 hj).1)
    clear t1 t2 t3 hi hr hl
    generalize m idx = J at h1
    generalize selectedAll r.shape ss = L at h1 h2
    generalize r.shape = sh at h2
    induction h2 generalizing J with
    | nil => cases h1; exact .nil
    | cons hx _ ih =>
      cases h1 with
      | cons hj hJ => exact .cons (hx _ hj) (ih _ hJ)
  refine ⟨⟨r.obj, (selectedAll r.shape ss).map List.length, fun idx => r.map (m idx)⟩, ?_, rfl, ?_, ?_⟩
  · unfold slicetakeRef
    rw [t1]; rfl
  · intro i j hi hj e
    exact t3 i j hi hj (hr _ _ (hin i hi) (hin j hj) e)
  · intro idx J hi hJ
    have e : J = m idx := by
      have := hJ.trans (t2 idx hi).symm
      exact (List.map_injective_iff.2 (Option.some_injective _)) this
    subst e
    refine ⟨rfl, fun x => ⟨?_, fun J' hJ' hne => ?_⟩, fun x => ⟨?_, fun i' hi' hne => ?_⟩⟩
    · rw [read_write, if_pos ⟨rfl, rfl⟩]
    · rw [read_write, if_neg]
      rintro ⟨-, e⟩
      exact hne (hr _ _ hJ' (hin idx hi) e)
    · rw [read_write, if_pos ⟨rfl, rfl⟩]
    · rw [read_write, if_neg]
      rintro ⟨-, e⟩
      exact hne (t3 _ _ hi' hi (hr _ _ (hin i' hi') (hin idx hi) e))

/-- **C24** (`copy=True`). The result has the same values, and neither sees what is written to the other one. -/
theorem C24_copy (h : Mem α) (r : Ref) (ho : r.obj < h.next) (ss : List Sl) (hl : ss.length = r.shape.length) (hstep : ∀ s ∈ ss, s.step ≠ some 0) :
    ∃ v h', slicetakeRef h r (ss.map Ix.sl) true = .ok (v, h') ∧ v.shape = (selectedAll r.shape ss).map List.length ∧ OneToOne v ∧ h'.read r = h.read r ∧
      (∀ idx J, InShape idx v.shape → PositionOf (selectedAll r.shape ss) idx J → (h'.read v).get idx = (h.read r).get J) ∧
      ∀ idx x, (h'.write v idx x).read r = h.read r ∧ (h'.write r idx x).read v = h'.read v := by
  obtain ⟨m, t1, t2, t3⟩ := takeAll_positions r.shape ss hl hstep
  have hne : r.obj ≠ h.next := by omega
  refine ⟨⟨h.next, (selectedAll r.shape ss).map List.length, id⟩,
    ⟨h.next + 1, fun o => if o = h.next then h.read ⟨r.obj, (selectedAll r.shape ss).map List.length, fun idx => r.map (m idx)⟩ else h.arr o⟩, ?_, rfl, fun i j _ _ e => e, ?_, ?_, ?_⟩
  · unfold slicetakeRef
    rw [t1]; rfl
  · simp [Mem.read, hne]
  · intro idx J hi hJ
    have e : J = m idx := by
      have := hJ.trans (t2 idx hi).symm
      exact (List.map_injective_iff.2 (Option.some_injective _)) this
    subst e
    simp [Mem.read]
  · intro idx x
    simp [Mem.read, Mem.write, hne, hne.symm]

theorem replicate_set_map (n ax : Nat) (s : Sl) : (List.replicate n Ix.full).set ax (.sl s) = ((List.replicate n ({} : Sl)).set ax s).map Ix.sl := by
  rw [List.map_set, List.map_replicate]; rfl

/-- **C24** (views, `axis=<int>`): one slice for one axis is the tuple with full slices for the others, so `C24_view` and `C24_copy` are about it, too. -/
theorem C24_view_axis (h : Mem α) (r : Ref) (s : Sl) (axis : Int) (ax : Nat) (hax : IsAxis r.shape.length axis ax) (copy : Bool) :
    slicetakeRefAxis h r (.sl s) axis copy = slicetakeRef h r (((List.replicate r.shape.length ({} : Sl)).set ax s).map Ix.sl) copy := by
  unfold slicetakeRefAxis listSet
  rw [List.length_replicate, (pyIndex_some _ _ _).2 hax]
  simp only [replicate_set_map]

/-! ### Cases -/

/-- `a[:, 1:3] = b` with `a` of shape (2, 6) and `b` of shape (2,) or (2, 1). -/
example : Broadcastable [2] ((selectedAll [2, 6] [⟨none, none, none⟩, ⟨some 1, some 3, none⟩]).map List.length) :=
  (bcastOk_iff _ _).1 (by decide)
example : Broadcastable [2, 1] ((selectedAll [2, 6] [⟨none, none, none⟩, ⟨some 1, some 3, none⟩]).map List.length) :=
  (bcastOk_iff _ _).1 (by decide)
example : ¬ Broadcastable [3] ((selectedAll [2, 6] [⟨none, none, none⟩, ⟨some 1, some 3, none⟩]).map List.length) :=
  fun h => absurd ((bcastOk_iff _ _).2 h) (by decide)
example : PositionOf (selectedAll [2, 6] [⟨none, none, none⟩, ⟨some 1, some 3, none⟩]) [1, 0] [1, 1] := by unfold PositionOf; decide
example : BroadcastIdx [2, 1] [1, 0] [1, 0] ∧ BroadcastIdx [2] [1, 0] [0] := by
  refine ⟨⟨rfl, fun k d h => ?_⟩, ⟨rfl, fun k d h => ?_⟩⟩
  · match k with
    | 0 => simp at h; subst h; simp
    | 1 => simp at h; subst h; simp
    | k + 2 => simp at h
  · match k with
    | 0 => simp at h; subst h; simp
    | k + 1 => simp at h
example : (sliceputArr (⟨[2, 6], fun idx => idx.foldl (fun x i => 6 * x + i) 0⟩ : Arr Nat) ⟨[2], fun idx => 100 + idx.headD 0⟩
    [.sl ⟨none, none, none⟩, .sl ⟨some 1, some 3, none⟩]).toOption.map (fun r => (allIdx [2, 6]).map r.get) = some [0, 100, 101, 3, 4, 5, 6, 100, 101, 9, 10, 11] := by decide
/-- A whole array is one to one, and its number is below `next`. -/
example : OneToOne ⟨0, [2, 6], id⟩ ∧ (⟨0, [2, 6], id⟩ : Ref).obj < (⟨1, fun _ => ⟨[2, 6], fun _ => 7⟩⟩ : Mem Nat).next := ⟨fun _ _ _ _ e => e, by decide⟩

end Pwtools.Nd
