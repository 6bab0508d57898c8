import Verif.Model.Compare
import Verif.Spec.Compare
import Verif.Props.NdArray
/-!
# C148: comparison of nested values
-/
namespace Pwtools.Compare
open Nd Spec

variable {R : Type}

theorem tuples_eq (s : List Nat) : tuples s = indexTuples s := by
  induction s with
  | nil => rfl
  | cons n s ih => simp only [tuples, indexTuples, ih]

theorem bshape_self (s : List Nat) : bshape s s = some s := by
  induction s with
  | nil => rfl
  | cons n s ih => simp [bshape, ih]

theorem bidx_self (s idx : List Nat) (h : InShape idx s) : bidx s idx = idx := by
  have hl : idx.length = s.length := h.length_eq
  unfold bidx
  rw [hl, Nat.sub_self, List.drop_zero]
  clear hl
  induction h with
  | nil => rfl
  | cons hlt _ ih =>
    rw [List.zipWith_cons_cons, ih]
    split
    · congr 1; omega
    · rfl

theorem bAll_same (f : R → R → Bool) (a b : Arr R) (h : a.shape = b.shape) :
    ∃ r, bAll f a b = some r ∧ (r = true ↔ ∀ idx, InShape idx a.shape → f (a.get idx) (b.get idx) = true) := by
  refine ⟨_, by simp only [bAll, Arr.ndim, h, max_self, bpad, Nat.sub_self, List.replicate_zero, List.nil_append,
    bshape_self, Option.map_some]; rfl, ?_⟩
  rw [tuples_eq, List.all_eq_true]
  simp only [mem_indexTuples, h]
  constructor
  · intro H idx hi
    have := H idx hi
    rwa [bidx_self _ _ hi] at this
  · intro H idx hi
    rw [bidx_self _ _ hi]
    exact H idx hi

theorem bAll_scalar (f : R → R → Bool) (x y : R) :
    bAll f ⟨[], fun _ => x⟩ ⟨[], fun _ => y⟩ = some (f x y) := by
  simp [bAll, Arr.ndim, bpad, bshape, tuples]

theorem cmpValue_leaf (leaf : Val R → Val R → Res) (v w : Val R) (h : ty v ≠ .dictT) :
    cmpValue leaf v w = leaf v w := by
  cases v <;> first | rfl | exact absurd rfl h

theorem sameKeys_iff (l1 l2 : List (Text × Val R)) (h1 : (l1.map Prod.fst).Nodup) (h2 : (l2.map Prod.fst).Nodup) :
    sameKeys l1 l2 = true ↔ ∀ k, k ∈ l1.map Prod.fst ↔ k ∈ l2.map Prod.fst := by
  simp only [sameKeys, Bool.and_eq_true, decide_eq_true_eq, List.all_eq_true, List.contains_iff_mem]
  constructor
  · rintro ⟨⟨_, ha⟩, hb⟩ k
    exact ⟨ha k, hb k⟩
  · intro h
    refine ⟨⟨?_, fun k => (h k).1⟩, fun k => (h k).2⟩
    have := ((List.perm_ext_iff_of_nodup h1 h2).2 h).length_eq
    simpa using this

theorem lookup_of_mem (l : List (Text × Val R)) (h : (l.map Prod.fst).Nodup) (k : Text) (v : Val R) (hm : (k, v) ∈ l) :
    l.lookup k = some v := by
  induction l with
  | nil => simp at hm
  | cons p l ih =>
    obtain ⟨k', v'⟩ := p
    rw [List.map_cons, List.nodup_cons] at h
    rcases List.mem_cons.1 hm with he | hm'
    · cases he; simp
    · have hne : k ≠ k' := by
        rintro rfl
        exact h.1 (List.mem_map.2 ⟨_, hm', rfl⟩)
      rw [List.lookup_cons, beq_false_of_ne hne]
      exact ih h.2 hm'

theorem mem_of_lookup (l : List (Text × Val R)) (k : Text) (v : Val R) (h : l.lookup k = some v) : (k, v) ∈ l := by
  induction l with
  | nil => simp at h
  | cons p l ih =>
    obtain ⟨k', v'⟩ := p
    rw [List.lookup_cons] at h
    by_cases he : k = k'
    · subst he; simp at h; subst h; simp
    · rw [beq_false_of_ne he] at h
      exact List.mem_cons_of_mem _ (ih h)

theorem cmpItems_iff (leaf : Val R → Val R → Res) (l1 l2 : List (Text × Val R)) :
    cmpItems leaf l1 l2 = .ok true ↔
      ∀ k v, (k, v) ∈ l1 → ∃ w, l2.lookup k = some w ∧ cmpValue leaf v w = .ok true := by
  induction l1 with
  | nil => simp [cmpItems]
  | cons p l1 ih =>
    obtain ⟨k, v⟩ := p
    rw [cmpItems]
    constructor
    · intro h
      rcases hl : l2.lookup k with _ | w
      · rw [hl] at h; cases h
      rw [hl] at h
      simp only at h
      rcases hc : cmpValue leaf v w with e | b
      · rw [hc] at h; cases h
      rw [hc] at h
      cases b with
      | false => cases h
      | true =>
        intro k' v' hm
        rcases List.mem_cons.1 hm with he | hm'
        · cases he; exact ⟨w, hl, hc⟩
        · exact ih.1 h k' v' hm'
    · intro h
      obtain ⟨w, hl, hc⟩ := h k v (by simp)
      rw [hl]
      simp only [hc]
      exact ih.2 (fun k' v' hm => h k' v' (List.mem_cons_of_mem _ hm))

theorem keysOnce_dict (l : List (Text × Val R)) (h : KeysOnce (.dict l)) :
    (l.map Prod.fst).Nodup ∧ ∀ k v, (k, v) ∈ l → KeysOnce v := by
  cases h with
  | leaf _ h => exact absurd rfl h
  | dict _ h1 h2 => exact ⟨h1, h2⟩

theorem cmp_sound (leaf : Val R → Val R → Res) (P : Val R → Val R → Prop) (v w : Val R)
    (hv : KeysOnce v) (hw : KeysOnce w)
    (hleaf : ∀ a b, Paired v w a b → ty a ≠ .dictT → leaf a b = .ok true → P a b)
    (h : cmpValue leaf v w = .ok true) : SameTree P v w := by
  induction hv generalizing w with
  | leaf v hn =>
    rw [cmpValue_leaf leaf v w hn] at h
    exact .leaf v w hn (hleaf v w (.here v w) hn h)
  | dict l1 hd1 _ ih =>
    rcases w with _ | _ | _ | _ | _ | l2
    case dict =>
      obtain ⟨hd2, hw2⟩ := keysOnce_dict l2 hw
      rw [cmpValue] at h
      by_cases hs : sameKeys l1 l2 = true
      · simp only [hs, if_true] at h
        refine .dict l1 l2 ((sameKeys_iff l1 l2 hd1 hd2).1 hs) ?_
        intro k v w hm1 hm2
        obtain ⟨w', hl, hc⟩ := (cmpItems_iff leaf l1 l2).1 h k v hm1
        rw [lookup_of_mem l2 hd2 k w hm2] at hl
        cases hl
        exact ih k v hm1 w (hw2 k w hm2) (fun a b hp => hleaf a b (.item l1 l2 k v w a b hm1 hm2 hp)) hc
      · simp [hs] at h
    all_goals (simp [cmpValue] at h)

theorem cmp_complete (leaf : Val R → Val R → Res) (P : Val R → Val R → Prop) (v w : Val R)
    (hv : KeysOnce v) (hw : KeysOnce w) (hleaf : ∀ a b, ty a ≠ .dictT → P a b → leaf a b = .ok true)
    (h : SameTree P v w) : cmpValue leaf v w = .ok true := by
  induction h with
  | leaf v w hn hp => rw [cmpValue_leaf leaf v w hn]; exact hleaf v w hn hp
  | dict l1 l2 hk _ ih =>
    obtain ⟨hd1, hv1⟩ := keysOnce_dict l1 hv
    obtain ⟨hd2, hw2⟩ := keysOnce_dict l2 hw
    rw [cmpValue]
    simp only [(sameKeys_iff l1 l2 hd1 hd2).2 hk, if_true]
    rw [cmpItems_iff]
    intro k v hm
    have : k ∈ l2.map Prod.fst := (hk k).1 (List.mem_map.2 ⟨_, hm, rfl⟩)
    obtain ⟨⟨k', w⟩, hm2, rfl⟩ := List.mem_map.1 this
    exact ⟨w, lookup_of_mem l2 hd2 _ w hm2, ih _ v w hm hm2 (hv1 _ v hm) (hw2 _ w hm2)⟩

/-- The comparison of two values in the first call. -/
def topCmp (leaf leaf0 : Val R → Val R → Res) (v w : Val R) : Res :=
  if ty v = .dictT then cmpValue leaf0 v w else leaf v w

theorem topLoop_false (leaf leaf0 : Val R → Val R → Res) (strict : Bool) (l1 l2 : List (Text × Val R)) (ks : List Text) :
    topLoop leaf leaf0 strict l1 l2 ks false ≠ .ok true := by
  induction ks with
  | nil => simp [topLoop]
  | cons k ks ih =>
    rw [topLoop]
    split
    · split
      · simp
      · simpa using ih
    · simp

theorem topLoop_iff (leaf leaf0 : Val R → Val R → Res) (strict : Bool) (l1 l2 : List (Text × Val R)) (ks : List Text) :
    topLoop leaf leaf0 strict l1 l2 ks true = .ok true ↔
      ∀ k ∈ ks, ∃ v w, l1.lookup k = some v ∧ l2.lookup k = some w ∧ (strict = true → ty v = ty w) ∧
        topCmp leaf leaf0 v w = .ok true := by
  induction ks with
  | nil => simp [topLoop]
  | cons k ks ih =>
    rw [topLoop, List.forall_mem_cons, ← ih]
    rcases hl1 : l1.lookup k with _ | v
    · simp
    rcases hl2 : l2.lookup k with _ | w
    · simp
    by_cases hs : strict = true ∧ ty v ≠ ty w
    · simp only [if_pos hs]
      constructor
      · intro h; simp at h
      · rintro ⟨⟨v', w', h1, h2, h3, _⟩, _⟩
        cases h1; cases h2
        exact absurd (h3 hs.1) hs.2
    · simp only [if_neg hs, if_true]
      have hs' : strict = true → ty v = ty w := by
        intro h; by_contra hne; exact hs ⟨h, hne⟩
      rcases hc : topCmp leaf leaf0 v w with e | b
      · have hc' := hc
        unfold topCmp at hc'
        rw [hc']
        constructor
        · intro h; simp at h
        · rintro ⟨⟨v', w', h1, h2, _, h4⟩, _⟩
          cases h1; cases h2
          rw [hc] at h4; cases h4
      · have hc' := hc
        unfold topCmp at hc'
        rw [hc']
        cases b with
        | false =>
          simp only
          constructor
          · intro h; exact absurd h (topLoop_false _ _ _ _ _ _)
          · rintro ⟨⟨v', w', h1, h2, _, h4⟩, _⟩
            cases h1; cases h2
            rw [hc] at h4; cases h4
        | true =>
          simp only
          constructor
          · intro h; exact ⟨⟨v, w, rfl, rfl, hs', hc⟩, h⟩
          · rintro ⟨_, h⟩; exact h

theorem topCmp_same (leaf : Val R → Val R → Res) (v w : Val R) : topCmp leaf leaf v w = cmpValue leaf v w := by
  unfold topCmp
  split
  · rfl
  · rename_i h; rw [cmpValue_leaf leaf v w h]

/-- The first call without keys, `strict` and keywords is the same as the recursive call. -/
theorem dictCompare_plain (leaf : Val R → Val R → Res) (l1 l2 : List (Text × Val R)) (h1 : (l1.map Prod.fst).Nodup) :
    (dictCompare leaf leaf none false l1 l2 = .ok true ↔ cmpValue leaf (.dict l1) (.dict l2) = .ok true) := by
  simp only [dictCompare, cmpValue]
  by_cases hs : sameKeys l1 l2 = true
  · simp only [hs, if_true]
    rw [cmpItems_iff, topLoop_iff]
    simp only [topCmp_same]
    constructor
    · intro h k v hm
      obtain ⟨v', w, h1', h2, _, h4⟩ := h k (List.mem_map.2 ⟨_, hm, rfl⟩)
      rw [lookup_of_mem l1 h1 k v hm] at h1'
      cases h1'
      exact ⟨w, h2, h4⟩
    · intro h k hk
      obtain ⟨⟨k', v⟩, hm, rfl⟩ := List.mem_map.1 hk
      obtain ⟨w, h2, h4⟩ := h _ v hm
      exact ⟨v, w, lookup_of_mem l1 h1 _ v hm, h2, by simp, h4⟩
  · simp [hs]

/-! ### Leaves -/

variable [Field R] [LinearOrder R]

theorem eqLeaf_complete [IsStrictOrderedRing R] (v w : Val R) (h : EqLeaf v w) : noDictEqual v w = .ok true := by
  rcases h with ⟨rfl, rfl⟩ | ⟨s, rfl, rfl⟩ | ⟨x, hv, hw⟩ | ⟨dt, a, b, rfl, rfl, hs, he⟩
  · rfl
  · simp [noDictEqual, defaultEqual, scalarEq]
  · cases v <;> simp [numberOf] at hv <;> cases w <;> simp [numberOf] at hw <;>
      simp [noDictEqual, defaultEqual, scalarEq, hv, hw]
    · have : ((_ : Int) : R) = ((_ : Int) : R) := hv.trans hw.symm
      exact_mod_cast this
  · obtain ⟨r, hr, hi⟩ := bAll_same (fun x y => decide (x = y)) a b hs
    have : r = true := hi.2 (fun idx h => by simpa using he idx h)
    subst this
    simp [noDictEqual, arrayEqual, toArr, hr, Arr.ndim, hs]

theorem eqLeaf_sound (v w : Val R) (hn : ty v ≠ .dictT)
    (hf : ∀ dt b, w = .arr dt b → ∃ dt' a', v = .arr dt' a' ∧ a'.shape = b.shape)
    (h : noDictEqual v w = .ok true) : EqLeaf v w := by
  cases v with
  | dict l => exact absurd rfl hn
  | arr dt a =>
    cases w with
    | arr dt' b =>
      obtain ⟨_, _, he, hs⟩ := hf dt' b rfl
      cases he
      obtain ⟨r, hr, hi⟩ := bAll_same (fun x y => decide (x = y)) a b hs
      simp only [noDictEqual, arrayEqual, toArr, hr] at h
      cases r with
      | false => cases h
      | true =>
        simp only [Except.ok.injEq, decide_eq_true_eq] at h
        obtain ⟨_, rfl⟩ := h
        exact .inr (.inr (.inr ⟨dt, a, b, rfl, rfl, hs, fun idx hx => by simpa using hi.1 rfl idx hx⟩))
    | none | str _ | dict _ =>
      simp only [noDictEqual, arrayEqual, toArr] at h
      split at h <;> cases h
    | int _ | float _ =>
      simp only [noDictEqual, arrayEqual, toArr] at h
      split at h <;> cases h
  | none =>
    cases w with
    | arr dt b => obtain ⟨_, _, he, _⟩ := hf dt b rfl; cases he
    | none => exact .inl ⟨rfl, rfl⟩
    | int _ | float _ | str _ | dict _ => simp [noDictEqual, defaultEqual, scalarEq] at h
  | str s =>
    cases w with
    | arr dt b => obtain ⟨_, _, he, _⟩ := hf dt b rfl; cases he
    | str t =>
      simp [noDictEqual, defaultEqual, scalarEq] at h
      subst h
      exact .inr (.inl ⟨s, rfl, rfl⟩)
    | int _ | float _ | none | dict _ => simp [noDictEqual, defaultEqual, scalarEq] at h
  | int n =>
    cases w with
    | arr dt b => obtain ⟨_, _, he, _⟩ := hf dt b rfl; cases he
    | int m =>
      simp [noDictEqual, defaultEqual, scalarEq] at h
      subst h
      exact .inr (.inr (.inl ⟨_, rfl, rfl⟩))
    | float y =>
      simp [noDictEqual, defaultEqual, scalarEq] at h
      subst h
      exact .inr (.inr (.inl ⟨_, rfl, rfl⟩))
    | str _ | none | dict _ => simp [noDictEqual, defaultEqual, scalarEq] at h
  | float x =>
    cases w with
    | arr dt b => obtain ⟨_, _, he, _⟩ := hf dt b rfl; cases he
    | int m =>
      simp [noDictEqual, defaultEqual, scalarEq] at h
      subst h
      exact .inr (.inr (.inl ⟨_, rfl, rfl⟩))
    | float y =>
      simp [noDictEqual, defaultEqual, scalarEq] at h
      subst h
      exact .inr (.inr (.inl ⟨_, rfl, rfl⟩))
    | str _ | none | dict _ => simp [noDictEqual, defaultEqual, scalarEq] at h

theorem closeLeaf_num (t : Tol R) (v : Val R) (x : R) (hx : numberOf v = some x) :
    toArr v = some ⟨[], fun _ => x⟩ := by
  cases v <;> simp [numberOf] at hx <;> subst hx <;> rfl

theorem closeLeaf_complete (dflt : Tol R) (v w : Val R) (h : CloseLeaf dflt v w) :
    noDictAlmost dflt none v w = .ok true := by
  rcases h with ⟨rfl, rfl⟩ | ⟨s, rfl, rfl⟩ | ⟨x, y, hv, hw, hc⟩ | ⟨dt, a, b, rfl, rfl, hs, he⟩
  · rfl
  · simp [noDictAlmost, defaultEqual, scalarEq]
  · have ha := closeLeaf_num dflt w y hw
    have key : floatAlmost dflt x w = .ok true := by
      simp only [floatAlmost, ha, bAll_scalar]
      simp only [close, Except.ok.injEq, decide_eq_true_eq]
      exact hc
    cases v <;> simp [numberOf] at hv <;> subst hv <;> exact key
  · obtain ⟨r, hr, hi⟩ := bAll_same (close dflt) a b hs
    have : r = true := hi.2 (fun idx h => by simpa [close, Within] using he idx h)
    subst this
    simp [noDictAlmost, arrayAlmost, toArr, hr, Arr.ndim, hs]

theorem closeLeaf_sound (dflt : Tol R) (v w : Val R) (hn : ty v ≠ .dictT)
    (hf : ∀ dt b, w = .arr dt b → ∃ dt' a', v = .arr dt' a' ∧ a'.shape = b.shape)
    (h : noDictAlmost dflt none v w = .ok true) : CloseLeaf dflt v w := by
  have num : ∀ x, numberOf v = some x → floatAlmost dflt x w = .ok true → CloseLeaf dflt v w := by
    intro x hx hfl
    have hy : ∃ y, numberOf w = some y := by
      cases w with
      | arr dt b =>
        obtain ⟨_, _, he, _⟩ := hf dt b rfl
        subst he; simp [numberOf] at hx
      | int m => exact ⟨_, rfl⟩
      | float y => exact ⟨_, rfl⟩
      | none | str _ | dict _ => simp [floatAlmost, toArr] at hfl
    obtain ⟨y, hy⟩ := hy
    simp only [floatAlmost, closeLeaf_num dflt w y hy, bAll_scalar, close, Except.ok.injEq, decide_eq_true_eq] at hfl
    exact .inr (.inr (.inl ⟨x, y, hx, hy, hfl⟩))
  cases v with
  | dict l => exact absurd rfl hn
  | int n => exact num _ rfl h
  | float x => exact num _ rfl h
  | arr dt a =>
    cases w with
    | arr dt' b =>
      obtain ⟨_, _, he, hs⟩ := hf dt' b rfl
      cases he
      obtain ⟨r, hr, hi⟩ := bAll_same (close dflt) a b hs
      simp only [noDictAlmost, arrayAlmost, toArr, Option.getD_none, hr] at h
      cases r with
      | false => cases h
      | true =>
        simp only [Except.ok.injEq, decide_eq_true_eq] at h
        obtain ⟨_, rfl⟩ := h
        exact .inr (.inr (.inr ⟨dt, a, b, rfl, rfl, hs, fun idx hx => by simpa [close, Within] using hi.1 rfl idx hx⟩))
    | none | str _ | dict _ => simp [noDictAlmost, arrayAlmost, toArr] at h
    | int _ | float _ =>
      simp only [noDictAlmost, arrayAlmost, toArr] at h
      split at h <;> cases h
  | none =>
    cases w with
    | arr dt b => obtain ⟨_, _, he, _⟩ := hf dt b rfl; cases he
    | none => exact .inl ⟨rfl, rfl⟩
    | int _ | float _ | str _ | dict _ => simp [noDictAlmost, defaultEqual, scalarEq] at h
  | str s =>
    cases w with
    | arr dt b => obtain ⟨_, _, he, _⟩ := hf dt b rfl; cases he
    | str t =>
      simp [noDictAlmost, defaultEqual, scalarEq] at h
      subst h
      exact .inr (.inl ⟨s, rfl, rfl⟩)
    | int _ | float _ | none | dict _ => simp [noDictAlmost, defaultEqual, scalarEq] at h

/-! ### The comparison functions -/

theorem allEqual_cmp (v w : Val R) (hv : KeysOnce v) :
    allEqual false v w = .ok true ↔ cmpValue noDictEqual v w = .ok true := by
  cases v with
  | dict l1 =>
    cases w with
    | dict l2 =>
      rw [← dictCompare_plain noDictEqual l1 l2 (keysOnce_dict l1 hv).1]
      simp [allEqual, dictEqual]
    | none | int _ | float _ | str _ | arr _ _ => simp [allEqual, cmpValue]
  | none | int _ | float _ | str _ | arr _ _ =>
    rw [cmpValue_leaf _ _ _ (by simp [ty])]
    simp [allEqual]

theorem allAlmost_cmp (dflt : Tol R) (v w : Val R) (hv : KeysOnce v) :
    allAlmost dflt none false v w = .ok true ↔ cmpValue (noDictAlmost dflt none) v w = .ok true := by
  cases v with
  | dict l1 =>
    cases w with
    | dict l2 =>
      rw [← dictCompare_plain (noDictAlmost dflt none) l1 l2 (keysOnce_dict l1 hv).1]
      simp [allAlmost, dictAlmost]
    | none | int _ | float _ | str _ | arr _ _ => simp [allAlmost, cmpValue]
  | none | int _ | float _ | str _ | arr _ _ =>
    rw [cmpValue_leaf _ _ _ (by simp [ty])]
    simp [allAlmost]

/-- **C148** (no false alarm). Nested values with the same keys everywhere and equal values at
every place compare as equal; with `strict=True` too if both have the same type. -/
theorem C148_equal_complete [IsStrictOrderedRing R] (v w : Val R) (hv : KeysOnce v) (hw : KeysOnce w)
    (strict : Bool) (hs : strict = true → ty v = ty w) (h : SameTree EqLeaf v w) : allEqual strict v w = .ok true := by
  have h0 := (allEqual_cmp v w hv).2 (cmp_complete noDictEqual EqLeaf v w hv hw (fun a b _ hp => eqLeaf_complete a b hp) h)
  cases strict with
  | false => exact h0
  | true =>
    have he : allEqual true v w = allEqual false v w := by simp [allEqual, hs rfl]
    rw [he, h0]

/-- **C148** (exact comparison, part that holds). Where the second value has an array, the first one
has an array of the same shape. Then `all_types_equal` returns `True` if and only if both have the
same keys at every level and equal values at every place: same text, same number, same data type,
shape and elements. Missing: other shapes, see `C148_shape_counterexample` and
`C148_scalar_counterexample`. -/
theorem C148_equal_partial [IsStrictOrderedRing R] (v w : Val R) (hv : KeysOnce v) (hw : KeysOnce w) (hf : ShapesFit v w) :
    allEqual false v w = .ok true ↔ SameTree EqLeaf v w := by
  refine ⟨fun h => ?_, C148_equal_complete v w hv hw false (by simp)⟩
  exact cmp_sound noDictEqual EqLeaf v w hv hw
    (fun a b hp hn h => eqLeaf_sound a b hn (fun dt b' hb => hf a dt b' (hb ▸ hp)) h) ((allEqual_cmp v w hv).1 h)

/-- **C148** (comparison with tolerance, part that holds): as `C148_equal_partial`, where numbers may
differ by the default tolerance. -/
theorem C148_almost_partial (dflt : Tol R) (v w : Val R) (hv : KeysOnce v) (hw : KeysOnce w) (hf : ShapesFit v w) :
    allAlmost dflt none false v w = .ok true ↔ SameTree (CloseLeaf dflt) v w := by
  rw [allAlmost_cmp dflt v w hv]
  constructor
  · exact cmp_sound _ _ v w hv hw
      (fun a b hp hn h => closeLeaf_sound dflt a b hn (fun dt b' hb => hf a dt b' (hb ▸ hp)) h)
  · exact cmp_complete _ _ v w hv hw (fun a b _ hp => closeLeaf_complete dflt a b hp)

theorem noDictAlmost_kwds (dflt t : Tol R) (v w : Val R) (h : ty v = .intT ∨ ty v = .floatT ∨ ty v = .arrT) :
    noDictAlmost dflt (some t) v w = noDictAlmost t none v w := by
  cases v <;> simp [ty] at h <;> rfl

/-- **C148** (tolerance given by the user, part that holds). For a number or an array, or a dict of
numbers and arrays, a tolerance given by the user is used instead of the default one. Missing: text,
`None` (`C148_tolerance_text_counterexample`) and nested dicts
(`C148_tolerance_nested_counterexample`). -/
theorem C148_tolerance_partial (dflt t : Tol R) :
    (∀ v w : Val R, ty v = .intT ∨ ty v = .floatT ∨ ty v = .arrT → ShapesFit v w →
      (allAlmost dflt (some t) false v w = .ok true ↔ CloseLeaf t v w)) ∧
    (∀ l1 l2 : List (Text × Val R), KeysOnce (.dict l1) → KeysOnce (.dict l2) → ShapesFit (.dict l1) (.dict l2) →
      (∀ k v, (k, v) ∈ l1 → ty v = .intT ∨ ty v = .floatT ∨ ty v = .arrT) →
      (allAlmost dflt (some t) false (.dict l1) (.dict l2) = .ok true ↔ SameTree (CloseLeaf t) (.dict l1) (.dict l2))) := by
  constructor
  · intro v w hv hf
    have hn : ty v ≠ .dictT := by rcases hv with h | h | h <;> simp [h]
    have h1 : allAlmost dflt (some t) false v w = noDictAlmost t none v w := by
      rw [← noDictAlmost_kwds dflt t v w hv]
      cases v with
      | dict l => exact absurd rfl hn
      | none | int _ | float _ | str _ | arr _ _ => simp [allAlmost]
    rw [h1]
    exact ⟨closeLeaf_sound t v w hn (fun dt b hb => hf v dt b (hb ▸ .here v w)), closeLeaf_complete t v w⟩
  · intro l1 l2 hv hw hf hnum
    rw [← C148_almost_partial t _ _ hv hw hf]
    simp only [allAlmost, dictAlmost, dictCompare]
    by_cases hs : sameKeys l1 l2 = true
    · simp only [hs, if_true, Bool.false_eq_true, false_and, if_false, topLoop_iff]
      apply forall_congr'; intro k
      apply imp_congr_right; intro _
      apply exists_congr; intro v
      apply exists_congr; intro w
      constructor
      · rintro ⟨h1, h2, h3, h4⟩
        have hv := hnum k v (mem_of_lookup _ _ _ h1)
        have hn : ty v ≠ .dictT := by rcases hv with h | h | h <;> simp [h]
        refine ⟨h1, h2, h3, ?_⟩
        rw [topCmp, if_neg hn] at h4 ⊢
        rw [← noDictAlmost_kwds dflt t v w hv, h4]
      · rintro ⟨h1, h2, h3, h4⟩
        have hv := hnum k v (mem_of_lookup _ _ _ h1)
        have hn : ty v ≠ .dictT := by rcases hv with h | h | h <;> simp [h]
        refine ⟨h1, h2, h3, ?_⟩
        rw [topCmp, if_neg hn] at h4 ⊢
        rw [noDictAlmost_kwds dflt t v w hv, h4]
    · simp [hs]

/-- **C148** fails for a tolerance and a text: the comparison of texts and `None` does not accept
the keyword and raises, also if the values are equal. -/
theorem C148_tolerance_text_counterexample (dflt t : Tol R) (s s' : Text) :
    allAlmost dflt (some t) false (.str s) (.str s' : Val R) = .error .type ∧
    allAlmost dflt (some t) false .none (.none : Val R) = .error .type := by
  constructor <;> simp [allAlmost, noDictAlmost]

/-- **C148** (`keys`). With `keys` only the values of these keys are compared; both dicts must have
them. -/
theorem C148_keys_partial [IsStrictOrderedRing R] (l1 l2 : List (Text × Val R)) (hv : KeysOnce (.dict l1))
    (hw : KeysOnce (.dict l2)) (ks : List Text) (hf : ShapesFit (.dict l1) (.dict l2)) :
    dictEqual (some ks) false l1 l2 = .ok true ↔
      ∀ k ∈ ks, ∃ v w, (k, v) ∈ l1 ∧ (k, w) ∈ l2 ∧ SameTree EqLeaf v w := by
  obtain ⟨hd1, hv1⟩ := keysOnce_dict l1 hv
  obtain ⟨hd2, hw2⟩ := keysOnce_dict l2 hw
  simp only [dictEqual, dictCompare, topLoop_iff, topCmp_same]
  constructor
  · intro h k hk
    obtain ⟨v, w, h1, h2, _, h4⟩ := h k hk
    have m1 := mem_of_lookup _ _ _ h1
    have m2 := mem_of_lookup _ _ _ h2
    refine ⟨v, w, m1, m2, cmp_sound noDictEqual EqLeaf v w (hv1 k v m1) (hw2 k w m2) ?_ h4⟩
    intro a b hp hn hl
    exact eqLeaf_sound a b hn (fun dt b' hb => hf a dt b' (.item l1 l2 k v w a _ m1 m2 (hb ▸ hp))) hl
  · intro h k hk
    obtain ⟨v, w, m1, m2, hs⟩ := h k hk
    exact ⟨v, w, lookup_of_mem _ hd1 _ _ m1, lookup_of_mem _ hd2 _ _ m2, by simp,
      cmp_complete noDictEqual EqLeaf v w (hv1 k v m1) (hw2 k w m2) (fun a b _ hp => eqLeaf_complete a b hp) hs⟩

/-- **C148** (missing key). With a key in `keys` that one of the dicts does not have, the comparison
is never `True`. -/
theorem C148_keys_missing (l1 l2 : List (Text × Val R)) (ks : List Text) (strict : Bool) (k : Text) (hk : k ∈ ks)
    (hm : k ∉ l1.map Prod.fst ∨ k ∉ l2.map Prod.fst) : dictEqual (some ks) strict l1 l2 ≠ .ok true := by
  simp only [dictEqual, dictCompare, ne_eq, topLoop_iff]
  intro h
  obtain ⟨v, w, h1, h2, _⟩ := h k hk
  rcases hm with hm | hm
  · exact hm (List.mem_map.2 ⟨_, mem_of_lookup _ _ _ h1, rfl⟩)
  · exact hm (List.mem_map.2 ⟨_, mem_of_lookup _ _ _ h2, rfl⟩)

/-- **C148** (`strict` of the dict comparison, part that holds). With `strict=True` the comparison of
two dicts is `True` if and only if it is `True` without, and both values of each key have the same
type. Missing: the values of nested dicts, see `C148_strict_nested_counterexample`. -/
theorem C148_strict_partial (l1 l2 : List (Text × Val R)) (hv : KeysOnce (.dict l1)) (hw : KeysOnce (.dict l2)) :
    dictEqual none true l1 l2 = .ok true ↔
      dictEqual none false l1 l2 = .ok true ∧ ∀ k v w, (k, v) ∈ l1 → (k, w) ∈ l2 → ty v = ty w := by
  obtain ⟨hd1, _⟩ := keysOnce_dict l1 hv
  obtain ⟨hd2, _⟩ := keysOnce_dict l2 hw
  simp only [dictEqual, dictCompare]
  by_cases hs : sameKeys l1 l2 = true
  · simp only [hs, if_true, topLoop_iff]
    constructor
    · intro h
      refine ⟨fun k hk => ?_, ?_⟩
      · obtain ⟨v, w, h1, h2, _, h4⟩ := h k hk
        exact ⟨v, w, h1, h2, by simp, h4⟩
      · intro k v w m1 m2
        obtain ⟨v', w', h1, h2, h3, _⟩ := h k (List.mem_map.2 ⟨_, m1, rfl⟩)
        rw [lookup_of_mem _ hd1 _ _ m1] at h1
        rw [lookup_of_mem _ hd2 _ _ m2] at h2
        cases h1; cases h2
        exact h3 trivial
    · rintro ⟨h, ht⟩ k hk
      obtain ⟨v, w, h1, h2, _, h4⟩ := h k hk
      exact ⟨v, w, h1, h2, fun _ => ht k v w (mem_of_lookup _ _ _ h1) (mem_of_lookup _ _ _ h2), h4⟩
  · simp [hs]

/-- **C148** (`strict` without dicts). For values that are no dicts `strict=True` also requires the
same type, 1.0 and 1 are not equal then. -/
theorem C148_strict_scalar (v w : Val R) : ty v ≠ ty w → allEqual true v w = .ok false := by
  intro h
  simp [allEqual, h]

/-- **C148** fails for shapes that can be broadcast: arrays of shape (1,) and (3,). -/
theorem C148_shape_counterexample [IsStrictOrderedRing R] : ∃ (v w : Val R), KeysOnce v ∧ KeysOnce w ∧
    allEqual false v w = .ok true ∧ ¬ SameTree EqLeaf v w := by
  refine ⟨.arr "float64".toList ⟨[1], fun _ => 1⟩, .arr "float64".toList ⟨[3], fun _ => 1⟩,
    .leaf _ (by simp [ty]), .leaf _ (by simp [ty]), ?_, ?_⟩
  · have h : bAll (fun x y : R => decide (x = y)) ⟨[1], fun _ => 1⟩ ⟨[3], fun _ => 1⟩ = some true := by
      simp [bAll, Arr.ndim, bpad, bshape]
    simp [allEqual, noDictEqual, arrayEqual, toArr, h, Arr.ndim]
  · intro h
    cases h with
    | leaf _ _ _ h =>
      rcases h with ⟨h, _⟩ | ⟨_, h, _⟩ | ⟨_, h, _⟩ | ⟨_, _, _, h1, h2, h3, _⟩
      · cases h
      · cases h
      · simp [numberOf] at h
      · cases h1; cases h2; simp at h3

/-- **C148** fails for a number and an array: with tolerance a number equals every array of numbers
close to it; exactly it equals the array with one element. -/
theorem C148_scalar_counterexample [IsStrictOrderedRing R] (dflt : Tol R) (hr : 0 ≤ dflt.rtol) (ha : 0 ≤ dflt.atol) :
    ∃ (v w w' : Val R), ty v = .floatT ∧ ty w = .arrT ∧ ty w' = .arrT ∧
      allEqual false v w = .ok true ∧ allAlmost dflt none false v w' = .ok true ∧
      (∃ dt a, w' = .arr dt a ∧ a.shape = [2, 3]) := by
  refine ⟨.float 1, .arr "float64".toList ⟨[1], fun _ => 1⟩, .arr "float64".toList ⟨[2, 3], fun _ => 1⟩, rfl, rfl, rfl,
    ?_, ?_, ⟨_, _, rfl, rfl⟩⟩
  · simp [allEqual, noDictEqual, defaultEqual, tuples, toArr, List.range_succ]
  · have hc : close dflt (1 : R) 1 = true := by
      simp only [close, sub_self, abs_zero, abs_one, mul_one, decide_eq_true_eq]
      exact add_nonneg ha hr
    simp [allAlmost, noDictAlmost, floatAlmost, toArr, bAll, Arr.ndim, bpad, bshape, hc, List.replicate_succ]

/-- **C148** fails for `strict` in nested dicts: with `strict=True`, 1 and 1.0 are equal in a dict in
a dict; for `all_types_equal` already in a dict. -/
theorem C148_strict_nested_counterexample [IsStrictOrderedRing R] : ∃ (v w : Val R),
    dictEqual none true [("a".toList, .dict [("b".toList, v)])] [("a".toList, .dict [("b".toList, w)])] = .ok true ∧
    allEqual true (.dict [("b".toList, v)]) (.dict [("b".toList, w)]) = .ok true ∧
    allEqual true v w = .ok false := by
  refine ⟨.int 1, .float 1, ?_, ?_, ?_⟩
  · simp [dictEqual, dictCompare, sameKeys, topLoop, ty, cmpValue, cmpItems, noDictEqual, defaultEqual, scalarEq]
  · simp [allEqual, dictEqual, dictCompare, sameKeys, topLoop, ty, noDictEqual, defaultEqual, scalarEq]
  · simp [allEqual, ty]

/-- **C148** fails for keywords in nested dicts: a tolerance given by the user is used for the values
of a dict but not for the values of a dict in it. -/
theorem C148_tolerance_nested_counterexample [IsStrictOrderedRing R] : ∃ (dflt t : Tol R) (v w : Val R),
    allAlmost dflt (some t) false (.dict [("b".toList, v)]) (.dict [("b".toList, w)]) = .ok true ∧
    allAlmost dflt (some t) false (.dict [("a".toList, .dict [("b".toList, v)])])
      (.dict [("a".toList, .dict [("b".toList, w)])]) = .ok false := by
  have h0 : close (⟨0, 0⟩ : Tol R) 0 1 = false := by simp [close]
  have h1 : close (⟨0, 1⟩ : Tol R) 0 1 = true := by simp [close]
  refine ⟨⟨0, 0⟩, ⟨0, 1⟩, .float 0, .float 1, ?_, ?_⟩
  · simp [allAlmost, dictAlmost, dictCompare, sameKeys, topLoop, ty, noDictAlmost, floatAlmost, toArr, bAll_scalar, h1]
  · simp [allAlmost, dictAlmost, dictCompare, sameKeys, topLoop, ty, cmpValue, cmpItems, noDictAlmost, floatAlmost, toArr, bAll_scalar, h0]

/-- **C148** fails for different types: a dict compared with something else raises, in the other
order the answer is `False`. -/
theorem C148_dict_other_counterexample (l : List (Text × Val R)) (n : Int) :
    allEqual false (.dict l) (.int n) = .error .attribute ∧ allEqual false (.int n) (.dict l) = .ok false := by
  constructor <;> simp [allEqual, noDictEqual, defaultEqual, scalarEq]

/-- Non-vacuity: two different nested values with an array, for which all hypotheses hold. -/
example : ∃ (v w : Val ℚ), KeysOnce v ∧ KeysOnce w ∧ ShapesFit v w ∧ SameTree EqLeaf v w ∧ v ≠ w := by
  have one : KeysOnce (.dict [("c".toList, .arr "f".toList ⟨[2], fun _ => (3 : ℚ)⟩)]) := by
    refine .dict _ (by decide) ?_
    intro k v h
    simp only [List.mem_cons, Prod.mk.injEq, List.not_mem_nil, or_false] at h
    obtain ⟨_, rfl⟩ := h
    exact .leaf _ (by simp [ty])
  refine ⟨.dict [("a".toList, .int 1), ("b".toList, .dict [("c".toList, .arr "f".toList ⟨[2], fun _ => 3⟩)])],
    .dict [("b".toList, .dict [("c".toList, .arr "f".toList ⟨[2], fun _ => 3⟩)]), ("a".toList, .float 1)], ?_, ?_, ?_, ?_, ?_⟩
  · refine .dict _ (by decide) ?_
    intro k v h
    simp only [List.mem_cons, Prod.mk.injEq, List.not_mem_nil, or_false] at h
    rcases h with ⟨_, rfl⟩ | ⟨_, rfl⟩
    · exact .leaf _ (by simp [ty])
    · exact one
  · refine .dict _ (by decide) ?_
    intro k v h
    simp only [List.mem_cons, Prod.mk.injEq, List.not_mem_nil, or_false] at h
    rcases h with ⟨_, rfl⟩ | ⟨_, rfl⟩
    · exact one
    · exact .leaf _ (by simp [ty])
  · intro a dt b hp
    cases hp with
    | item _ _ k v w _ _ m1 m2 hp =>
      simp only [List.mem_cons, Prod.mk.injEq, List.not_mem_nil, or_false] at m1 m2
      rcases m1 with ⟨rfl, rfl⟩ | ⟨rfl, rfl⟩ <;> rcases m2 with ⟨h, rfl⟩ | ⟨h, rfl⟩
      · exact absurd h (by decide)
      · cases hp
      · cases hp with
        | item _ _ k v w _ _ m1 m2 hp =>
          simp only [List.mem_cons, Prod.mk.injEq, List.not_mem_nil, or_false] at m1 m2
          obtain ⟨_, rfl⟩ := m1
          obtain ⟨_, rfl⟩ := m2
          cases hp
          exact ⟨_, _, rfl, rfl⟩
      · exact absurd h (by decide)
  · refine .dict _ _ ?_ ?_
    · intro k
      simp only [List.map_cons, List.map_nil, List.mem_cons, List.not_mem_nil, or_false]
      exact or_comm
    · intro k v w m1 m2
      simp only [List.mem_cons, Prod.mk.injEq, List.not_mem_nil, or_false] at m1 m2
      rcases m1 with ⟨rfl, rfl⟩ | ⟨rfl, rfl⟩ <;> rcases m2 with ⟨h, rfl⟩ | ⟨h, rfl⟩
      · exact absurd h (by decide)
      · exact .leaf _ _ (by simp [ty]) (.inr (.inr (.inl ⟨1, by simp [numberOf], rfl⟩)))
      · refine .dict _ _ (fun _ => Iff.rfl) ?_
        intro k v w m1 m2
        simp only [List.mem_cons, Prod.mk.injEq, List.not_mem_nil, or_false] at m1 m2
        obtain ⟨_, rfl⟩ := m1
        obtain ⟨_, rfl⟩ := m2
        exact .leaf _ _ (by simp [ty]) (.inr (.inr (.inr ⟨_, _, _, rfl, rfl, rfl, fun _ _ => rfl⟩)))
      · exact absurd h (by decide)
  · intro h
    have := Val.dict.inj h
    have := (List.cons.inj this).1
    have := (Prod.mk.inj this).2
    cases this

end Pwtools.Compare
