import Verif.Model.H5
import Verif.Spec.H5
import Verif.Props.Common
import Mathlib.Data.List.Infix
import Mathlib.Data.List.Nodup
import Mathlib.Tactic.Ring
/-!
# C74: `write_h5`, `read_h5`
-/
namespace Pwtools.H5
open Pwtools.Spec
variable {D V : Type}

theorem comps_names {key : Text} {p : Path} (h : Names key p) : comps key = p := by
  obtain ⟨⟨hne, hc⟩, h⟩ := h
  have h1 : splitSepAux '/' [] [] (joinSep ['/'] p) = p := splitSepAux_join '/' [] p hne fun t ht => (hc t ht).2
  have h2 : p.filter (fun c => !c.isEmpty) = p := by
    rw [List.filter_eq_self]
    intro a ha
    simp [(hc a ha).1]
  rcases h with rfl | rfl
  · unfold comps fullName
    rw [splitSepAux]
    simp only [List.isPrefixOf, beq_self_eq_true, Bool.and_self, if_true, List.length_nil, List.drop_zero, h1]
    simp [h2]
  · rw [comps, h1, h2]

theorem comps_isPath (key : Text) (h : comps key ≠ []) : IsPath (comps key) := by
  refine ⟨h, fun c hc => ?_⟩
  rw [comps, List.mem_filter] at hc
  refine ⟨by simpa using hc.2, ?_⟩
  have : ∀ (s cur : Text), '/' ∉ cur → ∀ t ∈ splitSepAux '/' [] cur s, '/' ∉ t := by
    intro s
    induction s with
    | nil => intro cur hcur t ht; rw [splitSepAux] at ht; simp at ht; rw [ht]; exact hcur
    | cons a s ih =>
      intro cur hcur t ht
      rw [splitSepAux] at ht
      split at ht
      · simp only [List.length_nil, List.drop_zero, List.mem_cons] at ht
        rcases ht with rfl | ht
        · exact hcur
        · exact ih [] (by simp) t ht
      · rename_i hp
        refine ih _ ?_ t ht
        simp only [List.isPrefixOf, Bool.and_true, beq_iff_eq] at hp
        simp [hcur, hp]
  exact this key [] (by simp) c hc.1

theorem fullName_inj {p q : Path} (hp : IsPath p) (hq : IsPath q) (h : fullName p = fullName q) : p = q := by
  have := congrArg comps h
  rwa [comps_names ⟨hp, Or.inl rfl⟩, comps_names ⟨hq, Or.inl rfl⟩] at this

theorem nodup_inits {α : Type} (l : List α) : l.inits.Nodup := by
  induction l with
  | nil => simp
  | cons a l ih =>
    rw [List.inits_cons, List.nodup_cons]
    refine ⟨by simp, ih.map fun x y h => ?_⟩
    simpa using h

/-- What holds for the files made by `write_h5`. -/
structure Inv (f : File D) : Prop where
  nodup : (f.map Prod.fst).Nodup
  path : ∀ q ∈ f, IsPath q.1

theorem find_some_iff {f : File D} (hf : (f.map Prod.fst).Nodup) (p : Path) (n : Node D) : find f p = some n ↔ (p, n) ∈ f := by
  induction f with
  | nil => simp [find]
  | cons a f ih =>
    rw [List.map_cons, List.nodup_cons] at hf
    have ih' := ih hf.2
    unfold find at ih' ⊢
    rw [List.find?_cons]
    by_cases ha : a.1 = p
    · have : (a.1 == p) = true := by simp [ha]
      rw [this]
      simp only [Option.map_some, Option.some.injEq, List.mem_cons]
      constructor
      · intro h; left; rw [← ha, ← h]
      · rintro (h | h)
        · rw [← h]
        · exfalso
          apply hf.1
          rw [ha]
          exact List.mem_map_of_mem (f := Prod.fst) h
    · have : (a.1 == p) = false := by simp [ha]
      rw [this]
      simp only [List.mem_cons]
      rw [ih']
      constructor
      · exact Or.inr
      · rintro (h | h)
        · exact absurd (by rw [← h]) ha
        · exact h

theorem find_none_iff (f : File D) (p : Path) : find f p = none ↔ ∀ q ∈ f, q.1 ≠ p := by
  simp [find, List.find?_eq_none]

/-- Dataset `p` of `f` has content `d`. -/
def Ds (f : File D) (p : Path) (d : D) : Prop := (p, Node.dset d) ∈ f

theorem setItem_some {store : V → Option D} {f f' : File D} {k : Text} {v : V} (hf : Inv f) (h : setItem store f k v = some f') :
    Inv f' ∧ (∃ d, store v = some d ∧ ∀ p e, Ds f' p e ↔ Ds f p e ∨ (p = comps k ∧ e = d)) ∧
    (∀ q, find f q ≠ none → find f' q ≠ none) ∧ IsPath (comps k) ∧ find f (comps k) = none ∧
    (∀ q d, Ds f q d → ¬ q <+: comps k) := by
  simp only [setItem] at h
  split at h
  · cases h
  · rename_i d hd
    split at h
    · cases h
    · rename_i hp
      split at h
      · cases h
      · rename_i hfd
        split at h
        · cases h
        · rename_i hb
          simp only [Option.some.injEq] at h
          subst h
          have hpath := comps_isPath k hp
          have hnone : find f (comps k) = none := by simpa using hfd
          have hng : ∀ q ∈ newGroups f (comps k), q.2 = .group ∧ IsPath q.1 ∧ q.1 ≠ comps k ∧ find f q.1 = none := by
            intro q hq
            obtain ⟨s, hs, rfl⟩ := List.mem_map.1 hq
            rw [List.mem_filter] at hs
            simp only [Bool.and_eq_true, Bool.not_eq_true', List.isEmpty_eq_false_iff, bne_iff_ne, ne_eq, Option.isNone_iff_eq_none] at hs
            refine ⟨rfl, ⟨hs.2.1.1, fun c hc => ?_⟩, hs.2.1.2, hs.2.2⟩
            exact hpath.2 c (((List.mem_inits _ _).1 hs.1).subset hc)
          have hngd : ((newGroups f (comps k)).map Prod.fst).Nodup := by
            unfold newGroups
            rw [List.map_map]
            have : (Prod.fst ∘ fun q : Path => (q, (Node.group : Node D))) = id := rfl
            rw [this, List.map_id]
            apply List.Nodup.filter
            exact nodup_inits _
          refine ⟨⟨?_, ?_⟩, ⟨d, hd, ?_⟩, ?_, hpath, hnone, ?_⟩
          · rw [List.map_append, List.map_append, List.nodup_append, List.nodup_append]
            refine ⟨⟨hf.nodup, hngd, ?_⟩, by simp, ?_⟩
            · intro a ha b hb e
              subst e
              obtain ⟨q, hq, rfl⟩ := List.mem_map.1 hb
              obtain ⟨q', hq', e'⟩ := List.mem_map.1 ha
              exact (find_none_iff _ _).1 (hng q hq).2.2.2 q' hq' e'
            · intro a ha b hb e
              simp only [List.map_cons, List.map_nil, List.mem_singleton] at hb
              subst e hb
              rw [List.mem_append] at ha
              rcases ha with ha | ha
              · obtain ⟨q', hq', e'⟩ := List.mem_map.1 ha
                exact (find_none_iff _ _).1 hnone q' hq' e'
              · obtain ⟨q', hq', e'⟩ := List.mem_map.1 ha
                exact (hng q' hq').2.2.1 e'
          · intro q hq
            simp only [List.mem_append, List.mem_singleton] at hq
            rcases hq with (hq | hq) | hq
            · exact hf.path q hq
            · exact (hng q hq).2.1
            · rw [hq]; exact hpath
          · intro p e
            simp only [Ds, List.mem_append, List.mem_singleton, Prod.mk.injEq, Node.dset.injEq]
            constructor
            · rintro ((h | h) | h)
              · exact Or.inl h
              · have := (hng _ h).1; simp at this
              · exact Or.inr h
            · rintro (h | h)
              · exact Or.inl (Or.inl h)
              · exact Or.inr h
          · intro q hq
            rw [ne_eq, find_none_iff] at hq ⊢
            intro hh
            exact hq fun x hx => hh x (by simp [hx])
          · intro q e hq hpre
            have hqn : q ≠ comps k := fun e' => (find_none_iff _ _).1 hnone _ hq e'
            apply hb
            rw [blocked, List.any_eq_true]
            refine ⟨q, (List.mem_inits _ _).2 hpre, ?_⟩
            rw [(find_some_iff hf.nodup q (.dset e)).2 hq]
            simp [hqn]

theorem setItems_inv {store : V → Option D} {f : File D} (hf : Inv f) (dct : List (Text × V)) :
    Inv (setItems store f dct).1 ∧ ∀ p d, Ds f p d → Ds (setItems store f dct).1 p d := by
  induction dct generalizing f with
  | nil => exact ⟨hf, fun _ _ h => h⟩
  | cons a dct ih =>
    obtain ⟨k, v⟩ := a
    simp only [setItems]
    cases h : setItem store f k v with
    | none => exact ⟨hf, fun _ _ h => h⟩
    | some f' =>
      obtain ⟨h1, ⟨d, _, h2⟩, _⟩ := setItem_some hf h
      obtain ⟨i1, i2⟩ := ih h1
      exact ⟨i1, fun p e he => i2 p e ((h2 p e).2 (Or.inl he))⟩

theorem inv_nil : Inv ([] : File D) := ⟨by simp, by simp⟩

/-- `read_h5` returns `val` for the key `name`. -/
def Reads (load : D → V) (fs : Option (File D)) (name : Text) (val : V) : Prop :=
  ∃ l, readH5 load fs = some l ∧ (name, val) ∈ l

theorem readEntry (p : Path) : (if ['/'].isPrefixOf (joinSep ['/'] p) then joinSep ['/'] p else '/' :: joinSep ['/'] p) = fullName p ∨ ¬ IsPath p := by
  by_cases hp : IsPath p
  · left
    rw [if_neg]
    · rfl
    · intro h
      cases p with
      | nil => exact hp.1 rfl
      | cons c cs =>
        obtain ⟨c1, c2⟩ := hp.2 c (by simp)
        cases c with
        | nil => exact c1 rfl
        | cons x xs =>
          have : '/' ≠ x := fun e => c2 (by rw [e]; exact List.mem_cons_self)
          cases cs with
          | nil => simp [joinSep, List.isPrefixOf, this] at h
          | cons d ds => simp [joinSep, List.isPrefixOf, this] at h
  · exact Or.inr hp

theorem reads_iff (load : D → V) (f : File D) (hf : Inv f) (name : Text) (val : V) :
    Reads load (some f) name val ↔ ∃ p d, Ds f p d ∧ name = fullName p ∧ val = load d := by
  unfold Reads readH5
  simp only [Option.map_some, Option.some.injEq, exists_eq_left', List.mem_filterMap]
  constructor
  · rintro ⟨⟨p, n⟩, hq, h⟩
    cases n with
    | group => simp at h
    | dset d =>
      simp only [Option.some.injEq, Prod.mk.injEq] at h
      refine ⟨p, d, hq, ?_, h.2.symm⟩
      rcases readEntry p with h' | h'
      · rw [← h.1, h']
      · exact absurd (hf.path _ hq) h'
  · rintro ⟨p, d, hq, rfl, rfl⟩
    refine ⟨(p, .dset d), hq, ?_⟩
    simp only [Option.some.injEq, Prod.mk.injEq, and_true]
    rcases readEntry p with h' | h'
    · exact h'
    · exact absurd (hf.path _ hq) h'

/-- A history of calls of `write_h5` on the same file name. -/
def run (store : V → Option D) (fs : Option (File D)) (h : List (Option Mode × List (Text × V))) : Option (File D) :=
  h.foldl (fun fs op => (writeH5 store fs op.1 op.2).1) fs

def FsInv (fs : Option (File D)) : Prop := ∀ f, fs = some f → Inv f

theorem writeH5_inv {store : V → Option D} {fs : Option (File D)} (h : FsInv fs) (mode : Option Mode) (dct : List (Text × V)) :
    FsInv (writeH5 store fs mode dct).1 := by
  intro f hf
  simp only [writeH5] at hf
  split at hf
  · exact h f hf
  · rename_i g hg
    split at hf
    · exact h f hf
    · simp only [Option.some.injEq] at hf
      rw [← hf]
      refine (setItems_inv ?_ dct).1
      cases hm : mode.getD .a with
      | a =>
        rw [hm] at hg
        simp only [openFile, Option.some.injEq] at hg
        cases fs with
        | none => simp at hg; rw [hg]; exact inv_nil
        | some f0 => simp at hg; rw [← hg]; exact h _ rfl
      | w => rw [hm] at hg; simp only [openFile, Option.some.injEq] at hg; rw [← hg]; exact inv_nil
      | r => rw [hm] at hg; exact h _ hg
      | rplus => rw [hm] at hg; exact h _ hg
      | x =>
        rw [hm] at hg
        cases fs with
        | none => simp only [openFile, Option.some.injEq] at hg; rw [← hg]; exact inv_nil
        | some f0 => simp [openFile] at hg

theorem run_inv {store : V → Option D} {fs : Option (File D)} (h : FsInv fs) (hist : List (Option Mode × List (Text × V))) :
    FsInv (run store fs hist) := by
  induction hist generalizing fs with
  | nil => exact h
  | cons op hist ih => exact ih (writeH5_inv h op.1 op.2)

theorem writeH5_keep {store : V → Option D} {load : D → V} {fs : Option (File D)} (h : FsInv fs) (mode : Option Mode) (hm : mode ≠ some .w)
    (dct : List (Text × V)) (name : Text) (val : V) (hr : Reads load fs name val) : Reads load (writeH5 store fs mode dct).1 name val := by
  cases fs with
  | none => obtain ⟨l, h1, _⟩ := hr; simp [readH5] at h1
  | some f =>
    have hf := h f rfl
    have key : Reads load (some (setItems store f dct).1) name val := by
      obtain ⟨p, d, h1, h2, h3⟩ := (reads_iff load f hf name val).1 hr
      exact (reads_iff load _ (setItems_inv hf dct).1 name val).2 ⟨p, d, (setItems_inv hf dct).2 p d h1, h2, h3⟩
    simp only [writeH5]
    cases hm' : mode.getD .a with
    | a => simpa [openFile] using key
    | w =>
      cases mode with
      | none => simp at hm'
      | some m => simp at hm'; rw [hm'] at hm; exact absurd rfl hm
    | r => simpa [openFile] using hr
    | rplus => simpa [openFile] using key
    | x => simpa [openFile] using hr

/-- **C74**. After any history of calls, a key that `read_h5` returns keeps its value through any further calls not using mode
`'w'`, whether they raise or not; and it has only that value. -/
theorem C74_append (store : V → Option D) (load : D → V) (h1 h2 : List (Option Mode × List (Text × V)))
    (hw : ∀ op ∈ h2, op.1 ≠ some .w) (name : Text) (val : V) (hr : Reads load (run store none h1) name val) :
    Reads load (run store none (h1 ++ h2)) name val ∧
    ∀ val', Reads load (run store none (h1 ++ h2)) name val' → val' = val := by
  have hinv0 : FsInv (none : Option (File D)) := by intro f hf; cases hf
  have keep : Reads load (run store none (h1 ++ h2)) name val := by
    rw [run, List.foldl_append]
    have hi := run_inv (store := store) hinv0 h1
    change Reads load (run store (run store none h1) h2) name val
    generalize run store none h1 = fs at hr hi
    induction h2 generalizing fs with
    | nil => exact hr
    | cons op h2 ih =>
      exact ih (fun o ho => hw o (by simp [ho])) _ (writeH5_keep hi op.1 (hw op (by simp)) op.2 name val hr) (writeH5_inv hi op.1 op.2)
  refine ⟨keep, fun val' h' => ?_⟩
  have hi := run_inv (store := store) hinv0 (h1 ++ h2)
  cases hfs : run store none (h1 ++ h2) with
  | none => rw [hfs] at keep; obtain ⟨l, h1, _⟩ := keep; simp [readH5] at h1
  | some f =>
    rw [hfs] at keep h'
    have hf := hi f hfs
    obtain ⟨p, d, a1, a2, a3⟩ := (reads_iff load f hf _ _).1 keep
    obtain ⟨p', d', b1, b2, b3⟩ := (reads_iff load f hf _ _).1 h'
    have hp : p = p' := fullName_inj (hf.path _ a1) (hf.path _ b1) (a2.symm.trans b2)
    subst hp
    have e1 := (find_some_iff hf.nodup p _).2 a1
    have e2 := (find_some_iff hf.nodup p _).2 b1
    rw [e1] at e2
    simp only [Option.some.injEq, Node.dset.injEq] at e2
    rw [b3, a3, e2]

/-- **C74**. Mode `'w'` replaces the file: nothing of the old one matters. -/
theorem C74_replace (store : V → Option D) (fs fs' : Option (File D)) (dct : List (Text × V)) :
    writeH5 store fs (some .w) dct = writeH5 store fs' (some .w) dct := rfl

theorem setItems_ok {store : V → Option D} {load : D → V} {f : File D} (hf : Inv f) (hl : ∀ v d, store v = some d → load d = v)
    (dct : List (Text × V)) (path : Text → Path) (hk : ∀ q ∈ dct, Names q.1 (path q.1))
    (hs : ∀ q ∈ dct, store q.2 ≠ none)
    (hnew : ∀ q ∈ dct, ∀ r ∈ f, ¬ (path q.1 <+: r.1) ∧ ∀ d, r.2 = .dset d → ¬ (r.1 <+: path q.1))
    (hpre : dct.Pairwise fun q r => ¬ (path q.1 <+: path r.1) ∧ ¬ (path r.1 <+: path q.1)) :
    (setItems store f dct).2 = true ∧
    ∀ p d, Ds (setItems store f dct).1 p d ↔ Ds f p d ∨ ∃ q ∈ dct, p = path q.1 ∧ store q.2 = some d := by
  induction dct generalizing f with
  | nil => simp [setItems]
  | cons a dct ih =>
    obtain ⟨k, v⟩ := a
    have hk1 := hk (k, v) (by simp)
    have hc := comps_names hk1
    simp only at hc hk1
    obtain ⟨d, hd⟩ := Option.ne_none_iff_exists'.1 (hs (k, v) (by simp))
    simp only at hd
    rw [List.pairwise_cons] at hpre
    have h1 : find f (path k) = none := by
      rw [find_none_iff]
      intro r hr e
      exact (hnew (k, v) (by simp) r hr).1 (by rw [e])
    have h2 : blocked f (path k) = false := by
      rw [blocked, List.any_eq_false]
      intro s hs'
      rw [List.mem_inits] at hs'
      cases hfs : find f s with
      | none => simp
      | some n =>
        cases n with
        | group => simp
        | dset e =>
          exfalso
          exact (hnew (k, v) (by simp) _ ((find_some_iff hf.nodup s _).1 hfs)).2 e rfl hs'
    have hset : setItem store f k v = some (f ++ newGroups f (path k) ++ [(path k, .dset d)]) := by
      simp [setItem, hd, hc, hk1.1.1, h1, h2]
    obtain ⟨i1, ⟨d', hd', i2⟩, _⟩ := setItem_some hf hset
    rw [hd, Option.some.injEq] at hd'
    subst hd'
    simp only [setItems, hset]
    obtain ⟨j1, j2⟩ := ih i1 (fun q hq => hk q (by simp [hq])) (fun q hq => hs q (by simp [hq])) (by
      intro q hq r hr
      simp only [List.mem_append, List.mem_singleton] at hr
      rcases hr with (hr | hr) | hr
      · exact hnew q (by simp [hq]) r hr
      · obtain ⟨s, hs', rfl⟩ := List.mem_map.1 hr
        rw [List.mem_filter, List.mem_inits] at hs'
        refine ⟨fun hh => (hpre.1 q hq).2 (hh.trans hs'.1), fun d h => by cases h⟩
      · rw [hr]
        exact ⟨(hpre.1 q hq).2, fun _ _ => (hpre.1 q hq).1⟩) hpre.2
    refine ⟨j1, fun p e => ?_⟩
    rw [j2, i2, hc]
    simp only [List.mem_cons, exists_eq_or_imp, hd, Option.some.injEq]
    constructor
    · rintro ((h | ⟨h, rfl⟩) | h)
      · exact Or.inl h
      · exact Or.inr (Or.inl ⟨h, rfl⟩)
      · exact Or.inr (Or.inr h)
    · rintro (h | ⟨h, rfl⟩ | h)
      · exact Or.inl (Or.inl h)
      · exact Or.inl (Or.inr ⟨h, rfl⟩)
      · exact Or.inr h

/-- **C74**, round trip. Written to a new file (or with mode `'w'`), a dict whose keys name paths none of which is a prefix of
another and whose values can be stored is read back: `read_h5` returns exactly its values, under the full names with a
leading slash. -/
theorem C74_roundtrip (store : V → Option D) (load : D → V) (hl : ∀ v d, store v = some d → load d = v)
    (fs : Option (File D)) (mode : Option Mode) (hm : mode = some .w ∨ (fs = none ∧ (mode = none ∨ mode = some .a ∨ mode = some .x)))
    (dct : List (Text × V)) (path : Text → Path) (hk : ∀ q ∈ dct, Names q.1 (path q.1)) (hs : ∀ q ∈ dct, store q.2 ≠ none)
    (hpre : dct.Pairwise fun q r => ¬ (path q.1 <+: path r.1) ∧ ¬ (path r.1 <+: path q.1)) :
    (writeH5 store fs mode dct).2 = true ∧
    ∀ name val, Reads load (writeH5 store fs mode dct).1 name val ↔ ∃ q ∈ dct, name = fullName (path q.1) ∧ val = q.2 := by
  have hw : writeH5 store fs mode dct = (some (setItems store [] dct).1, (setItems store [] dct).2) := by
    rcases hm with rfl | ⟨rfl, rfl | rfl | rfl⟩ <;> simp [writeH5, openFile]
  obtain ⟨h1, h2⟩ := setItems_ok (f := []) inv_nil hl dct path hk hs (by simp) hpre
  rw [hw]
  refine ⟨h1, fun name val => ?_⟩
  rw [reads_iff load _ (setItems_inv inv_nil dct).1]
  constructor
  · rintro ⟨p, d, a, b, c⟩
    rcases (h2 p d).1 a with h | ⟨q, hq, rfl, hd⟩
    · simp [Ds] at h
    · exact ⟨q, hq, b, by rw [c, hl _ _ hd]⟩
  · rintro ⟨q, hq, rfl, rfl⟩
    obtain ⟨d, hd⟩ := Option.ne_none_iff_exists'.1 (hs q hq)
    exact ⟨path q.1, d, (h2 _ _).2 (Or.inr ⟨q, hq, rfl, hd⟩), rfl, (hl _ _ hd).symm⟩

/-- **C74**, appending. In mode `'a'` (the default) keys that collide with nothing in the file are added, and the result of `read_h5` is the old
content together with the new. -/
theorem C74_append_new (store : V → Option D) (load : D → V) (hl : ∀ v d, store v = some d → load d = v)
    (old new : List (Text × V)) (mode : Option Mode) (hm : mode = none ∨ mode = some .a ∨ mode = some .rplus)
    (path : Text → Path) (hk : ∀ q ∈ old ++ new, Names q.1 (path q.1)) (hs : ∀ q ∈ old ++ new, store q.2 ≠ none)
    (hpre : (old ++ new).Pairwise fun q r => ¬ (path q.1 <+: path r.1) ∧ ¬ (path r.1 <+: path q.1)) :
    let f1 := (writeH5 store none none old).1
    (writeH5 store f1 mode new).2 = true ∧
    ∀ name val, Reads load (writeH5 store f1 mode new).1 name val ↔
      Reads load f1 name val ∨ ∃ q ∈ new, name = fullName (path q.1) ∧ val = q.2 := by
  intro f1
  have hdist : ∀ (a b : List (Text × V)) (f : File D), (setItems store f a).2 = true →
      setItems store f (a ++ b) = setItems store (setItems store f a).1 b := by
    intro a b
    induction a with
    | nil => intro f _; rfl
    | cons q a ih =>
      obtain ⟨k, v⟩ := q
      intro f h
      simp only [setItems, List.cons_append] at h ⊢
      cases hq : setItem store f k v with
      | none => simp [hq] at h
      | some f' => simp only [hq] at h ⊢; exact ih f' h
  have hpre1 := (List.pairwise_append.1 hpre).1
  obtain ⟨a1, a2⟩ := setItems_ok (f := []) inv_nil hl old path (fun q hq => hk q (by simp [hq])) (fun q hq => hs q (by simp [hq])) (by simp) hpre1
  obtain ⟨b1, b2⟩ := setItems_ok (f := []) inv_nil hl (old ++ new) path hk hs (by simp) hpre
  have hf1 : f1 = some (setItems store [] old).1 := by simp [f1, writeH5, openFile]
  have hw : writeH5 store f1 mode new = (some (setItems store [] (old ++ new)).1, (setItems store [] (old ++ new)).2) := by
    rw [hdist old new [] a1, hf1]
    rcases hm with rfl | rfl | rfl <;> simp [writeH5, openFile]
  rw [hw, hf1]
  refine ⟨b1, fun name val => ?_⟩
  rw [reads_iff load _ (setItems_inv inv_nil _).1, reads_iff load _ (setItems_inv inv_nil _).1]
  constructor
  · rintro ⟨p, d, a, b, c⟩
    rcases (b2 p d).1 a with h | ⟨q, hq, rfl, hd⟩
    · simp [Ds] at h
    · rcases List.mem_append.1 hq with hq | hq
      · exact Or.inl ⟨path q.1, d, (a2 _ _).2 (Or.inr ⟨q, hq, rfl, hd⟩), b, c⟩
      · exact Or.inr ⟨q, hq, b, by rw [c, hl _ _ hd]⟩
  · rintro (⟨p, d, a, b, c⟩ | ⟨q, hq, rfl, rfl⟩)
    · rcases (a2 p d).1 a with h | ⟨q, hq, rfl, hd⟩
      · simp [Ds] at h
      · exact ⟨path q.1, d, (b2 _ _).2 (Or.inr ⟨q, by simp [hq], rfl, hd⟩), b, c⟩
    · obtain ⟨d, hd⟩ := Option.ne_none_iff_exists'.1 (hs q (by simp [hq]))
      exact ⟨path q.1, d, (b2 _ _).2 (Or.inr ⟨q, by simp [hq], rfl, hd⟩), rfl, (hl _ _ hd).symm⟩

/-- **C74**, refusal. Without mode `'w'`, a dict with a key that names an existing dataset, or something below one, is refused. -/
theorem C74_existing_refused (store : V → Option D) (load : D → V) (hist : List (Option Mode × List (Text × V))) (mode : Option Mode)
    (hm : mode ≠ some .w) (dct : List (Text × V)) (p q : Path) (hp : IsPath p) (val : V)
    (hr : Reads load (run store none hist) (fullName p) val) (key : Text) (v : V) (hkey : (key, v) ∈ dct) (hq : Names key q) (hpq : p <+: q) :
    (writeH5 store (run store none hist) mode dct).2 = false := by
  have hinv0 : FsInv (none : Option (File D)) := by intro f hf; cases hf
  have hi := run_inv (store := store) hinv0 hist
  generalize run store none hist = fs at hr hi
  cases fs with
  | none => obtain ⟨l, h1, _⟩ := hr; simp [readH5] at h1
  | some f =>
    have hf := hi f rfl
    obtain ⟨p', d, a1, a2, a3⟩ := (reads_iff load f hf _ _).1 hr
    have := fullName_inj hp (hf.path _ a1) a2
    subst this
    have key' : (setItems store f dct).2 = false := by
      clear hr hi
      induction dct generalizing f with
      | nil => simp at hkey
      | cons a dct ih =>
        obtain ⟨k, w⟩ := a
        simp only [setItems]
        cases hs : setItem store f k w with
        | none => rfl
        | some f' =>
          obtain ⟨i1, ⟨d', _, i2⟩, _, _, i5, i6⟩ := setItem_some hf hs
          rcases List.mem_cons.1 hkey with h | h
          · simp only [Prod.mk.injEq] at h
            rw [← h.1, comps_names hq] at i6
            exact absurd hpq (i6 p d a1)
          · exact ih h f' i1 ((i2 p d).2 (Or.inl a1))
    simp only [writeH5]
    cases hm' : mode.getD .a with
    | a => simpa [openFile] using key'
    | w =>
      cases mode with
      | none => simp at hm'
      | some m => simp at hm'; rw [hm'] at hm; exact absurd rfl hm
    | r =>
      simp only [openFile, if_true]
      cases dct with
      | nil => simp at hkey
      | cons _ _ => rfl
    | rplus => simpa [openFile] using key'
    | x => simp [openFile]

/-- **C74**. A missing file is refused by `read_h5` and by the modes `'r'` and `'r+'`, an existing one by `'x'`; nothing is changed. -/
theorem C74_open_refused (store : V → Option D) (load : D → V) (f : File D) (dct : List (Text × V)) :
    readH5 load (none : Option (File D)) = none ∧
    writeH5 store none (some .r) dct = (none, false) ∧ writeH5 store none (some .rplus) dct = (none, false) ∧
    writeH5 store (some f) (some .x) dct = (some f, false) :=
  ⟨rfl, rfl, rfl, rfl⟩

/-- **C74**, exceptions. If a value cannot be stored, the keys before it stay in the file. -/
theorem C74_exception (store : V → Option D) (load : D → V) (hl : ∀ v d, store v = some d → load d = v)
    (dct rest : List (Text × V)) (path : Text → Path) (k : Text) (v : V) (hv : store v = none)
    (hk : ∀ q ∈ dct, Names q.1 (path q.1)) (hs : ∀ q ∈ dct, store q.2 ≠ none)
    (hpre : dct.Pairwise fun q r => ¬ (path q.1 <+: path r.1) ∧ ¬ (path r.1 <+: path q.1)) :
    (writeH5 store none none (dct ++ (k, v) :: rest)).2 = false ∧
    ∀ name val, Reads load (writeH5 store none none (dct ++ (k, v) :: rest)).1 name val ↔ ∃ q ∈ dct, name = fullName (path q.1) ∧ val = q.2 := by
  have h0 := C74_roundtrip store load hl none none (Or.inr ⟨rfl, Or.inl rfl⟩) dct path hk hs hpre
  have hdist : ∀ (a : List (Text × V)) (f : File D), (setItems store f a).2 = true →
      setItems store f (a ++ (k, v) :: rest) = ((setItems store f a).1, false) := by
    intro a
    induction a with
    | nil => intro f _; simp [setItems, setItem, hv]
    | cons q a ih =>
      obtain ⟨k', v'⟩ := q
      intro f h
      simp only [setItems, List.cons_append] at h ⊢
      cases hq : setItem store f k' v' with
      | none => simp [hq] at h
      | some f' => simp only [hq] at h ⊢; exact ih f' h
  have e1 : writeH5 store none none dct = (some (setItems store [] dct).1, (setItems store [] dct).2) := by simp [writeH5, openFile]
  rw [e1] at h0
  have e2 : writeH5 store none none (dct ++ (k, v) :: rest) = (some (setItems store [] dct).1, false) := by
    simp [writeH5, openFile, hdist dct [] h0.1]
  rw [e2]
  exact ⟨rfl, h0.2⟩

/-! A concrete case. -/

private def exStore (n : Int) : Option Int := if n < 0 then none else some n

example : readH5 id (writeH5 exStore none none [("a/b".toList, 1), ("/a/c/d".toList, 2), ("x".toList, 3)]).1 =
    some [("/a/b".toList, 1), ("/a/c/d".toList, 2), ("/x".toList, 3)] := by decide +kernel
example : (writeH5 exStore (writeH5 exStore none none [("a/b".toList, 1)]).1 none [("c".toList, 5), ("/a/b".toList, 7), ("d".toList, 1)]).2 = false ∧
    readH5 id (writeH5 exStore (writeH5 exStore none none [("a/b".toList, 1)]).1 none [("c".toList, 5), ("/a/b".toList, 7), ("d".toList, 1)]).1 =
      some [("/a/b".toList, 1), ("/c".toList, 5)] := by decide +kernel
example : Names "a/b".toList ["a".toList, "b".toList] := ⟨⟨by simp, by decide⟩, Or.inr rfl⟩

end Pwtools.H5
