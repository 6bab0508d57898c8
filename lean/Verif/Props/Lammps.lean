import Verif.Model.Lammps
import Verif.Spec.Lammps
import Verif.Props.Grep
import Verif.Props.PwOut
import Mathlib.Tactic.Ring
/-!
# The LAMMPS parser (C89)
-/
namespace Pwtools.Lmp
open Pwtools.Gr Pwtools.Spec Pwtools.PwOut

variable {K : Type}

/-! ## text -/

theorem has_iff (key l : Text) : isInfix key l = true ↔ Has key l := isInfix_iff_append _ _

theorem has_false {key l : Text} (h : ¬ Has key l) : isInfix key l = false := by
  rw [← has_iff] at h
  simpa using h

theorem has_left {a b l : Text} (h : Has (a ++ b) l) : Has a l := by
  obtain ⟨u, v, rfl⟩ := h
  exact ⟨u, b ++ v, by simp⟩

theorem noItem {l : Text} (h : ¬ Has "ITEM".toList l) (t : Text) : isInfix ("ITEM".toList ++ t) l = false :=
  has_false fun hc => h (has_left hc)

theorem noItem_step {l : Text} (h : ¬ Has "ITEM".toList l) : isInfix kStep l = false := noItem h ": TIMESTEP".toList
theorem noItem_num {l : Text} (h : ¬ Has "ITEM".toList l) : isInfix kNum l = false := noItem h ": NUMBER OF ATOMS".toList
theorem noItem_box {l : Text} (h : ¬ Has "ITEM".toList l) : isInfix kBox l = false := noItem h ": BOX BOUNDS".toList
theorem noItem_atoms {l : Text} (h : ¬ Has "ITEM".toList l) : isInfix kAtoms l = false := noItem h ": ATOMS".toList

theorem strNat_noItem (n : Nat) : ¬ Has "ITEM".toList (strNat n) := by
  rintro ⟨a, b, h⟩
  have : 'I' ∈ strNat n := by rw [h]; simp
  have := strNat_digits n _ this
  revert this
  decide

theorem box_step (t : Text) : isInfix kStep ("ITEM: BOX BOUNDS".toList ++ t) = isInfix kStep t := rfl
theorem box_num (t : Text) : isInfix kNum ("ITEM: BOX BOUNDS".toList ++ t) = isInfix kNum t := rfl
theorem box_atoms (t : Text) : isInfix kAtoms ("ITEM: BOX BOUNDS".toList ++ t) = isInfix kAtoms t := rfl
theorem box_box (t : Text) : isInfix kBox ("ITEM: BOX BOUNDS".toList ++ t) = true := rfl
theorem atoms_step (t : Text) : isInfix kStep ("ITEM: ATOMS ".toList ++ t) = isInfix kStep t := rfl
theorem atoms_num (t : Text) : isInfix kNum ("ITEM: ATOMS ".toList ++ t) = isInfix kNum t := rfl
theorem atoms_box (t : Text) : isInfix kBox ("ITEM: ATOMS ".toList ++ t) = isInfix kBox t := rfl
theorem atoms_atoms (t : Text) : isInfix kAtoms ("ITEM: ATOMS ".toList ++ t) = true := rfl

theorem lastKey_none (key l : Text) (h : ¬ Has key l) : lastKey key l = none := by
  induction l with
  | nil => rfl
  | cons c l ih =>
    have h1 : ¬ Has key l := fun ⟨a, b, hc⟩ => h ⟨c :: a, b, by simp [hc]⟩
    have h2 : key.isPrefixOf (c :: l) = false := by
      by_contra hc
      simp only [Bool.not_eq_false, List.isPrefixOf_iff_prefix] at hc
      obtain ⟨t, ht⟩ := hc
      exact h ⟨[], t, by simpa using ht.symm⟩
    simp [lastKey, ih h1, h2]

theorem afterLast_atoms (t : Text) (h : ¬ Has "TOMS ".toList t) : afterLast "TOMS ".toList ("ITEM: ATOMS ".toList ++ t) = t := by
  have h0 := lastKey_none _ _ h
  unfold afterLast
  have : lastKey "TOMS ".toList ("ITEM: ATOMS ".toList ++ t) = some t := by
    replace h0 : lastKey ['T', 'O', 'M', 'S', ' '] t = none := h0
    simp [lastKey, h0]
  rw [this]
  rfl

/-! ## columns -/

theorem column_none (header : List Text) (key : Text) (h : key ∉ header) : column header key = none := by
  unfold column
  rw [List.getLast?_eq_none_iff, List.filter_eq_nil_iff]
  intro i _ hc
  exact h (List.mem_of_getElem? (of_decide_eq_true hc))

theorem column_some (header : List Text) (key : Text) (h : key ∈ header) : ∃ i, column header key = some i ∧ header[i]? = some key := by
  unfold column
  obtain ⟨j, hj⟩ := List.getElem?_of_mem h
  have hm : j ∈ (List.range header.length).filter fun i => header[i]? = some key := by
    rw [List.mem_filter]
    exact ⟨List.mem_range.2 (List.getElem?_eq_some_iff.1 hj).1, decide_eq_true hj⟩
  cases hl : ((List.range header.length).filter fun i => header[i]? = some key).getLast? with
  | none =>
    rw [List.getLast?_eq_none_iff] at hl
    rw [hl] at hm
    simp at hm
  | some i =>
    have := List.mem_of_getLast? hl
    rw [List.mem_filter] at this
    exact ⟨i, rfl, of_decide_eq_true this.2⟩

theorem lookup_zip (header : List Text) (r : List K) (i : Nat) (key : Text) (hn : header.Nodup) (h : header[i]? = some key) :
    (header.zip r).lookup key = r[i]? := by
  induction header generalizing r i with
  | nil => simp at h
  | cons x header ih =>
    cases r with
    | nil => simp
    | cons v r =>
      cases i with
      | zero =>
        simp at h
        simp [List.lookup_cons, h]
      | succ i =>
        simp only [List.getElem?_cons_succ] at h
        have hne : key ≠ x := by
          rintro rfl
          exact (List.nodup_cons.1 hn).1 (List.mem_of_getElem? h)
        simp only [List.zip_cons_cons, List.lookup_cons, List.getElem?_cons_succ]
        rw [show (key == x) = false by simpa using hne]
        exact ih r i (List.nodup_cons.1 hn).2 h

theorem named_eq (junk : K) (header : List Text) (r : List K) (i : Nat) (key : Text) (hn : header.Nodup) (h : header[i]? = some key) :
    r.getD i junk = named junk header r key := by
  unfold named
  rw [lookup_zip header r i key hn h, List.getD_eq_getElem?_getD]

/-! ## frames -/

theorem pick_frames {F : Type} (n : Nat) (p keep : Text → Bool) (A : F → List Text) (hd : F → Text) (R B : F → List Text) (fs : List F)
    (tail : List Text) (h : ∀ f ∈ fs, (∀ l ∈ A f, p l = false) ∧ p (hd f) = true ∧ (R f).length = n ∧
      (∀ l ∈ R f, p l = false ∧ keep l = true) ∧ ∀ l ∈ B f, p l = false) :
    pick n p keep (fs.flatMap (fun f => A f ++ hd f :: (R f ++ B f)) ++ tail) 0 = fs.flatMap R ++ pick n p keep tail 0 := by
  induction fs with
  | nil => rfl
  | cons f fs ih =>
    obtain ⟨h1, h2, h3, h4, h5⟩ := h f (by simp)
    rw [List.flatMap_cons, List.flatMap_cons, List.append_assoc, List.append_assoc, pick_other _ _ _ _ _ h1, List.append_assoc]
    have := pick_block n p keep (hd f) (R f) (B f ++ (fs.flatMap (fun f => A f ++ hd f :: (R f ++ B f)) ++ tail)) h2 h4 h3
    simp only [List.cons_append, List.append_assoc] at this ⊢
    rw [this, pick_other _ _ _ _ _ h5, ih fun x hx => h x (by simp [hx])]

theorem count_frames {F : Type} (p : Text → Bool) (A : F → List Text) (hd : F → Text) (R : F → List Text) (fs : List F)
    (h : ∀ f ∈ fs, (∀ l ∈ A f, p l = false) ∧ p (hd f) = true ∧ ∀ l ∈ R f, p l = false) :
    ((fs.flatMap fun f => A f ++ hd f :: R f).filter p).length = fs.length := by
  induction fs with
  | nil => rfl
  | cons f fs ih =>
    obtain ⟨h1, h2, h3⟩ := h f (by simp)
    rw [List.flatMap_cons, List.filter_append, List.length_append, ih fun x hx => h x (by simp [hx]), List.filter_append,
      filter_none _ _ h1, List.filter_cons, if_pos h2, filter_none _ _ h3]
    simp
    omega

theorem words_rows (num : Text → Option K) (rows : List (Text × List K)) (h : ∀ r ∈ rows, (splitWs r.1).map num = r.2.map some) :
    ((rows.map Prod.fst).flatMap splitWs).map num = (rows.map Prod.snd).flatten.map some := by
  induction rows with
  | nil => rfl
  | cons r rows ih =>
    simp only [List.map_cons, List.flatMap_cons, List.map_append, List.flatten_cons, h r (by simp), ih fun x hx => h x (by simp [hx])]

variable {num : Text → Option K} {na nb ncol : Nat} {t : Text} {cols : List Text}

theorem grepItem_eq (n : Nat) (key : Text) (file : List Text) (s : Text) (hk : key = "ITEM".toList ++ s) :
    grepItem n key file = pick n (isInfix key) (fun l => !isInfix "--".toList l && !isInfix "ITEM".toList l) file 0 := by
  unfold grepItem
  apply grepA_filter
  · intro l h
    simp only [Bool.and_eq_true, Bool.not_eq_true'] at h
    subst hk
    apply noItem
    rw [← has_iff, h.2]
    simp
  · have : isInfix "--".toList "--".toList = true := by decide
    simp only [this, Bool.not_true, Bool.false_and]

theorem keep_plain {l : Text} (h : PlainLine l) : (!isInfix "--".toList l && !isInfix "ITEM".toList l) = true := by
  rw [has_false h.1, has_false h.2]
  rfl

theorem natoms_eq (f : Frame K) (rest : List Text) (hs : ¬ Has "ITEM".toList f.step) : natoms (f.lines na t ++ rest) = .ok na := by
  unfold natoms
  have h1 : isInfix kNum "ITEM: TIMESTEP".toList = false := by decide +kernel
  have h2 : isInfix kNum "ITEM: NUMBER OF ATOMS".toList = true := by decide +kernel
  have h4 : splitWs (strNat na) = [strNat na] := by
    have := splitWsAux_tok (strNat na) (fun c hc => isPySpace_digit c (strNat_digits na c hc)) [] []
    unfold splitWs
    rw [List.append_nil] at this
    rw [this]
    simp [splitWsAux, strNat_ne_nil]
  simp only [Frame.lines, List.cons_append, List.nil_append, List.dropWhile_cons, h1, noItem_num hs, h2, Bool.not_false, Bool.not_true, if_true,
    Bool.false_eq_true, if_false, List.headD_cons, h4, parseInt_strNat]
  rfl

theorem header_eq (hc : ColsText t cols) (f : Frame K) (hf : f.Wf num na ncol nb) (rest : List Text) :
    dumpHeader (f.lines na t ++ rest) = cols := by
  unfold dumpHeader
  have h1 : isInfix kAtoms "ITEM: TIMESTEP".toList = false := by decide +kernel
  have h2 : isInfix kAtoms "ITEM: NUMBER OF ATOMS".toList = false := by decide +kernel
  have hb : (f.box.map Prod.fst).find? (isInfix kAtoms) = none := by
    rw [List.find?_eq_none]
    intro l hl
    obtain ⟨r, hr, rfl⟩ := List.mem_map.1 hl
    simp [noItem_atoms (hf.box r hr).1.1]
  have : (f.lines na t ++ rest).find? (isInfix kAtoms) = some ("ITEM: ATOMS ".toList ++ t) := by
    simp only [Frame.lines, List.cons_append, List.nil_append, List.find?_cons, h1, noItem_atoms hf.step.1, h2, noItem_atoms (strNat_noItem na),
      box_atoms, noItem_atoms hf.boxText, List.append_assoc, List.find?_append, hb, atoms_atoms, Option.none_or, Option.some_or]
  rw [this]
  simp only [afterLast_atoms t hc.toms, hc.words]

/-- The lines of a frame before the atom rows. -/
theorem lines_atoms (f : Frame K) : f.lines na t = (["ITEM: TIMESTEP".toList, f.step, "ITEM: NUMBER OF ATOMS".toList, strNat na,
      "ITEM: BOX BOUNDS".toList ++ f.boxText] ++ f.box.map Prod.fst) ++ ("ITEM: ATOMS ".toList ++ t) :: (f.rows.map Prod.fst ++ []) := by
  simp [Frame.lines]

theorem pre_atoms (f : Frame K) (hf : f.Wf num na ncol nb) : ∀ l ∈ ["ITEM: TIMESTEP".toList, f.step, "ITEM: NUMBER OF ATOMS".toList, strNat na,
      "ITEM: BOX BOUNDS".toList ++ f.boxText] ++ f.box.map Prod.fst, isInfix kAtoms l = false := by
  intro l hl
  simp only [List.mem_append, List.mem_cons, List.not_mem_nil, or_false, List.mem_map] at hl
  rcases hl with (rfl | rfl | rfl | rfl | rfl) | ⟨r, hr, rfl⟩
  · decide +kernel
  · exact noItem_atoms hf.step.1
  · decide +kernel
  · exact noItem_atoms (strNat_noItem na)
  · rw [box_atoms]; exact noItem_atoms hf.boxText
  · exact noItem_atoms (hf.box r hr).1.1

theorem atoms_rows (fs : List (Frame K)) (hf : ∀ f ∈ fs, f.Wf num na ncol nb) (tail : List Text) :
    grepItem na kAtoms (fs.flatMap (Frame.lines na t) ++ tail) =
      fs.flatMap (fun f => f.rows.map Prod.fst) ++ grepItem na kAtoms tail := by
  rw [grepItem_eq na kAtoms _ ": ATOMS".toList rfl, grepItem_eq na kAtoms _ ": ATOMS".toList rfl,
    show Frame.lines na t = _ from funext fun f => lines_atoms (K := K) f]
  refine pick_frames na _ _ _ (fun _ => "ITEM: ATOMS ".toList ++ t) (fun f : Frame K => f.rows.map Prod.fst) (fun _ => []) fs tail ?_
  intro f hm
  refine ⟨pre_atoms f (hf f hm), atoms_atoms t, by simp [(hf f hm).nrows], ?_, by simp⟩
  intro l hl
  obtain ⟨r, hr, rfl⟩ := List.mem_map.1 hl
  have := ((hf f hm).rows r hr).1
  exact ⟨noItem_atoms this.1, keep_plain this⟩

theorem step_count (ht : ¬ Has "ITEM".toList t) (fs : List (Frame K)) (hf : ∀ f ∈ fs, f.Wf num na ncol nb) :
    ((fs.flatMap (Frame.lines na t)).filter (isInfix kStep)).length = fs.length := by
  have e : Frame.lines na t = fun f : Frame K => [] ++ "ITEM: TIMESTEP".toList :: ([f.step, "ITEM: NUMBER OF ATOMS".toList, strNat na,
      "ITEM: BOX BOUNDS".toList ++ f.boxText] ++ (f.box.map Prod.fst ++ ("ITEM: ATOMS ".toList ++ t) :: f.rows.map Prod.fst)) := by
    funext f
    simp [Frame.lines]
  rw [e]
  refine count_frames _ (fun _ => []) (fun _ => "ITEM: TIMESTEP".toList) _ fs ?_
  intro f hm
  refine ⟨by simp, by decide +kernel, ?_⟩
  have hf := hf f hm
  intro l hl
  simp only [List.mem_append, List.mem_cons, List.not_mem_nil, or_false, List.mem_map] at hl
  rcases hl with (rfl | rfl | rfl | rfl) | ⟨r, hr, rfl⟩ | rfl | ⟨r, hr, rfl⟩
  · exact noItem_step hf.step.1
  · decide +kernel
  · exact noItem_step (strNat_noItem na)
  · rw [box_step]; exact noItem_step hf.boxText
  · exact noItem_step (hf.box r hr).1.1
  · rw [atoms_step]; exact noItem_step ht
  · exact noItem_step (hf.rows r hr).1.1

theorem box_count (ht : ¬ Has "ITEM".toList t) (fs : List (Frame K)) (hf : ∀ f ∈ fs, f.Wf num na ncol nb) :
    ((fs.flatMap (Frame.lines na t)).filter (isInfix kBox)).length = fs.length ∧
    grepItem 3 kBox (fs.flatMap (Frame.lines na t)) = fs.flatMap (fun f => f.box.map Prod.fst) := by
  have e : Frame.lines na t = fun f : Frame K => ["ITEM: TIMESTEP".toList, f.step, "ITEM: NUMBER OF ATOMS".toList, strNat na] ++
      ("ITEM: BOX BOUNDS".toList ++ f.boxText) :: (f.box.map Prod.fst ++ ("ITEM: ATOMS ".toList ++ t) :: f.rows.map Prod.fst) := by
    funext f
    simp [Frame.lines]
  have hA : ∀ f ∈ fs, ∀ l ∈ ["ITEM: TIMESTEP".toList, f.step, "ITEM: NUMBER OF ATOMS".toList, strNat na], isInfix kBox l = false := by
    intro f hm l hl
    simp only [List.mem_cons, List.not_mem_nil, or_false] at hl
    rcases hl with rfl | rfl | rfl | rfl
    · decide +kernel
    · exact noItem_box (hf f hm).step.1
    · decide +kernel
    · exact noItem_box (strNat_noItem na)
  have hB : ∀ f ∈ fs, ∀ l ∈ ("ITEM: ATOMS ".toList ++ t) :: f.rows.map Prod.fst, isInfix kBox l = false := by
    intro f hm l hl
    simp only [List.mem_cons, List.mem_map] at hl
    rcases hl with rfl | ⟨r, hr, rfl⟩
    · rw [atoms_box]; exact noItem_box ht
    · exact noItem_box ((hf f hm).rows r hr).1.1
  constructor
  · rw [e]
    refine count_frames _ (fun f => ["ITEM: TIMESTEP".toList, f.step, "ITEM: NUMBER OF ATOMS".toList, strNat na])
      (fun f => "ITEM: BOX BOUNDS".toList ++ f.boxText) _ fs ?_
    intro f hm
    refine ⟨hA f hm, box_box _, ?_⟩
    intro l hl
    rcases List.mem_append.1 hl with hl | hl
    · obtain ⟨r, hr, rfl⟩ := List.mem_map.1 hl
      exact noItem_box ((hf f hm).box r hr).1.1
    · exact hB f hm l hl
  · rw [grepItem_eq 3 kBox _ ": BOX BOUNDS".toList rfl, e]
    have := pick_frames 3 (isInfix kBox) (fun l => !isInfix "--".toList l && !isInfix "ITEM".toList l)
      (fun f : Frame K => ["ITEM: TIMESTEP".toList, f.step, "ITEM: NUMBER OF ATOMS".toList, strNat na])
      (fun f => "ITEM: BOX BOUNDS".toList ++ f.boxText) (fun f => f.box.map Prod.fst)
      (fun f => ("ITEM: ATOMS ".toList ++ t) :: f.rows.map Prod.fst) fs [] (by
        intro f hm
        refine ⟨hA f hm, box_box _, by simp [(hf f hm).nbox], ?_, hB f hm⟩
        intro l hl
        obtain ⟨r, hr, rfl⟩ := List.mem_map.1 hl
        have := ((hf f hm).box r hr).1
        exact ⟨noItem_box this.1, keep_plain this⟩)
    simpa [pick] using this

theorem flatten_const_length (L : List (List K)) (m : Nat) (h : ∀ r ∈ L, r.length = m) : L.flatten.length = L.length * m := by
  rw [List.length_flatten, List.map_congr_left (g := fun _ => m) h]
  simp

theorem all_rows (fs : List (Frame K)) (hf : ∀ f ∈ fs, f.Wf num na ncol nb) :
    (fs.flatMap fun f => f.rows).length = fs.length * na ∧
    ∀ r ∈ fs.flatMap fun f => f.rows, PlainLine r.1 ∧ r.2.length = ncol ∧ (splitWs r.1).map num = r.2.map some := by
  constructor
  · rw [List.length_flatMap, List.map_congr_left (g := fun _ => na) fun f hm => (hf f hm).nrows]
    simp
  · intro r hr
    obtain ⟨f, hm, hr⟩ := List.mem_flatMap.1 hr
    exact (hf f hm).rows r hr

theorem flatMap_fst (fs : List (Frame K)) : fs.flatMap (fun f => f.rows.map Prod.fst) = (fs.flatMap fun f => f.rows).map Prod.fst := by
  rw [List.map_flatMap]

theorem dumpArr_eq (hc : ColsText t cols) (fs : List (Frame K)) (hf : ∀ f ∈ fs, f.Wf num na cols.length nb) (h0 : fs ≠ []) (hna : 0 < na) :
    natoms (fs.flatMap (Frame.lines na t)) = .ok na ∧
    dumpArr num (fs.flatMap (Frame.lines na t)) = .ok (cols, (fs.flatMap fun f => f.rows).map Prod.snd) := by
  obtain ⟨f, fs', rfl⟩ := List.exists_cons_of_ne_nil h0
  have hn : natoms ((f :: fs').flatMap (Frame.lines na t)) = .ok na := by
    rw [List.flatMap_cons]
    exact natoms_eq f _ (hf f (by simp)).step.1
  have hh : dumpHeader ((f :: fs').flatMap (Frame.lines na t)) = cols := by
    rw [List.flatMap_cons]
    exact header_eq hc f (hf f (by simp)) _
  refine ⟨hn, ?_⟩
  have hg := atoms_rows (t := t) (f :: fs') hf []
  rw [List.append_nil, show grepItem na kAtoms [] = [] from rfl, List.append_nil, flatMap_fst] at hg
  obtain ⟨hl, hr⟩ := all_rows (f :: fs') hf
  have hw := fromString_map num _ _ (words_rows num _ fun r hm => (hr r hm).2.2)
  have hlen : ∀ r ∈ ((f :: fs').flatMap fun f => f.rows).map Prod.snd, r.length = cols.length := by
    intro r hm
    obtain ⟨x, hx, rfl⟩ := List.mem_map.1 hm
    exact (hr x hx).2.1
  unfold dumpArr
  simp only [hn, hh, hg, hw, step_count hc.item (f :: fs') hf]
  rw [if_pos (by rw [flatten_const_length _ _ hlen, List.length_map, hl]), if_neg hna.ne']
  have := chunks_flatten cols.length _ hlen
  rw [List.length_map, hl] at this
  rw [this]

theorem take_frames {A : Type} (fs : List (List A)) (na : Nat) (h : ∀ f ∈ fs, f.length = na) :
    (List.range fs.length).map (fun s => (fs.flatten.drop (s * na)).take na) = fs := chunks_flatten na fs h

theorem dump3d_eq (junk : K) (hc : ColsText t cols) (hn : cols.Nodup) (fs : List (Frame K)) (hf : ∀ f ∈ fs, f.Wf num na cols.length nb)
    (h0 : fs ≠ []) (hna : 0 < na) (kx ky kz : Text) :
    dump3d junk num (fs.flatMap (Frame.lines na t)) kx ky kz = .ok (if kx ∈ cols ∧ ky ∈ cols ∧ kz ∈ cols then
      some (fs.map fun f => f.rows.map fun r => [named junk cols r.2 kx, named junk cols r.2 ky, named junk cols r.2 kz]) else none) := by
  obtain ⟨h1, h2⟩ := dumpArr_eq hc fs hf h0 hna
  unfold dump3d
  simp only [h1, h2]
  by_cases hx : kx ∈ cols
  · by_cases hy : ky ∈ cols
    · by_cases hz : kz ∈ cols
      · obtain ⟨i, ei, gi⟩ := column_some cols kx hx
        obtain ⟨j, ej, gj⟩ := column_some cols ky hy
        obtain ⟨k, ek, gk⟩ := column_some cols kz hz
        rw [ei, ej, ek, if_pos ⟨hx, hy, hz⟩]
        simp only
        have hl := (all_rows fs hf).1
        rw [List.length_map, hl, Nat.mul_div_cancel _ hna]
        congr 2
        have := take_frames (fs.map fun f => f.rows.map fun r => [r.2.getD i junk, r.2.getD j junk, r.2.getD k junk]) na (by
          intro x hx
          obtain ⟨f, hm, rfl⟩ := List.mem_map.1 hx
          simp [(hf f hm).nrows])
        rw [List.length_map] at this
        rw [List.map_map]
        have e : (fs.map fun f => f.rows.map fun r => [r.2.getD i junk, r.2.getD j junk, r.2.getD k junk]).flatten =
            (fs.flatMap fun f => f.rows).map ((fun r : List K => [r.getD i junk, r.getD j junk, r.getD k junk]) ∘ Prod.snd) := by
          rw [List.map_flatMap, List.flatMap_def]
          rfl
        rw [e] at this
        rw [this]
        apply List.map_congr_left
        intro f _
        apply List.map_congr_left
        intro r _
        rw [named_eq junk cols r.2 i kx hn gi, named_eq junk cols r.2 j ky hn gj, named_eq junk cols r.2 k kz hn gk]
      · rw [if_neg (by tauto), column_none cols kz hz]
        split <;> simp_all
    · rw [if_neg (by tauto), column_none cols ky hy]
      split <;> simp_all
  · rw [if_neg (by tauto), column_none cols kx hx]

/-- **C89**: coordinates, fractional coordinates, forces and velocities of a dump file with any number of frames: one array per frame, one row per
atom, the three named columns whatever their position; `None` if a column is missing. -/
theorem C89_arrays (junk : K) (hc : ColsText t cols) (hn : cols.Nodup) (fs : List (Frame K)) (hf : ∀ f ∈ fs, f.Wf num na cols.length nb)
    (h0 : fs ≠ []) (hna : 0 < na) :
    let arr := fun (x y z : String) => Except.ok (if x.toList ∈ cols ∧ y.toList ∈ cols ∧ z.toList ∈ cols then
      some (fs.map fun f => f.rows.map fun r => [named junk cols r.2 x.toList, named junk cols r.2 y.toList, named junk cols r.2 z.toList]) else none)
    coords junk num (fs.flatMap (Frame.lines na t)) = arr "xu" "yu" "zu" ∧
    coordsFrac junk num (fs.flatMap (Frame.lines na t)) = arr "xsu" "ysu" "zsu" ∧
    forces junk num (fs.flatMap (Frame.lines na t)) = arr "fx" "fy" "fz" ∧
    velocity junk num (fs.flatMap (Frame.lines na t)) = arr "vx" "vy" "vz" :=
  ⟨dump3d_eq junk hc hn fs hf h0 hna _ _ _, dump3d_eq junk hc hn fs hf h0 hna _ _ _, dump3d_eq junk hc hn fs hf h0 hna _ _ _,
    dump3d_eq junk hc hn fs hf h0 hna _ _ _⟩

theorem mapM_pairs {A B : Type} (f : A → Option B) (xs : List A) (ys : List B) (h : List.Forall₂ (fun a b => f a = some b) xs ys) :
    xs.mapM f = some ys := by
  induction h with
  | nil => rfl
  | cons h _ ih => simp [List.mapM_cons, h, ih]

theorem find_reverse_order (order : List (Text × Int)) (hi : (order.map Prod.snd).Nodup) (s : Text) (i : Int) (h : (s, i) ∈ order) :
    (order.reverse.find? fun p => p.2 = i) = some (s, i) := by
  cases hf : order.reverse.find? fun p => decide (p.2 = i) with
  | none =>
    have := List.find?_eq_none.1 hf (s, i) (by simpa using h)
    simp at this
  | some q =>
    have h1 : q.2 = i := by simpa using List.find?_some hf
    have h2 : q ∈ order := by simpa using List.mem_of_find?_eq_some hf
    have : q = (s, i) := List.inj_on_of_nodup_map hi h2 h (by simpa using h1)
    rw [this]

/-- **C89**: the symbols: with a column `type` and an injective `order` (symbol to number), the symbol of each atom of the first frame; `None` without
this column. -/
theorem C89_symbols (junk : K) (toInt : K → Int) (hc : ColsText t cols) (hn : cols.Nodup) (fs : List (Frame K)) (f0 : Frame K)
    (hf : ∀ f ∈ f0 :: fs, f.Wf num na cols.length nb) (hna : 0 < na) (order : List (Text × Int)) (hi : (order.map Prod.snd).Nodup) :
    ("type".toList ∉ cols → symbols junk toInt num ((f0 :: fs).flatMap (Frame.lines na t)) order = .ok none) ∧
    ∀ syms : List Text, "type".toList ∈ cols →
      List.Forall₂ (fun r s => (s, toInt (named junk cols r.2 "type".toList)) ∈ order) f0.rows syms →
      symbols junk toInt num ((f0 :: fs).flatMap (Frame.lines na t)) order = .ok (some syms) := by
  obtain ⟨h1, h2⟩ := dumpArr_eq hc (f0 :: fs) hf (by simp) hna
  unfold symbols
  simp only [h1, h2]
  constructor
  · intro hty
    rw [column_none cols _ hty]
  · intro syms hty hs
    obtain ⟨i, ei, gi⟩ := column_some cols _ hty
    rw [ei]
    simp only
    have ht : ((((f0 :: fs).flatMap fun f => f.rows).map Prod.snd).map fun r => r.getD i junk).take na =
        f0.rows.map fun r => named junk cols r.2 "type".toList := by
      rw [List.map_map, List.flatMap_cons, List.map_append]
      rw [List.take_append_of_le_length (by simp [(hf f0 (by simp)).nrows]),
        List.take_of_length_le (by simp [(hf f0 (by simp)).nrows])]
      apply List.map_congr_left
      intro r _
      exact named_eq junk cols r.2 i _ hn gi
    rw [ht, mapM_pairs _ _ syms]
    rw [List.forall₂_map_left_iff]
    refine hs.imp ?_
    intro r s h
    rw [find_reverse_order order hi s _ h]
    rfl

section cell
variable [Field K] [LinearOrder K]

theorem extremes_two (a lo hi : K) (h : Extremes [0, a] lo hi) : lo = min 0 a ∧ hi = max 0 a := by
  obtain ⟨h1, h2, h3⟩ := h
  have e1 := h3 0 (by simp)
  have e2 := h3 a (by simp)
  simp only [List.mem_cons, List.not_mem_nil, or_false] at h1 h2
  constructor
  · apply le_antisymm
    · exact le_min e1.1 e2.1
    · rcases h1 with rfl | rfl <;> simp
  · apply le_antisymm
    · rcases h2 with rfl | rfl <;> simp
    · exact max_le e1.2 e2.2

theorem extremes_four (a b c lo hi : K) (h : Extremes [0, a, b, c] lo hi) :
    lo = min (min (min 0 a) b) c ∧ hi = max (max (max 0 a) b) c := by
  obtain ⟨h1, h2, h3⟩ := h
  have e1 := h3 0 (by simp)
  have e2 := h3 a (by simp)
  have e3 := h3 b (by simp)
  have e4 := h3 c (by simp)
  simp only [List.mem_cons, List.not_mem_nil, or_false] at h1 h2
  constructor
  · apply le_antisymm
    · exact le_min (le_min (le_min e1.1 e2.1) e3.1) e4.1
    · rcases h1 with rfl | rfl | rfl | rfl <;> simp
  · apply le_antisymm
    · rcases h2 with rfl | rfl | rfl | rfl <;> simp
    · exact max_le (max_le (max_le e1.2 e2.2) e3.2) e4.2

theorem boxCell_eq (b : Box K) (rows : List (List K)) (h : b.Rows rows) : boxCell rows = b.cell := by
  obtain ⟨lx, hx, ly, hy, h1, h2, rfl⟩ := h
  obtain ⟨rfl, rfl⟩ := extremes_four _ _ _ _ _ h1
  obtain ⟨rfl, rfl⟩ := extremes_two _ _ _ h2
  simp [boxCell, Box.cell]

theorem all_box (fs : List (Frame K)) (hf : ∀ f ∈ fs, f.Wf num na ncol nb) :
    fromString num ((fs.flatMap fun f => f.box.map Prod.fst).flatMap splitWs) = (fs.flatMap fun f => f.box.map Prod.snd).flatten ∧
    (fs.flatMap fun f => f.box.map Prod.snd).flatten.length = fs.length * 3 * nb := by
  have hb : ∀ r ∈ fs.flatMap fun f => f.box, r.2.length = nb ∧ (splitWs r.1).map num = r.2.map some := by
    intro r hr
    obtain ⟨f, hm, hr⟩ := List.mem_flatMap.1 hr
    exact ((hf f hm).box r hr).2
  have e1 : (fs.flatMap fun f => f.box.map Prod.fst) = (fs.flatMap fun f => f.box).map Prod.fst := by rw [List.map_flatMap]
  have e2 : (fs.flatMap fun f => f.box.map Prod.snd) = (fs.flatMap fun f => f.box).map Prod.snd := by rw [List.map_flatMap]
  have el : (fs.flatMap fun f => f.box).length = fs.length * 3 := by
    rw [List.length_flatMap, List.map_congr_left (g := fun _ => 3) fun f hm => (hf f hm).nbox]
    simp
  constructor
  · rw [e1, e2]
    exact fromString_map num _ _ (words_rows num _ fun r hr => (hb r hr).2)
  · rw [e2, flatten_const_length _ nb, List.length_map, el]
    intro r hr
    obtain ⟨x, hx, rfl⟩ := List.mem_map.1 hr
    exact (hb x hx).1

/-- **C89**: the cell of every frame. When the box rows of each frame are those LAMMPS writes for a triclinic box (bounding box and tilt factors), the
parser returns the cell vectors of these boxes. -/
theorem C89_cell_partial (hc : ColsText t cols) (fs : List (Frame K)) (hf : ∀ f ∈ fs, f.Wf num na ncol 3) (boxes : List (Box K))
    (hb : List.Forall₂ (fun b f => b.Rows (f.box.map Prod.snd)) boxes fs) :
    cell num (fs.flatMap (Frame.lines na t)) = .ok (boxes.map Box.cell) := by
  obtain ⟨h1, h2⟩ := box_count hc.item fs hf
  obtain ⟨h3, h4⟩ := all_box fs hf
  unfold cell
  simp only [h1, h2, h3, h4, if_true]
  congr 1
  have hrow : ∀ f ∈ fs, ∀ r ∈ f.box.map Prod.snd, r.length = 3 := by
    intro f hm r hr
    obtain ⟨x, hx, rfl⟩ := List.mem_map.1 hr
    exact ((hf f hm).box x hx).2.1
  have e := chunks_flatten 9 (fs.map fun f => (f.box.map Prod.snd).flatten) (by
    intro r hr
    obtain ⟨f, hm, rfl⟩ := List.mem_map.1 hr
    rw [flatten_const_length _ 3 (hrow f hm), List.length_map, (hf f hm).nbox])
  have e2 : (fs.map fun f => (f.box.map Prod.snd).flatten).flatten = (fs.flatMap fun f => f.box.map Prod.snd).flatten := by
    rw [List.flatMap_def, List.flatten_flatten, List.map_map]
    rfl
  rw [List.length_map, e2] at e
  rw [e, List.map_map, List.map_map]
  clear e e2 h1 h2 h3 h4
  induction hb with
  | nil => rfl
  | @cons b f bs fs hbf _ ih =>
    simp only [List.map_cons]
    rw [ih (fun x hx => hf x (by simp [hx])) (fun x hx => hrow x (by simp [hx]))]
    congr 1
    simp only [Function.comp]
    have := chunks_flatten 3 (f.box.map Prod.snd) (hrow f (by simp))
    rw [List.length_map, (hf f (by simp)).nbox] at this
    rw [this]
    exact boxCell_eq b _ hbf

/-- **C89**: what is missing: LAMMPS writes two numbers per row for an orthogonal box; every such dump file makes the cell getter raise `ValueError`. -/
theorem C89_orthogonal_counterexample (hc : ColsText t cols) (fs : List (Frame K)) (hf : ∀ f ∈ fs, f.Wf num na ncol 2) (h0 : fs ≠ []) :
    cell num (fs.flatMap (Frame.lines na t)) = .error .value := by
  obtain ⟨h1, h2⟩ := box_count hc.item fs hf
  obtain ⟨h3, h4⟩ := all_box fs hf
  have := List.length_pos_of_ne_nil h0
  unfold cell
  simp only [h1, h2, h3, h4]
  exact if_neg (by omega)

end cell

/-! ## a run that was killed -/

theorem pick_one (n : Nat) (p keep : Text → Bool) (c : List Text) (hc : c.length ≤ 1) (cnt : Nat) :
    (pick n p keep c cnt).length ≤ 1 ∧ ∀ l ∈ pick n p keep c cnt, l ∈ c := by
  cases c with
  | nil => simp [pick]
  | cons x c =>
    have : c = [] := by simpa using hc
    subst this
    simp only [pick]
    split
    · simp
    · cases cnt with
      | zero => simp
      | succ m =>
        simp only
        split <;> simp

theorem grepItem_tail (hna : 0 < na) (f : Frame K) (hf : f.Wf num na ncol nb) (k : Nat) (hk : k < (f.lines na t).length) (c : List Text)
    (hc : c.length ≤ 1) :
    ∃ j, j < na ∧ ∃ s, s.length ≤ 1 ∧ (∀ l ∈ s, l ∈ c) ∧
      grepItem na kAtoms ((f.lines na t).take k ++ c) = (f.rows.take j).map Prod.fst ++ s := by
  rw [grepItem_eq na kAtoms _ ": ATOMS".toList rfl]
  rw [lines_atoms] at hk ⊢
  set A := ["ITEM: TIMESTEP".toList, f.step, "ITEM: NUMBER OF ATOMS".toList, strNat na,
      "ITEM: BOX BOUNDS".toList ++ f.boxText] ++ f.box.map Prod.fst with hA
  have hpA : ∀ l ∈ A, isInfix kAtoms l = false := pre_atoms f hf
  have hnA : A.length = 8 := by simp [hA, hf.nbox]
  rw [List.append_nil] at hk ⊢
  rw [List.length_append, List.length_cons, List.length_map, hf.nrows, hnA] at hk
  by_cases h8 : k ≤ 8
  · refine ⟨0, hna, ?_⟩
    rw [List.take_append_of_le_length (by omega), pick_other _ _ _ _ _ fun l hl => hpA l (List.mem_of_mem_take hl)]
    obtain ⟨h1, h2⟩ := pick_one na (isInfix kAtoms) (fun l => !isInfix "--".toList l && !isInfix "ITEM".toList l) c hc 0
    exact ⟨_, h1, h2, by simp⟩
  · obtain ⟨j, rfl⟩ : ∃ j, k = 8 + (j + 1) := ⟨k - 9, by omega⟩
    refine ⟨j, by omega, ?_⟩
    rw [← hnA, List.take_length_add_append, List.take_succ_cons, List.append_assoc, pick_other _ _ _ _ _ hpA, List.cons_append]
    simp only [pick, atoms_atoms, if_true]
    rw [pick_rows _ _ _ _ _ _ _ (by simp; omega)]
    · obtain ⟨h1, h2⟩ := pick_one na (isInfix kAtoms) (fun l => !isInfix "--".toList l && !isInfix "ITEM".toList l) c hc
        (na - ((f.rows.map Prod.fst).take j).length)
      exact ⟨_, h1, h2, by rw [List.map_take]⟩
    · intro l hl
      obtain ⟨r, hr, rfl⟩ := List.mem_map.1 (List.mem_of_mem_take hl)
      have := (hf.rows r hr).1
      exact ⟨noItem_atoms this.1, keep_plain this⟩

theorem row_words (r : Text × List K) (h : (splitWs r.1).map num = r.2.map some) : (splitWs r.1).length = r.2.length := by
  have := congrArg List.length h
  simpa using this

theorem dumpArr_truncated (hc : ColsText t cols) (fs : List (Frame K)) (f : Frame K)
    (hf : ∀ x ∈ fs ++ [f], x.Wf num na cols.length nb) (h0 : fs ≠ []) (hna : 0 < na) (k : Nat) (hk : 0 < k) (hk' : k < (f.lines na t).length)
    (c : List Text) (hc1 : c.length ≤ 1) (hcw : ∀ l ∈ c, (splitWs l).length < cols.length) :
    dumpArr num (fs.flatMap (Frame.lines na t) ++ ((f.lines na t).take k ++ c)) = .error .value := by
  have hfs : ∀ x ∈ fs, x.Wf num na cols.length nb := fun x hx => hf x (by simp [hx])
  obtain ⟨g, gs, e⟩ := List.exists_cons_of_ne_nil h0
  have hn : natoms (fs.flatMap (Frame.lines na t) ++ ((f.lines na t).take k ++ c)) = .ok na := by
    rw [e, List.flatMap_cons, List.append_assoc]
    exact natoms_eq g _ (hfs g (by simp [e])).step.1
  have hh : dumpHeader (fs.flatMap (Frame.lines na t) ++ ((f.lines na t).take k ++ c)) = cols := by
    rw [e, List.flatMap_cons, List.append_assoc]
    exact header_eq hc g (hfs g (by simp [e])) _
  obtain ⟨j, hj, s, hs1, hs2, hg⟩ := grepItem_tail (t := t) hna f (hf f (by simp)) k hk' c hc1
  have hg2 := atoms_rows (t := t) fs hfs ((f.lines na t).take k ++ c)
  rw [hg, flatMap_fst] at hg2
  have hstep : fs.length + 1 ≤ ((fs.flatMap (Frame.lines na t) ++ ((f.lines na t).take k ++ c)).filter (isInfix kStep)).length := by
    rw [List.filter_append, List.length_append, step_count hc.item fs hfs]
    obtain ⟨k', rfl⟩ : ∃ k', k = k' + 1 := ⟨k - 1, by omega⟩
    have h1 : isInfix kStep "ITEM: TIMESTEP".toList = true := by decide +kernel
    have : (f.lines na t).take (k' + 1) = "ITEM: TIMESTEP".toList :: ((f.lines na t).drop 1).take k' := by
      simp [Frame.lines]
    rw [this, List.cons_append, List.filter_cons, if_pos h1]
    simp
  have hcols : 0 < cols.length := List.length_pos_of_ne_nil hc.ne
  have hwords : ((((fs.flatMap fun f => f.rows).map Prod.fst ++ ((f.rows.take j).map Prod.fst ++ s))).flatMap splitWs).length <
      (fs.length + 1) * na * cols.length := by
    rw [List.flatMap_append, List.flatMap_append, List.length_append, List.length_append]
    have w1 : ((((fs.flatMap fun f => f.rows)).map Prod.fst).flatMap splitWs).length = fs.length * na * cols.length := by
      rw [List.flatMap_map, flatMap_length_const _ cols.length, (all_rows fs hfs).1]
      intro r hr
      rw [row_words r ((all_rows fs hfs).2 r hr).2.2, ((all_rows fs hfs).2 r hr).2.1]
    have w2 : (((f.rows.take j).map Prod.fst).flatMap splitWs).length = j * cols.length := by
      rw [List.flatMap_map, flatMap_length_const _ cols.length, List.length_take, (hf f (by simp)).nrows, Nat.min_eq_left hj.le]
      intro r hr
      have := (hf f (by simp)).rows r (List.mem_of_mem_take hr)
      rw [row_words r this.2.2, this.2.1]
    have w3 : (s.flatMap splitWs).length < cols.length := by
      match s, hs1, hs2 with
      | [], _, _ => simpa using hcols
      | [l], _, hs2 => simpa using hcw l (hs2 l (by simp))
      | _ :: _ :: _, hs1, _ => simp at hs1
    rw [w1, w2]
    have : (j + 1) * cols.length ≤ na * cols.length := Nat.mul_le_mul_right _ hj
    calc fs.length * na * cols.length + (j * cols.length + (s.flatMap splitWs).length)
        < fs.length * na * cols.length + (j + 1) * cols.length := by rw [Nat.add_mul, Nat.one_mul]; omega
      _ ≤ fs.length * na * cols.length + na * cols.length := by omega
      _ = (fs.length + 1) * na * cols.length := by ring
  unfold dumpArr
  simp only [hn, hh, hg2]
  rw [if_neg]
  intro heq
  have h1 := fromString_length num (((fs.flatMap fun f => f.rows).map Prod.fst ++ ((f.rows.take j).map Prod.fst ++ s)).flatMap splitWs)
  have h2 : (fs.length + 1) * na * cols.length ≤
      ((fs.flatMap (Frame.lines na t) ++ ((f.lines na t).take k ++ c)).filter (isInfix kStep)).length * na * cols.length :=
    Nat.mul_le_mul_right _ (Nat.mul_le_mul_right _ hstep)
  omega

/-- **C89**: a dump file whose last frame is incomplete (the run was killed after some of its lines and perhaps in the middle of a row): no getter
returns an array with made-up rows, all raise `ValueError`. -/
theorem C89_truncated (junk : K) (toInt : K → Int) (hc : ColsText t cols) (fs : List (Frame K)) (f : Frame K)
    (hf : ∀ x ∈ fs ++ [f], x.Wf num na cols.length nb) (h0 : fs ≠ []) (hna : 0 < na) (k : Nat) (hk : 0 < k) (hk' : k < (f.lines na t).length)
    (c : List Text) (hc1 : c.length ≤ 1) (hcw : ∀ l ∈ c, (splitWs l).length < cols.length) (order : List (Text × Int)) :
    let file := fs.flatMap (Frame.lines na t) ++ ((f.lines na t).take k ++ c)
    coords junk num file = .error .value ∧ coordsFrac junk num file = .error .value ∧ forces junk num file = .error .value ∧
    velocity junk num file = .error .value ∧ symbols junk toInt num file order = .error .value := by
  have h := dumpArr_truncated hc fs f hf h0 hna k hk hk' c hc1 hcw
  simp only [coords, coordsFrac, forces, velocity, dump3d, symbols, h, and_self]

/-! ## the log file -/

theorem prefix_step {l : Text} (h : ∀ t, l ≠ "Step".toList ++ t) : "Step".toList.isPrefixOf l = false := by
  by_contra hc
  simp only [Bool.not_eq_false, List.isPrefixOf_iff_prefix] at hc
  obtain ⟨t, ht⟩ := hc
  exact h t ht.symm

theorem sedRange_noise (L rest : List Text) (h : ∀ l ∈ L, ∀ t, l ≠ "Step".toList ++ t) : sedRange false (L ++ rest) = sedRange false rest := by
  induction L with
  | nil => rfl
  | cons l L ih =>
    simp only [List.cons_append, sedRange, prefix_step (h l (by simp)), Bool.false_eq_true, if_false]
    exact ih fun x hx => h x (by simp [hx])

theorem sedRange_rows (L rest : List Text) (h : ∀ l ∈ L, ¬ Has "Loop".toList l) : sedRange true (L ++ rest) = L ++ sedRange true rest := by
  induction L with
  | nil => rfl
  | cons l L ih =>
    have : "Loop".toList.isPrefixOf l = false := by
      by_contra hc
      simp only [Bool.not_eq_false, List.isPrefixOf_iff_prefix] at hc
      obtain ⟨t, ht⟩ := hc
      exact h l (by simp) ⟨[], t, by simpa using ht.symm⟩
    simp only [List.cons_append, sedRange, this, Bool.not_false]
    rw [ih fun x hx => h x (by simp [hx])]

theorem has_prefix (key t : Text) : isInfix key (key ++ t) = true := (has_iff _ _).2 ⟨[], t, rfl⟩

/-- What `egrep -v 'Step|Loop'` leaves. -/
def keepLog (l : Text) : Bool := !isInfix "Step".toList l && !isInfix "Loop".toList l

theorem sed_run (r : LogRun K) (hr : r.Wf num ncol) (rest : List Text) (b : Bool) :
    ∃ b', (sedRange b (r.lines ++ rest)).filter keepLog = r.rows.map Prod.fst ++ (sedRange b' rest).filter keepLog := by
  have hkeep : (r.rows.map Prod.fst).filter keepLog = r.rows.map Prod.fst := by
    rw [List.filter_eq_self]
    intro l hl
    obtain ⟨x, hx, rfl⟩ := List.mem_map.1 hl
    simp only [keepLog, has_false (hr.rows x hx).1, has_false (hr.rows x hx).2.1]
    rfl
  have hloop : ∀ l ∈ r.rows.map Prod.fst, ¬ Has "Loop".toList l := by
    intro l hl
    obtain ⟨x, hx, rfl⟩ := List.mem_map.1 hl
    exact (hr.rows x hx).2.1
  have h1 : sedRange b (r.lines ++ rest) = ("Step".toList ++ r.header) :: (r.rows.map Prod.fst ++ sedRange true (r.after ++ rest)) := by
    unfold LogRun.lines
    have e : "Loop".toList.isPrefixOf ("Step".toList ++ r.header) = false := rfl
    have e' : "Step".toList.isPrefixOf ("Step".toList ++ r.header) = true := List.isPrefixOf_iff_prefix.2 ⟨_, rfl⟩
    cases b with
    | false => rw [List.cons_append, List.append_assoc, sedRange, if_pos e', sedRange_rows _ _ hloop]
    | true => rw [List.cons_append, List.append_assoc, sedRange, e, Bool.not_false, sedRange_rows _ _ hloop]
  have h2 : keepLog ("Step".toList ++ r.header) = false := by
    simp only [keepLog, has_prefix]
    rfl
  rw [h1, List.filter_cons, h2, if_neg (by simp), List.filter_append, hkeep]
  cases ha : r.after with
  | nil => exact ⟨true, rfl⟩
  | cons l ls =>
    obtain ⟨⟨u, rfl⟩, h3⟩ := hr.after l ls ha
    refine ⟨false, ?_⟩
    have e : "Loop".toList.isPrefixOf ("Loop".toList ++ u) = true := List.isPrefixOf_iff_prefix.2 ⟨_, rfl⟩
    have h4 : keepLog ("Loop".toList ++ u) = false := by
      simp only [keepLog, has_prefix]
      simp
    rw [List.cons_append, sedRange, e, Bool.not_true, sedRange_noise _ _ h3, List.filter_cons, h4, if_neg (by simp)]

theorem sed_runs (rs : List (LogRun K)) (hr : ∀ r ∈ rs, r.Wf num ncol) (b : Bool) :
    (sedRange b (rs.flatMap LogRun.lines)).filter keepLog = rs.flatMap fun r => r.rows.map Prod.fst := by
  induction rs generalizing b with
  | nil => cases b <;> rfl
  | cons r rs ih =>
    rw [List.flatMap_cons, List.flatMap_cons]
    obtain ⟨b', h⟩ := sed_run r (hr r (by simp)) (rs.flatMap LogRun.lines) b
    rw [h, ih (fun x hx => hr x (by simp [hx]))]

theorem forall2_rows (rows : List (Text × List K)) (h : ∀ r ∈ rows, (splitWs r.1).map num = r.2.map some) :
    List.Forall₂ (fun r v => r.map num = v.map some) ((rows.map Prod.fst).map splitWs) (rows.map Prod.snd) := by
  induction rows with
  | nil => simp
  | cons r rows ih =>
    simp only [List.map_cons]
    exact List.Forall₂.cons (h r (by simp)) (ih fun x hx => h x (by simp [hx]))

theorem thermo_eq (pre : List Text) (hp : ∀ l ∈ pre, ¬ Has "Step".toList l) (r0 : LogRun K) (rs : List (LogRun K))
    (hr : ∀ r ∈ r0 :: rs, r.Wf num cols.length) (hcols : splitWs ("Step".toList ++ r0.header) = cols) (h2 : 2 ≤ cols.length)
    (hne : ∃ r ∈ r0 :: rs, r.rows ≠ []) :
    thermo num (pre ++ (r0 :: rs).flatMap LogRun.lines) = .ok (cols, (r0 :: rs).flatMap fun r => r.rows.map Prod.snd) := by
  have hfind : (pre ++ (r0 :: rs).flatMap LogRun.lines).find? (isInfix "Step".toList) = some ("Step".toList ++ r0.header) := by
    rw [List.find?_append, List.find?_eq_none.2 (fun l hl => by rw [has_false (hp l hl)]; simp), List.flatMap_cons]
    simp only [LogRun.lines, List.cons_append, List.find?_cons, has_prefix, Option.none_or]
  have hsed : (sedRange false (pre ++ (r0 :: rs).flatMap LogRun.lines)).filter keepLog = ((r0 :: rs).flatMap fun r => r.rows).map Prod.fst := by
    rw [sedRange_noise _ _ (fun l hl u hu => hp l hl ⟨[], u, by simpa using hu⟩), sed_runs (r0 :: rs) hr, List.map_flatMap]
  have hrow : ∀ x ∈ (r0 :: rs).flatMap fun r => r.rows, x.2.length = cols.length ∧ (splitWs x.1).map num = x.2.map some := by
    intro x hx
    obtain ⟨r, hm, hx⟩ := List.mem_flatMap.1 hx
    exact ((hr r hm).rows x hx).2.2
  set R := (r0 :: rs).flatMap fun r => r.rows with hR
  have hRne : R ≠ [] := by
    obtain ⟨r, hm, h⟩ := hne
    obtain ⟨x, xs, e⟩ := List.exists_cons_of_ne_nil h
    intro hc
    have : x ∈ R := List.mem_flatMap.2 ⟨r, hm, by simp [e]⟩
    rw [hc] at this
    simp at this
  obtain ⟨x, xs, e⟩ := List.exists_cons_of_ne_nil hRne
  have hx := hrow x (by simp [e])
  have hload := loadRows_eq num _ _ cols.length (by omega) (forall2_rows R fun r hm => (hrow r hm).2) (by
    intro v hv
    obtain ⟨y, hy, rfl⟩ := List.mem_map.1 hv
    exact (hrow y hy).1)
  have hflat : ((R.map Prod.fst).map splitWs).flatten ≠ [] := by
    intro hc
    rw [e] at hc
    simp only [List.map_cons, List.flatten_cons, List.append_eq_nil_iff] at hc
    have h5 := row_words x hx.2
    rw [hc.1] at h5
    simp at h5
    omega
  unfold thermo
  have hk : (fun l => !isInfix "Step".toList l && !isInfix "Loop".toList l) = keepLog := rfl
  simp only [hfind, hk, hsed, hcols]
  unfold arr2d
  rw [if_neg hflat, hload]
  have hhead : ((R.map Prod.snd).headD []).length = cols.length := by rw [e]; simpa using hx.1
  simp only [hhead]
  rw [if_neg (by omega)]
  simp only [hhead, le_refl, if_true]
  rw [hR, List.map_flatMap]

theorem thermoCol_eq (junk : K) (pre : List Text) (hp : ∀ l ∈ pre, ¬ Has "Step".toList l) (r0 : LogRun K) (rs : List (LogRun K))
    (hr : ∀ r ∈ r0 :: rs, r.Wf num cols.length) (hcols : splitWs ("Step".toList ++ r0.header) = cols) (h2 : 2 ≤ cols.length)
    (hne : ∃ r ∈ r0 :: rs, r.rows ≠ []) (hn : cols.Nodup) (key : Text) :
    thermoCol junk num (pre ++ (r0 :: rs).flatMap LogRun.lines) key = .ok (if key ∈ cols then
      some ((r0 :: rs).flatMap fun r => r.rows.map fun x => named junk cols x.2 key) else none) := by
  unfold thermoCol
  rw [thermo_eq pre hp r0 rs hr hcols h2 hne]
  simp only
  by_cases hk : key ∈ cols
  · obtain ⟨i, ei, gi⟩ := column_some cols key hk
    rw [ei, if_pos hk, Option.map_some, List.map_flatMap]
    congr 3
    funext r
    rw [List.map_map]
    apply List.map_congr_left
    intro x _
    exact named_eq junk cols x.2 i key hn gi
  · rw [column_none cols key hk, if_neg hk, Option.map_none]

theorem mapM_columns (junk : K) (hn : cols.Nodup) (keys : List Text) :
    (¬ (∀ k ∈ keys, k ∈ cols) → keys.mapM (column cols) = none) ∧
    ((∀ k ∈ keys, k ∈ cols) → ∃ is, keys.mapM (column cols) = some is ∧ is.length = keys.length ∧
      ∀ r : List K, is.map (fun i => r.getD i junk) = keys.map (named junk cols r)) := by
  induction keys with
  | nil => simp
  | cons k keys ih =>
    constructor
    · intro h
      by_cases hk : k ∈ cols
      · obtain ⟨i, ei, gi⟩ := column_some cols k hk
        have : ¬ ∀ x ∈ keys, x ∈ cols := fun hc => h (by simpa using ⟨hk, hc⟩)
        simp [List.mapM_cons, ei, ih.1 this]
      · simp [List.mapM_cons, column_none cols k hk]
    · intro h
      obtain ⟨i, ei, gi⟩ := column_some cols k (h k (by simp))
      obtain ⟨is, e1, e2, e3⟩ := ih.2 fun x hx => h x (by simp [hx])
      refine ⟨i :: is, by simp [List.mapM_cons, ei, e1], by simp [e2], fun r => ?_⟩
      rw [List.map_cons, List.map_cons, e3, named_eq junk cols r i k hn gi]

/-- **C89**: energies, temperature, volume, lattice constants and stress from a log file with any number of `run` commands with the same columns, the
last perhaps killed: one entry per printed row, in order, from the named columns; `None` if a column is missing. -/
theorem C89_thermo_partial (junk : K) (pre : List Text) (hp : ∀ l ∈ pre, ¬ Has "Step".toList l) (rs : List (LogRun K)) (h0 : rs ≠ [])
    (hr : ∀ r ∈ rs, r.Wf num cols.length) (hcols : ∀ r ∈ rs, splitWs ("Step".toList ++ r.header) = cols) (h2 : 2 ≤ cols.length)
    (hne : ∃ r ∈ rs, r.rows ≠ []) (hn : cols.Nodup) :
    let log := pre ++ rs.flatMap LogRun.lines
    let rows := (rs.flatMap LogRun.rows).map Prod.snd
    let col := fun (name : String) => Except.ok (if name.toList ∈ cols then some (rows.map fun x => named junk cols x name.toList) else none)
    etot junk num log = col "PotEng" ∧ ekin junk num log = col "KinEng" ∧ temperature junk num log = col "Temp" ∧
    volume junk num log = col "Volume" ∧
    crystConst junk num log = .ok (if ∀ k ∈ ["Cella", "Cellb", "Cellc", "CellAlpha", "CellBeta", "CellGamma"], k.toList ∈ cols then
      some (rows.map fun x => let v := fun (name : String) => named junk cols x name.toList
        [v "Cella", v "Cellb", v "Cellc", v "CellAlpha", v "CellBeta", v "CellGamma"]) else none) ∧
    stress junk num log = .ok (if ∀ k ∈ ["Pxx", "Pyy", "Pzz", "Pxy", "Pxz", "Pyz"], k.toList ∈ cols then
      some (rows.map fun x => let v := fun (name : String) => named junk cols x name.toList
        [[v "Pxx", v "Pxy", v "Pxz"], [v "Pxy", v "Pyy", v "Pyz"], [v "Pxz", v "Pyz", v "Pzz"]]) else none) := by
  obtain ⟨r0, rs, rfl⟩ := List.exists_cons_of_ne_nil h0
  have hcol : ∀ key, thermoCol junk num (pre ++ (r0 :: rs).flatMap LogRun.lines) key = .ok (if key ∈ cols then
      some ((((r0 :: rs).flatMap LogRun.rows).map Prod.snd).map fun x => named junk cols x key) else none) := by
    intro key
    rw [thermoCol_eq junk pre hp r0 rs hr (hcols r0 (by simp)) h2 hne hn key, List.map_map, List.map_flatMap]
    rfl
  have ht := thermo_eq pre hp r0 rs hr (hcols r0 (by simp)) h2 hne
  have er : ((r0 :: rs).flatMap fun r => r.rows.map Prod.snd) = ((r0 :: rs).flatMap LogRun.rows).map Prod.snd := by rw [List.map_flatMap]
  rw [er] at ht
  refine ⟨hcol _, hcol _, hcol _, hcol _, ?_, ?_⟩
  · unfold crystConst
    simp only [ht]
    have hm : ∀ keys : List String, (keys.mapM fun k => column cols k.toList) = (keys.map String.toList).mapM (column cols) := by
      intro keys
      induction keys with
      | nil => rfl
      | cons k keys ih => simp [List.mapM_cons, ih]
    rw [hm]
    obtain ⟨m1, m2⟩ := mapM_columns (cols := cols) junk hn (["Cella", "Cellb", "Cellc", "CellAlpha", "CellBeta", "CellGamma"].map String.toList)
    by_cases h : ∀ k ∈ ["Cella", "Cellb", "Cellc", "CellAlpha", "CellBeta", "CellGamma"], k.toList ∈ cols
    · obtain ⟨is, e1, _, e3⟩ := m2 (by simpa using h)
      rw [if_pos h, e1]
      simp only
      congr 2
      apply List.map_congr_left
      intro x _
      rw [e3 x]
      rfl
    · rw [if_neg h, m1 (by simpa using h)]
  · unfold stress
    simp only [ht]
    have hm : ∀ keys : List String, (keys.mapM fun k => column cols k.toList) = (keys.map String.toList).mapM (column cols) := by
      intro keys
      induction keys with
      | nil => rfl
      | cons k keys ih => simp [List.mapM_cons, ih]
    rw [hm]
    obtain ⟨m1, m2⟩ := mapM_columns (cols := cols) junk hn (["Pxx", "Pyy", "Pzz", "Pyz", "Pxz", "Pxy"].map String.toList)
    by_cases h : ∀ k ∈ ["Pxx", "Pyy", "Pzz", "Pxy", "Pxz", "Pyz"], k.toList ∈ cols
    · obtain ⟨is, e1, e2, e3⟩ := m2 (by simp at h ⊢; tauto)
      rw [if_pos h, e1]
      simp only
      congr 2
      apply List.map_congr_left
      intro x _
      have e := e3 x
      match is, e2, e with
      | [a, b, c, d, e', f], _, e =>
        simp only [List.map_cons, List.map_nil, List.cons.injEq, and_true] at e
        obtain ⟨q1, q2, q3, q4, q5, q6⟩ := e
        simp only [List.getD_cons_zero, List.getD_cons_succ, q1, q2, q3, q4, q5, q6]
    · rw [if_neg h, m1 (by simp at h ⊢; tauto)]

/-- A reader of integers. -/
def exNum (w : Text) : Option Rat := (parseInt w).map fun i : Int => (i : Rat)

/-- Two runs; the columns of the second are in another order. -/
def exRun1 : LogRun Rat := ⟨" Temp Volume".toList, [("0 300 10".toList, [0, 300, 10])], ["Loop time of 1".toList, "run 5".toList]⟩
def exRun2 : LogRun Rat := ⟨" Volume Temp".toList, [("1 20 400".toList, [1, 20, 400])], ["Loop time of 1".toList]⟩

theorem notHas_of (key l : Text) (h : isInfix key l = false) : ¬ Has key l := by
  rw [← has_iff, h]
  simp

/-- A check of well-formedness. -/
theorem run_wf (n : Nat) (r : LogRun Rat) (h : ∀ x ∈ r.rows, isInfix "Step".toList x.1 = false ∧ isInfix "Loop".toList x.1 = false ∧
    x.2.length = n ∧ (splitWs x.1).map exNum = x.2.map some)
    (h2 : ∀ l ∈ r.after.head?, "Loop".toList.isPrefixOf l = true) (h3 : ∀ l ∈ r.after.tail, "Step".toList.isPrefixOf l = false) : r.Wf exNum n := by
  constructor
  · intro x hx
    obtain ⟨a, b, c, d⟩ := h x hx
    exact ⟨notHas_of _ _ a, notHas_of _ _ b, c, d⟩
  · intro l ls e
    rw [e] at h2 h3
    obtain ⟨u, hu⟩ := List.isPrefixOf_iff_prefix.1 (h2 l rfl)
    refine ⟨⟨u, hu.symm⟩, ?_⟩
    intro x hx u hu
    have := h3 x hx
    rw [hu, List.isPrefixOf_iff_prefix.2 ⟨u, rfl⟩] at this
    exact absurd this (by simp)

theorem exRun1_wf : exRun1.Wf exNum 3 := run_wf 3 _ (by decide +kernel) (by decide +kernel) (by decide +kernel)
theorem exRun2_wf : exRun2.Wf exNum 3 := run_wf 3 _ (by decide +kernel) (by decide +kernel) (by decide +kernel)

/-- **C89**: what is missing when the runs have different columns: in general all rows are read with the header of the first run. -/
theorem C89_thermo_first_header (junk : K) (pre : List Text) (hp : ∀ l ∈ pre, ¬ Has "Step".toList l) (r0 : LogRun K) (rs : List (LogRun K))
    (hr : ∀ r ∈ r0 :: rs, r.Wf num cols.length) (hcols : splitWs ("Step".toList ++ r0.header) = cols) (h2 : 2 ≤ cols.length)
    (hne : ∃ r ∈ r0 :: rs, r.rows ≠ []) (hn : cols.Nodup) :
    temperature junk num (pre ++ (r0 :: rs).flatMap LogRun.lines) = .ok (if "Temp".toList ∈ cols then
      some ((r0 :: rs).flatMap fun r => r.rows.map fun x => named junk cols x.2 "Temp".toList) else none) :=
  thermoCol_eq junk pre hp r0 rs hr hcols h2 hne hn _

/-- **C89**: a log file of two runs where the second one prints volume and temperature in the other order: the parser returns the volume 20 as
temperature of the second row (it is 400). -/
theorem C89_thermo_counterexample :
    exRun1.Wf exNum 3 ∧ exRun2.Wf exNum 3 ∧
    ([exRun1, exRun2].flatMap fun r => r.rows.map fun x => named (-1) (splitWs ("Step".toList ++ r.header)) x.2 "Temp".toList) = [300, 400] ∧
    temperature (-1) exNum (["LAMMPS".toList] ++ [exRun1, exRun2].flatMap LogRun.lines) = .ok (some [300, 20]) := by
  refine ⟨exRun1_wf, exRun2_wf, by decide +kernel, ?_⟩
  have h := C89_thermo_first_header (num := exNum) (cols := ["Step".toList, "Temp".toList, "Volume".toList]) (-1) ["LAMMPS".toList]
    (by intro l hl; simp only [List.mem_singleton] at hl; rw [hl]; exact notHas_of _ _ (by decide +kernel)) exRun1 [exRun2]
    (by intro r hr; simp only [List.mem_cons, List.not_mem_nil, or_false] at hr; rcases hr with hr | hr <;> rw [hr]; exacts [exRun1_wf, exRun2_wf])
    (by decide +kernel) (by decide +kernel) ⟨exRun1, by simp, by decide +kernel⟩ (by decide +kernel)
  rw [h]
  decide +kernel

/-- The hypotheses of `C89_thermo_partial` are met: the same run twice. -/
example : temperature (-1) exNum (["LAMMPS".toList] ++ [exRun1, exRun1].flatMap LogRun.lines) = .ok (some [300, 300]) := by
  have h := C89_thermo_partial (num := exNum) (cols := ["Step".toList, "Temp".toList, "Volume".toList]) (-1) ["LAMMPS".toList]
    (by intro l hl; simp only [List.mem_singleton] at hl; rw [hl]; exact notHas_of _ _ (by decide +kernel)) [exRun1, exRun1] (by simp)
    (by intro r hr; simp only [List.mem_cons, List.not_mem_nil, or_false, or_self] at hr; rw [hr]; exact exRun1_wf)
    (by intro r hr; simp only [List.mem_cons, List.not_mem_nil, or_false, or_self] at hr; rw [hr]; decide +kernel)
    (by decide +kernel) ⟨exRun1, by simp, by decide +kernel⟩ (by decide +kernel)
  rw [h.2.2.1]
  decide +kernel

/-- A log file with a header but without rows (killed before the first one): `TypeError` instead of `None`. -/
theorem C89_no_rows_counterexample (junk : K) (pre : List Text) (hp : ∀ l ∈ pre, ¬ Has "Step".toList l) (rs : List (LogRun K)) (h0 : rs ≠ [])
    (hr : ∀ r ∈ rs, r.Wf num ncol) (hne : ∀ r ∈ rs, r.rows = []) :
    temperature junk num (pre ++ rs.flatMap LogRun.lines) = .error .type := by
  obtain ⟨r0, rs, rfl⟩ := List.exists_cons_of_ne_nil h0
  have hfind : (pre ++ (r0 :: rs).flatMap LogRun.lines).find? (isInfix "Step".toList) = some ("Step".toList ++ r0.header) := by
    rw [List.find?_append, List.find?_eq_none.2 (fun l hl => by rw [has_false (hp l hl)]; simp), List.flatMap_cons]
    simp only [LogRun.lines, List.cons_append, List.find?_cons, has_prefix, Option.none_or]
  have hsed : (sedRange false (pre ++ (r0 :: rs).flatMap LogRun.lines)).filter keepLog = [] := by
    rw [sedRange_noise _ _ (fun l hl u hu => hp l hl ⟨[], u, by simpa using hu⟩), sed_runs (r0 :: rs) hr, List.flatMap_eq_nil_iff]
    intro r hm
    rw [hne r hm]
    rfl
  have hk : (fun l => !isInfix "Step".toList l && !isInfix "Loop".toList l) = keepLog := rfl
  have hh : splitWs ("Step".toList ++ r0.header) ≠ [] := by
    unfold splitWs
    rw [splitWsAux_tok "Step".toList (by decide +kernel)]
    have : ∀ (l cur : Text), cur ≠ [] → splitWsAux cur l ≠ [] := by
      intro l
      induction l with
      | nil => intro cur h; simp [splitWsAux, h]
      | cons c l ih =>
        intro cur h
        simp only [splitWsAux]
        split
        · simp [h]
        · exact ih _ (by simp)
    exact this _ _ (by simp)
  simp only [temperature, thermoCol, thermo, hfind, hk, hsed]
  simp only [arr2d, List.map_nil, List.flatten_nil, if_true, if_neg hh]

/-! ## an example dump file: two frames of two atoms, columns in an unusual order -/

def exCols : List Text := ["type".toList, "zu".toList, "xu".toList, "yu".toList]
def exFrame1 : Frame Rat := ⟨"0".toList, " xy xz yz pp pp pp".toList,
  [("-1 12 -1".toList, [-1, 12, -1]), ("0 11 2".toList, [0, 11, 2]), ("0 10 1".toList, [0, 10, 1])],
  [("2 3 1 2".toList, [2, 3, 1, 2]), ("1 6 4 5".toList, [1, 6, 4, 5])]⟩
def exFrame2 : Frame Rat := ⟨"10".toList, " xy xz yz pp pp pp".toList,
  [("-1 12 -1".toList, [-1, 12, -1]), ("0 11 2".toList, [0, 11, 2]), ("0 10 1".toList, [0, 10, 1])],
  [("2 13 11 12".toList, [2, 13, 11, 12]), ("1 16 14 15".toList, [1, 16, 14, 15])]⟩

/-- A check of well-formedness. -/
theorem frame_wf (na nc nb : Nat) (f : Frame Rat) (h1 : isInfix "ITEM".toList f.step = false ∧ isInfix "--".toList f.step = false)
    (h2 : isInfix "ITEM".toList f.boxText = false) (h3 : f.box.length = 3 ∧ f.rows.length = na)
    (h4 : ∀ r ∈ f.box, isInfix "ITEM".toList r.1 = false ∧ isInfix "--".toList r.1 = false ∧ r.2.length = nb ∧ (splitWs r.1).map exNum = r.2.map some)
    (h5 : ∀ r ∈ f.rows, isInfix "ITEM".toList r.1 = false ∧ isInfix "--".toList r.1 = false ∧ r.2.length = nc ∧
      (splitWs r.1).map exNum = r.2.map some) : f.Wf exNum na nc nb :=
  ⟨⟨notHas_of _ _ h1.1, notHas_of _ _ h1.2⟩, notHas_of _ _ h2, h3.1,
    fun r hr => ⟨⟨notHas_of _ _ (h4 r hr).1, notHas_of _ _ (h4 r hr).2.1⟩, (h4 r hr).2.2⟩, h3.2,
    fun r hr => ⟨⟨notHas_of _ _ (h5 r hr).1, notHas_of _ _ (h5 r hr).2.1⟩, (h5 r hr).2.2⟩⟩

theorem exFrame_wf (f : Frame Rat) (h : f ∈ [exFrame1, exFrame2]) : f.Wf exNum 2 4 3 := by
  simp only [List.mem_cons, List.not_mem_nil, or_false] at h
  rcases h with h | h <;> rw [h] <;>
    exact frame_wf 2 4 3 _ (by decide +kernel) (by decide +kernel) (by decide +kernel) (by decide +kernel) (by decide +kernel)

theorem exColsText : ColsText "type zu xu yu ".toList exCols :=
  ⟨by decide +kernel, notHas_of _ _ (by decide +kernel), notHas_of _ _ (by decide +kernel), by decide⟩

def exBox : Box Rat := ⟨0, 10, 0, 10, 0, 10, -1, 2, 1⟩

example : coords (-7) exNum ([exFrame1, exFrame2].flatMap (Frame.lines 2 "type zu xu yu ".toList)) =
      .ok (some [[[1, 2, 3], [4, 5, 6]], [[11, 12, 13], [14, 15, 16]]]) ∧
    forces (-7) exNum ([exFrame1, exFrame2].flatMap (Frame.lines 2 "type zu xu yu ".toList)) = .ok none ∧
    symbols (-7) Rat.floor exNum ([exFrame1, exFrame2].flatMap (Frame.lines 2 "type zu xu yu ".toList)) [("Al".toList, 1), ("N".toList, 2)] =
      .ok (some ["N".toList, "Al".toList]) ∧
    cell exNum ([exFrame1, exFrame2].flatMap (Frame.lines 2 "type zu xu yu ".toList)) = .ok [exBox.cell, exBox.cell] ∧
    coords (-7) exNum ([exFrame1].flatMap (Frame.lines 2 "type zu xu yu ".toList) ++
      ((exFrame2.lines 2 "type zu xu yu ".toList).take 10 ++ ["1 16".toList])) = .error .value := by
  refine ⟨?_, ?_, ?_, ?_, ?_⟩
  · rw [(C89_arrays (-7) exColsText (by decide +kernel) _ exFrame_wf (by simp) (by decide +kernel)).1]
    decide +kernel
  · rw [(C89_arrays (-7) exColsText (by decide +kernel) _ exFrame_wf (by simp) (by decide +kernel)).2.2.1]
    decide +kernel
  · exact (C89_symbols (-7) Rat.floor exColsText (by decide +kernel) [exFrame2] exFrame1 exFrame_wf (by decide +kernel) _ (by decide +kernel)).2 _ (by decide +kernel)
      (List.Forall₂.cons (by decide +kernel) (List.Forall₂.cons (by decide +kernel) List.Forall₂.nil))
  · refine C89_cell_partial exColsText _ exFrame_wf [exBox, exBox] ?_
    have h1 : exBox.Rows (exFrame1.box.map Prod.snd) := ⟨-1, 2, 0, 1, by unfold Extremes; decide +kernel, by unfold Extremes; decide +kernel,
      by decide +kernel⟩
    have h2 : exBox.Rows (exFrame2.box.map Prod.snd) := ⟨-1, 2, 0, 1, by unfold Extremes; decide +kernel, by unfold Extremes; decide +kernel,
      by decide +kernel⟩
    exact List.Forall₂.cons h1 (List.Forall₂.cons h2 List.Forall₂.nil)
  · exact (C89_truncated (-7) Rat.floor exColsText [exFrame1] exFrame2 exFrame_wf (by simp) (by decide +kernel) 10 (by decide +kernel) (by decide +kernel)
      ["1 16".toList] (by decide +kernel) (by decide +kernel) []).1

/-- An orthogonal box. -/
def exFrame3 : Frame Rat := ⟨"0".toList, " pp pp pp".toList,
  [("0 12".toList, [0, 12]), ("0 11".toList, [0, 11]), ("0 10".toList, [0, 10])], [("2 3 1 2".toList, [2, 3, 1, 2])]⟩

example : cell exNum ([exFrame3].flatMap (Frame.lines 1 "type zu xu yu ".toList)) = .error .value := by
  refine C89_orthogonal_counterexample (ncol := 4) exColsText [exFrame3] ?_ (by simp)
  intro f h
  simp only [List.mem_singleton] at h
  rw [h]
  exact frame_wf 1 4 2 _ (by decide +kernel) (by decide +kernel) (by decide +kernel) (by decide +kernel) (by decide +kernel)

example : temperature (-1) exNum (["LAMMPS".toList] ++ [(⟨" Temp Volume".toList, [], []⟩ : LogRun Rat)].flatMap LogRun.lines) = .error .type := by
  refine C89_no_rows_counterexample (ncol := 3) (-1) _ ?_ _ (by simp) ?_ ?_
  · intro l hl
    simp only [List.mem_singleton] at hl
    rw [hl]
    exact notHas_of _ _ (by decide +kernel)
  · intro r hr
    simp only [List.mem_singleton] at hr
    rw [hr]
    exact run_wf 3 _ (by simp) (by simp) (by simp)
  · intro r hr
    simp only [List.mem_singleton] at hr
    rw [hr]

end Pwtools.Lmp
