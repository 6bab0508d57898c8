import Verif.Spec.PwHead
import Verif.Model.PwHead
import Verif.Props.ScfOut
import Verif.Props.PwOut
import Verif.Props.Phonon
import Verif.Props.CutScripts
/-!
# C119: header of a pw.x output; C120: tables of MD outputs
-/
namespace Pwtools.PwHead
open Spec Gr Scf
variable {K : Type}

/-! ## Last occurrences -/

theorem lastOcc_cons {β : Type} (w : Text) (f : Text → Text → Option β) (c : Char) (t : Text) :
    lastOcc w f (c :: t) = (lastOcc w (fun p q => f (c :: p) q) t).or (if w.isPrefixOf (c :: t) then f [] ((c :: t).drop w.length) else none) := by
  unfold lastOcc
  simp only [occ, List.reverse_append, List.findSome?_append, ← List.map_reverse, List.findSome?_map]
  congr 1
  split
  · simp
  · simp

theorem lastOcc_none {β : Type} (w : Text) (f : Text → Text → Option β) (l : Text) (h : ∀ p q, l = p ++ (w ++ q) → f p q = none) : lastOcc w f l = none := by
  induction l generalizing f with
  | nil => rfl
  | cons c t ih =>
    rw [lastOcc_cons, ih (fun p q => f (c :: p) q) fun p q e => h (c :: p) q (by rw [e]; rfl), Option.none_or]
    split
    · next hp =>
      obtain ⟨q, hq⟩ := List.isPrefixOf_iff_prefix.1 hp
      rw [← hq, List.drop_left]
      exact h [] q (by simp [hq])
    · rfl

theorem lastOcc_eq {β : Type} (w : Text) (hw : w ≠ []) (f : Text → Text → Option β) (pre post : Text) (b : β) (hf : f pre post = some b)
    (hlast : ∀ p q, pre ++ (w ++ post) = p ++ (w ++ q) → pre.length < p.length → f p q = none) : lastOcc w f (pre ++ (w ++ post)) = some b := by
  induction pre generalizing f with
  | nil =>
    obtain ⟨c, w', rfl⟩ : ∃ c w', w = c :: w' := by
      cases w with
      | nil => exact absurd rfl hw
      | cons c w' => exact ⟨c, w', rfl⟩
    show lastOcc (c :: w') f (c :: (w' ++ post)) = _
    rw [lastOcc_cons, lastOcc_none, Option.none_or, if_pos ((List.isPrefixOf_iff_prefix (l₁ := c :: w') (l₂ := c :: (w' ++ post))).2 ⟨post, rfl⟩)]
    · rw [show (c :: (w' ++ post)) = (c :: w') ++ post from rfl, List.drop_left]
      exact hf
    · intro p q e
      exact hlast (c :: p) q (by show c :: (w' ++ post) = c :: (p ++ (c :: w' ++ q)); rw [e]) (by simp)
  | cons c pre ih =>
    rw [List.cons_append, lastOcc_cons, ih (fun p q => f (c :: p) q) hf fun p q e hl => hlast (c :: p) q (by rw [List.cons_append, e]; rfl) (by simpa using hl)]
    rfl

theorem later_mem (c : Char) (pre post p q : Text) (h : pre ++ ([c] ++ post) = p ++ ([c] ++ q)) (hl : pre.length < p.length) : c ∈ post := by
  rw [List.append_eq_append_iff] at h
  rcases h with ⟨m, hm, h⟩ | ⟨m, hm, _⟩
  · cases m with
    | nil => simp [hm] at hl
    | cons x m =>
      simp only [List.singleton_append, List.cons_append, List.nil_append, List.cons.injEq] at h
      rw [h.2]
      simp
  · rw [hm] at hl
    simp at hl

theorem lastOcc_char {β : Type} (c : Char) (f : Text → Text → Option β) (pre post : Text) (b : β) (hc : c ∉ post) (hf : f pre post = some b) :
    lastOcc [c] f (pre ++ (c :: post)) = some b :=
  lastOcc_eq [c] (by simp) f pre post b hf fun p q e hl => absurd (later_mem c pre post p q e hl) hc

/-! ## Words -/

theorem splitWs_word (s w t : Text) (hs : BlankText s) (hw : WordText w) (ht : BlankText t) : splitWs (s ++ w ++ t) = [w] := by
  rw [Ph.splitWs_blank _ _ ht]
  unfold splitWs
  rw [splitWsAux_sep s hs, ← List.append_nil w, splitWsAux_tok w hw.2]
  have := hw.1
  simp [splitWsAux, this]

theorem floatTxt_one (num : Text → Option K) (l w : Text) (x : K) (h : splitWs l = [w]) (hx : num w = some x) : floatTxt num [l] = .ok (some x) := by
  unfold floatTxt
  simp [h, hx]

theorem find_first {α : Type} (p : α → Bool) (A B : List α) (x : α) (hA : ∀ a ∈ A, p a = false) (hx : p x = true) : (A ++ x :: B).find? p = some x := by
  induction A with
  | nil => simp [hx]
  | cons a A ih =>
    rw [List.cons_append, List.find?_cons, hA a (by simp)]
    exact ih fun b hb => hA b (by simp [hb])

theorem find_none {α : Type} (p : α → Bool) (A : List α) (hA : ∀ a ∈ A, p a = false) : A.find? p = none := by
  rw [List.find?_eq_none]
  intro a ha
  rw [hA a ha]
  simp

theorem infix_false {key l : Text} (h : ¬ ∃ a b, l = a ++ key ++ b) : isInfix key l = false := by
  by_contra hc
  exact h ((isInfix_iff_append key l).1 (by simpa using hc))

/-! ## C119 -/

theorem sedAlat_eq (p s w t u : Text) (hw : '=' ∉ w) (hs : BlankText s) (ht : BlankText t) (h0 : t ≠ []) (hu : BlankText u) :
    sedAlat (p ++ '=' :: (s ++ w ++ t ++ "a.u.".toList ++ u)) = s ++ w ++ (t.dropLast ++ u) := by
  have hblank : ∀ x : Text, BlankText x → ∀ c : Char, isPySpace c = false → c ∉ x := fun x hx c hc hm => by
    rw [hx c hm] at hc
    exact absurd hc (by decide)
  unfold sedAlat
  rw [show "=".toList = ['='] from rfl, lastOcc_char '=' _ p _ (s ++ w ++ (t.dropLast ++ u))]
  · rfl
  · have he : isPySpace '=' = false := by decide +kernel
    simp only [List.mem_append, not_or]
    exact ⟨⟨⟨⟨hblank s hs _ he, hw⟩, hblank t ht _ he⟩, by decide +kernel⟩, hblank u hu _ he⟩
  · rw [List.append_assoc (s ++ w ++ t)]
    apply lastOcc_eq
    · decide +kernel
    · rw [List.getLast?_append_of_ne_nil _ h0]
      have hl : (t.getLast?.map isPySpace) = some true := by
        rw [List.getLast?_eq_some_getLast h0, Option.map_some, ht _ (List.getLast_mem h0)]
      rw [if_pos hl, List.dropLast_append_of_ne_nil h0]
      simp
    · intro p' q e hlt
      exfalso
      have h1 := congrArg List.length e
      have e2 : (s ++ w ++ t ++ "a.u".toList) ++ (['.'] ++ u) = (p' ++ "a.u".toList) ++ (['.'] ++ q) := by
        have : "a.u.".toList = "a.u".toList ++ ['.'] := by decide +kernel
        rw [this] at e
        simpa using e
      have := later_mem '.' _ _ _ _ e2 (by simp only [List.length_append]; simp only [List.length_append] at hlt; omega)
      exact hblank u hu '.' (by decide +kernel) this

/-- **C119** The lattice parameter is the one on the first line about it, whatever else is in the file; it is 1 if `use_alat` is off. -/
theorem C119_alat [One K] (num : Text → Option K) (A B : List Text) (l : Text) (x : K) (hA : ∀ l ∈ A, ¬ AlatLike l) (h : AlatLine num l x) :
    alat num true (A ++ l :: B) = .ok (some x) ∧ (∀ file, alat num false file = .ok (some 1)) ∧ alat num true A = .ok none := by
  refine ⟨?_, fun _ => rfl, ?_⟩
  · obtain ⟨p, s, w, t, u, rfl, hs, hw, he, ht, h0, hu, hx⟩ := h.text
    unfold alat
    rw [if_pos rfl, find_first _ A B _ (fun a ha => infix_false (hA a ha)) ((isInfix_iff_append _ _).2 h.like), Option.map_some, Option.toList_some,
      sedAlat_eq p s w t u he hs ht h0 hu]
    refine floatTxt_one num _ w x (splitWs_word s w _ hs hw ?_) hx
    intro c hc
    rw [List.mem_append] at hc
    exact hc.elim (fun h => ht c (List.dropLast_subset _ h)) (hu c)
  · unfold alat
    rw [if_pos rfl, find_none _ A fun a ha => infix_false (hA a ha)]
    rfl

theorem arr2d_words (num : Text → Option K) (rows : List (List Text)) (v : List (List K)) (m : Nat) (hm : 1 < m)
    (h : List.Forall₂ (fun r v => r.map num = v.map some) rows v) (hv : ∀ r ∈ v, r.length = m) (h0 : rows ≠ []) : arr2d num rows = .ok (some v) := by
  have hl := loadRows_eq num rows v m (by omega) h hv
  cases h with
  | nil => exact absurd rfl h0
  | cons hd tl =>
    rename_i l r R' v'
    unfold arr2d
    rw [hl]
    have hr : r.length = m := hv r (by simp)
    have hne : l ≠ [] := by
      intro e
      rw [e] at hd
      have : r = [] := by simpa using hd.symm
      rw [this] at hr
      simp at hr
      omega
    rw [if_neg (by simp [hne])]
    exact if_neg (show ¬ ((r :: v').headD []).length = 1 by rw [List.headD_cons]; omega)

theorem firstBlock_eq (n : Nat) (p : Text → Bool) (A R B : List Text) (hd : Text) (hA : ∀ l ∈ A, p l = false) (hp : p hd = true) (hn : R.length = n) :
    firstBlock n p (A ++ hd :: (R ++ B)) = R := by
  unfold firstBlock
  rw [dropWhile_all _ A _ (fun l hl => by simp [hA l hl]) (fun b hb => by
    simp only [List.head?_cons, Option.some.injEq] at hb
    simp [← hb, hp])]
  rw [List.take_succ_cons, ← hn, List.take_left]
  exact tailN_append R.length [hd] R rfl

theorem firstBlock_none (n : Nat) (p : Text → Bool) (A : List Text) (hA : ∀ l ∈ A, p l = false) : firstBlock n p A = [] := by
  unfold firstBlock
  have := dropWhile_all (fun l => !p l) A [] (fun l hl => by simp [hA l hl]) (by simp)
  rw [List.append_nil] at this
  rw [this]
  simp [tailN]

theorem isAxes_iff (l : Text) : isAxes l = true ↔ AxesLike l := by
  unfold isAxes AxesLike
  simp only [Bool.or_eq_true, hasSeq_cons]
  constructor
  · rintro (⟨a, _, rfl, b, _, rfl, c, _, rfl, d, e, rfl, _⟩ | ⟨a, _, rfl, b, _, rfl, c, _, rfl, d, e, rfl, _⟩)
    · exact ⟨a, b, c, d, e, _, Or.inr rfl, rfl⟩
    · exact ⟨a, b, c, d, e, _, Or.inl rfl, rfl⟩
  · rintro ⟨a, b, c, d, e, unit, rfl | rfl, rfl⟩
    · exact Or.inr ⟨a, _, rfl, b, _, rfl, c, _, rfl, d, e, rfl, rfl⟩
    · exact Or.inl ⟨a, _, rfl, b, _, rfl, c, _, rfl, d, e, rfl, rfl⟩

theorem isSite_iff (l : Text) : isSite l = true ↔ SiteLike l := by
  unfold isSite SiteLike
  simp only [hasSeq_cons]
  constructor
  · rintro ⟨a, _, rfl, b, _, rfl, c, _, rfl, d, _, rfl, e, f, rfl, _⟩
    exact ⟨a, b, c, d, e, f, rfl⟩
  · rintro ⟨a, b, c, d, e, f, rfl⟩
    exact ⟨a, _, rfl, b, _, rfl, c, _, rfl, d, _, rfl, e, f, rfl, rfl⟩

theorem bfalse {b : Bool} {P : Prop} (h : b = true ↔ P) (hn : ¬ P) : b = false := by
  cases b with
  | false => rfl
  | true => exact absurd (h.1 rfl) hn

/-- **C119** The start cell: columns 4 to 6 of the three lines below the first headline, times the lattice parameter. -/
theorem C119_cell [One K] [Mul K] (num : Text → Option K) (useAlat : Bool) (A R B : List Text) (hd : Text) (v : List (List K)) (a : K)
    (hA : ∀ l ∈ A, ¬ AxesLike l) (hh : AxesLike hd) (h3 : R.length = 3) (hv : List.Forall₂ (Row num [4, 5, 6]) R v)
    (ha : alat num useAlat (A ++ hd :: (R ++ B)) = .ok (some a)) :
    getCell num useAlat (A ++ hd :: (R ++ B)) = .ok (some (v.map fun r => r.map (· * a))) := by
  unfold getCell cell2d
  rw [firstBlock_eq 3 _ A R B hd (fun l hl => bfalse (isAxes_iff l) (hA l hl)) ((isAxes_iff hd).2 hh) h3,
    arr2d_words num _ v 3 (by omega) ?_ ?_ ?_]
  · simp only [ha]
  · rw [List.forall₂_map_left_iff]
    exact hv.imp fun l r h => awk_row num _ l r h
  · intro r hr
    clear h3 ha
    induction hv with
    | nil => simp at hr
    | cons h _ ih =>
      rcases List.mem_cons.1 hr with rfl | hr
      · have := congrArg List.length h
        simpa using this.symm
      · exact ih hr
  · intro e
    have : R = [] := by simpa using e
    rw [this] at h3
    simp at h3

theorem sedParen_eq (p body t : Text) (hb : '(' ∉ body) (ht : ')' ∉ t) : sedParen (p ++ '(' :: (body ++ ')' :: t)) = body ++ t := by
  unfold sedParen
  rw [show p ++ '(' :: (body ++ ')' :: t) = (p ++ '(' :: body) ++ ')' :: t by simp, show ")".toList = [')'] from rfl,
    lastOcc_char ')' _ _ t (body ++ t) ht]
  · rfl
  · exact lastOcc_char '(' _ p body _ hb rfl

/-- **C119** The start coordinates and symbols: one atom per line below the first headline, as many as the file says; coordinates times the lattice
parameter. -/
theorem C119_coords [One K] [Mul K] (num : Text → Option K) (useAlat : Bool) (A R B : List Text) (hd : Text) (atoms : List (Text × List K)) (a : K)
    (hA : ∀ l ∈ A, ¬ SiteLike l) (hh : SiteLike hd) (h0 : atoms ≠ []) (hv : List.Forall₂ (HeadAtomLine num) R atoms) (h3 : ∀ x ∈ atoms, x.2.length = 3)
    (hn : PwOut.natoms (A ++ hd :: (R ++ B)) = .ok (some atoms.length)) (ha : alat num useAlat (A ++ hd :: (R ++ B)) = .ok (some a)) :
    getCoords num useAlat (A ++ hd :: (R ++ B)) = .ok (some (atoms.map fun x => x.2.map (· * a))) ∧
    getSymbols num (A ++ hd :: (R ++ B)) = .ok (atoms.map (·.1)) := by
  have hl : R.length = atoms.length := hv.length_eq
  have hc : coordsSymbols num (A ++ hd :: (R ++ B)) = .ok (some (atoms.map (·.2)), atoms.map (·.1)) := by
    unfold coordsSymbols
    rw [hn]
    simp only
    rw [firstBlock_eq _ _ A R B hd (fun l hl => bfalse (isSite_iff l) (hA l hl)) ((isSite_iff hd).2 hh) hl,
      arr2d_words num _ (atoms.map (·.2)) 3 (by omega) ?_ ?_ ?_]
    · simp only
      congr 2
      clear hl hn ha h0 h3
      induction hv with
      | nil => rfl
      | cons h _ ih =>
        rename_i l x ls xs _
        have hne : x.1 ≠ [] := splitWs_ne_nil l x.1 (List.mem_of_getElem? h.1)
        have e : awk [2] l = [x.1] := by
          unfold awk
          simp [List.getD_eq_getElem?_getD, h.1, hne]
        rw [List.flatMap_cons, ih, e]
        rfl
    · rw [List.forall₂_map_left_iff, List.forall₂_map_right_iff]
      refine hv.imp fun l x h => ?_
      obtain ⟨_, p, body, t, rfl, hb, ht, hx⟩ := h
      rw [sedParen_eq p body t hb fun hm => by
        have := ht _ hm
        exact absurd this (by decide +kernel), Ph.splitWs_blank _ _ ht]
      exact hx
    · intro r hr
      obtain ⟨x, hx, rfl⟩ := List.mem_map.1 hr
      exact h3 x hx
    · intro e
      have : R = [] := by simpa using e
      rw [this] at hl
      exact h0 (List.length_eq_zero_iff.1 hl.symm)
  constructor
  · unfold getCoords
    rw [hc]
    simp only [ha]
    rw [List.map_map]
    rfl
  · unfold getSymbols
    rw [hc]
    rfl

/-- **C119** The number of k-points is the one on the first line about it; a file without such a line gives `None`. -/
theorem C119_nkpoints (A B : List Text) (l : Text) (n : Nat) (hA : ∀ l ∈ A, ¬ PointsLike l) (h : PointsLine l n) :
    nkpoints (A ++ l :: B) = .ok (some n) ∧ nkpoints A = .ok none := by
  have hA' : ∀ a ∈ A, isInfix "number of k points=".toList a = false := fun a ha => infix_false (hA a ha)
  constructor
  · obtain ⟨a, s, b, rfl, hs, hb, he⟩ := h
    unfold nkpoints
    rw [find_first _ A B _ hA' ((isInfix_iff_append _ _).2 ⟨_, _, rfl⟩)]
    simp only
    have hds : ((s ++ strNat n ++ b).dropWhile isPySpace).takeWhile Char.isDigit = strNat n := by
      rw [List.append_assoc, PwOut.dropWhile_blank _ _ hs, PwOut.takeWhile_digits _ _ (strNat_digits n) hb]
      intro x hx
      have hne := strNat_ne_nil n
      cases hs : strNat n with
      | nil => exact absurd hs hne
      | cons y ys =>
        rw [hs] at hx
        simp only [List.cons_append, List.head?_cons, Option.some.injEq] at hx
        subst hx
        exact isPySpace_digit _ (strNat_digits n y (by simp [hs]))
    have hsed : sedPoints (a ++ "number of k points=".toList ++ (s ++ strNat n ++ b)) = some (strNat n) := by
      unfold sedPoints
      rw [show a ++ "number of k points=".toList ++ (s ++ strNat n ++ b) = (a ++ "number of k ".toList) ++ ("points=".toList ++ (s ++ strNat n ++ b)) by
        have : "number of k points=".toList = "number of k ".toList ++ "points=".toList := by decide +kernel
        rw [this]
        simp]
      apply lastOcc_eq
      · decide +kernel
      · simp only [hds]
        rw [if_neg (strNat_ne_nil n)]
      · intro p q e hlt
        exfalso
        have hp : "points=".toList = "points".toList ++ ['='] := by decide +kernel
        have e2 : ((a ++ "number of k ".toList) ++ "points".toList) ++ (['='] ++ (s ++ strNat n ++ b)) = (p ++ "points".toList) ++ (['='] ++ q) := by
          rw [hp] at e
          simpa using e
        have := later_mem '=' _ _ _ _ e2 (by simp only [List.length_append]; simp only [List.length_append] at hlt; omega)
        simp only [List.mem_append] at this
        rcases this with (h | h) | h
        · exact absurd (hs _ h) (by decide +kernel)
        · exact absurd (strNat_digits n _ h) (by decide)
        · exact he h
    rw [hsed]
    simp [parseInt_strNat]
  · unfold nkpoints
    rw [find_none _ A hA']

/-- **C119** A file without the header (an empty file, a run which died) has no cell; the coordinates raise as the number of atoms is missing. -/
theorem C119_absent [One K] [Mul K] (num : Text → Option K) (useAlat : Bool) (file : List Text) (h1 : ∀ l ∈ file, ¬ AxesLike l)
    (h2 : ∀ l ∈ file, ¬ AlatLike l) (h3 : ∀ l ∈ file, ¬ NatomsLike l) :
    getCell num useAlat file = .ok none ∧ getCoords num useAlat file = .error .type ∧ getSymbols num file = .error .type := by
  have hn : PwOut.natoms file = .ok none := by
    unfold PwOut.natoms
    rw [find_none _ file fun l hl => bfalse (PwOut.isNatoms_iff l) (h3 l hl)]
  have hc : coordsSymbols num file = .error .type := by
    unfold coordsSymbols
    rw [hn]
  refine ⟨?_, ?_, ?_⟩
  · unfold getCell cell2d
    rw [firstBlock_none 3 _ file fun l hl => bfalse (isAxes_iff l) (h1 l hl)]
    have ha : ∃ a, alat num useAlat file = .ok a := by
      cases useAlat with
      | false => exact ⟨_, rfl⟩
      | true =>
        refine ⟨none, ?_⟩
        unfold alat
        rw [if_pos rfl, find_none _ file fun a ha => infix_false (h2 a ha)]
        rfl
    obtain ⟨a, ha⟩ := ha
    rw [ha]
    rfl
  · unfold getCoords
    rw [hc]
  · unfold getSymbols
    rw [hc]
    rfl

/-! ## C120 -/

theorem interleaved_filter {α : Type} {P : Text → α → Prop} {Q : Text → Prop} (p : Text → Bool) {file : List Text} {xs : List α}
    (h : Interleaved P Q file xs) (hP : ∀ l x, P l x → p l = true) (hQ : ∀ l, Q l → p l = false) : List.Forall₂ P (file.filter p) xs := by
  induction h with
  | nil => exact .nil
  | other hq _ ih => rw [List.filter_cons_of_neg (by simp [hQ _ hq])]; exact ih
  | hit hp _ ih => rw [List.filter_cons_of_pos (hP _ _ hp)]; exact .cons hp ih

theorem arr1d_words (num : Text → Option K) (rows : List (List Text)) (v : List K)
    (h : List.Forall₂ (fun r x => r.map num = [some x]) rows v) (h0 : v ≠ []) : arr1d num rows = .ok (some v) := by
  have h' : List.Forall₂ (fun r v => r.map num = v.map some) rows (v.map fun x => [x]) := by
    rw [List.forall₂_map_right_iff]
    exact h.imp fun r x hx => by simpa using hx
  have hl := loadRows_eq num rows (v.map fun x => [x]) 1 (by omega) h' (by
    intro r hr
    obtain ⟨x, _, rfl⟩ := List.mem_map.1 hr
    rfl)
  have hf : rows.flatten ≠ [] := by
    cases h with
    | nil => exact absurd rfl h0
    | cons hd tl =>
      rename_i r x _ _
      have : r ≠ [] := by
        intro e
        rw [e] at hd
        simp at hd
      simp [this]
  unfold arr1d
  rw [if_neg hf, hl]
  simp only
  congr 2
  clear h h' hl hf h0
  induction v with
  | nil => rfl
  | cons x v ih => simp [ih]

theorem floatChar_iff (c : Char) : floatChar c = true ↔ NumChar c := by
  unfold floatChar NumChar
  have : ".eEdD+-".toList = ['.', 'e', 'E', 'd', 'D', '+', '-'] := by decide +kernel
  rw [this]
  simp only [Bool.or_eq_true, decide_eq_true_eq, List.mem_cons, List.not_mem_nil, or_false, or_assoc]

theorem numChar_noEq : ¬ NumChar '=' := by
  rw [← floatChar_iff]
  decide +kernel

theorem numChar_noBlank (c : Char) (h : NumChar c) : isPySpace c = false := by
  rcases h with h | h
  · exact isPySpace_digit c h
  · have : ".eEdD+-".toList = ['.', 'e', 'E', 'd', 'D', '+', '-'] := by decide +kernel
    rw [this] at h
    have hall : ∀ c ∈ ['.', 'e', 'E', 'd', 'D', '+', '-'], isPySpace c = false := by decide +kernel
    exact hall c h

theorem takeWhile_of {p : Char → Bool} (t d : Text) (ht : ∀ x ∈ t, p x = true) (hd : ∀ x, d.head? = some x → p x = false) : (t ++ d).takeWhile p = t := by
  induction t with
  | nil =>
    cases d with
    | nil => rfl
    | cons c d => simp [hd c rfl]
  | cons c t ih =>
    simp only [List.cons_append, List.takeWhile_cons, ht c (by simp), if_true]
    rw [ih fun x hx => ht x (by simp [hx])]

theorem factor_line (num : Text → Option K) (l : Text) (x : K) (h : FactorLine num l x) :
    (splitWs (sedFactor l)).map num = [some x] ∧ isInfix "CELL_PARAMETERS".toList l = true ∧
    hasSeq ["CELL_PARAMETERS".toList, "alat".toList, "=".toList] l = true := by
  obtain ⟨a, b, c, s, w, r, rfl, hs, hw, hn, hr, he, hx⟩ := h.text
  refine ⟨?_, ?_, ?_⟩
  · have hds : ((s ++ w ++ r).dropWhile isPySpace).takeWhile floatChar = w := by
      rw [List.append_assoc, PwOut.dropWhile_blank _ _ hs, takeWhile_of w r (fun c hc => (floatChar_iff c).2 (hn c hc))
        fun c hc => bfalse (floatChar_iff c) (hr c hc)]
      intro c hc
      cases w with
      | nil => exact absurd rfl hw
      | cons y ys =>
        simp only [List.cons_append, List.head?_cons, Option.some.injEq] at hc
        exact hc ▸ numChar_noBlank y (hn y (by simp))
    have hsed : sedFactor (a ++ "CELL_PARAMETERS".toList ++ b ++ "alat".toList ++ c ++ '=' :: (s ++ w ++ r)) = w := by
      unfold sedFactor
      rw [show "=".toList = ['='] from rfl, lastOcc_char '=' _ _ _ w]
      · rfl
      · simp only [List.mem_append, not_or]
        refine ⟨⟨fun h => ?_, fun h => numChar_noEq (hn _ h)⟩, he⟩
        exact absurd (hs _ h) (by decide +kernel)
      · simp only [hds]
        rw [if_pos]
        rw [Bool.and_eq_true, isInfix_iff_append]
        refine ⟨⟨_, c, rfl⟩, ?_⟩
        cases w with
        | nil => exact absurd rfl hw
        | cons _ _ => rfl
    rw [hsed]
    have := splitWs_word [] w [] (by intro c hc; simp at hc) ⟨hw, fun c hc => numChar_noBlank c (hn c hc)⟩ (by intro c hc; simp at hc)
    simp only [List.nil_append, List.append_nil] at this
    rw [this]
    simp [hx]
  · exact (isInfix_iff_append _ _).2 ⟨a, b ++ "alat".toList ++ c ++ '=' :: (s ++ w ++ r), by simp⟩
  · rw [Cut.hasSeq_three]
    exact ⟨a, b, c, s ++ w ++ r, by simp [show "=".toList = ['='] from rfl]⟩

/-- **C120** The unit factors of the cells: one number per `CELL_PARAMETERS` headline, in the order of the file, each the one on its own line - so they
may differ, as in a file made of several runs. Without any such line there are none. -/
theorem C120_factors (num : Text → Option K) (file : List Text) (xs : List K) (h : Interleaved (FactorLine num) (fun l => ¬ CellLike l) file xs) :
    cellFactors num true file = .ok (if xs = [] then none else some xs) ∧ cellFactors num false file = .ok none := by
  constructor
  · have hf := interleaved_filter (isInfix "CELL_PARAMETERS".toList) h (fun l x hx => (factor_line num l x hx).2.1) fun l hl => infix_false hl
    have hany : file.any (hasSeq ["CELL_PARAMETERS".toList, "alat".toList, "=".toList]) = true ↔ xs ≠ [] := by
      clear hf
      induction h with
      | nil => simp
      | other hq _ ih =>
        rename_i l ls xs _
        have : hasSeq ["CELL_PARAMETERS".toList, "alat".toList, "=".toList] l = false := by
          by_contra hc
          rw [Bool.not_eq_false, Cut.hasSeq_three] at hc
          obtain ⟨u, v, w, x, rfl⟩ := hc
          exact hq ⟨u, v ++ "alat".toList ++ w ++ "=".toList ++ x, by simp⟩
        rw [List.any_cons, this, Bool.false_or]
        exact ih
      | hit hp _ _ =>
        rw [List.any_cons, (factor_line num _ _ hp).2.2]
        simp
    unfold cellFactors
    by_cases hx : xs = []
    · rw [if_neg (fun hc => (hany.1 hc) hx), if_pos hx]
    · rw [if_pos (hany.2 hx), if_pos rfl, if_neg hx]
      refine arr1d_words num _ xs ?_ hx
      rw [List.forall₂_map_left_iff]
      exact hf.imp fun l x hlx => (factor_line num l x hlx).1
  · unfold cellFactors
    split <;> rfl

theorem ekin_iff (l : Text) : hasSeq ["Ekin".toList, "T".toList, "Etot".toList] l = true ↔ EkinLike l := Cut.hasSeq_three _ _ _ _

/-- **C120** Variable cell MD: kinetic energy, temperature and the constant of motion are those of the lines with `Ekin ... T ... Etot`, in order. -/
theorem C120_vcmd_partial (num : Text → Option K) (file : List Text) (xs : List (K × K × K)) (h0 : xs ≠ [])
    (h : Interleaved (fun l x => EkinLike l ∧ Row num [3, 7, 11] l [x.1, x.2.1, x.2.2]) (fun l => ¬ EkinLike l) file xs) :
    vcmdColumn num 0 file = .ok (xs.map (·.1)) ∧ vcmdColumn num 1 file = .ok (xs.map (·.2.1)) ∧ vcmdColumn num 2 file = .ok (xs.map (·.2.2)) := by
  have hf := interleaved_filter (hasSeq ["Ekin".toList, "T".toList, "Etot".toList]) h (fun l x hx => (ekin_iff l).2 hx.1) fun l hl => bfalse (ekin_iff l) hl
  have hr : dataRows num file = .ok (some (xs.map fun x => [x.1, x.2.1, x.2.2])) := by
    unfold dataRows
    apply arr2d_words num _ _ 3 (by omega)
    · rw [List.forall₂_map_left_iff, List.forall₂_map_right_iff]
      exact hf.imp fun l x hlx => awk_row num _ l _ hlx.2
    · intro r hr
      obtain ⟨x, _, rfl⟩ := List.mem_map.1 hr
      rfl
    · intro e
      have := hf.length_eq
      rw [List.map_eq_nil_iff] at e
      rw [e] at this
      exact h0 (List.length_eq_zero_iff.1 this.symm)
  have hm : ∀ (j : Nat) (g : K × K × K → K), (∀ x : K × K × K, [x.1, x.2.1, x.2.2][j]? = some (g x)) → vcmdColumn num j file = .ok (xs.map g) := by
    intro j g hg
    unfold vcmdColumn
    rw [hr]
    simp only
    rw [mapM_map_some (fun r : List K => r[j]?) (xs.map fun x => [x.1, x.2.1, x.2.2]) (xs.map g)]
    rw [List.forall₂_map_left_iff, List.forall₂_map_right_iff, List.forall₂_same]
    exact fun x _ => hg x
  exact ⟨hm 0 _ fun _ => rfl, hm 1 _ fun _ => rfl, hm 2 _ fun _ => rfl⟩

/-- **C120** is false for a run which has not got to the first such line: not `None` but an exception. -/
theorem C120_vcmd_counterexample (num : Text → Option K) (file : List Text) (h : ∀ l ∈ file, ¬ EkinLike l) (j : Nat) : vcmdColumn num j file = .error .type := by
  unfold vcmdColumn dataRows
  rw [List.filter_eq_nil_iff.2 fun l hl => by rw [bfalse (ekin_iff l) (h l hl)]; simp]
  rfl

/-- **C120** Numbers of iterations: one for each SCF cycle which says that it has converged, in order; the single point getter returns the first. -/
theorem C120_nstep_scf (file : List Text) (ns : List Nat) (h0 : ns ≠ [])
    (h : Interleaved (fun l n => IterLike l ∧ (splitWs l)[5]? = some (strNat n)) (fun l => ¬ IterLike l) file ns) :
    nstepScfRaw file = .ok (some (ns.map Int.ofNat)) ∧ nstepScf file = .ok (some (Int.ofNat (ns.head h0))) := by
  have hf := interleaved_filter (isInfix "convergence has been achieved in".toList) h (fun l x hx => (isInfix_iff_append _ _).2 hx.1) fun l hl => infix_false hl
  have hr : nstepScfRaw file = .ok (some (ns.map Int.ofNat)) := by
    unfold nstepScfRaw
    apply arr1d_words
    · rw [List.forall₂_map_left_iff, List.forall₂_map_right_iff]
      refine hf.imp fun l n hln => ?_
      have : awk [6] l = [strNat n] := by
        unfold awk
        simp [List.getD_eq_getElem?_getD, hln.2, strNat_ne_nil]
      rw [this]
      simp [parseInt_strNat]
    · simpa using h0
  refine ⟨hr, ?_⟩
  unfold nstepScf
  rw [hr]
  cases ns with
  | nil => exact absurd rfl h0
  | cons n ns => rfl

/-- A relaxation with one step after the start. -/
def exRelax : List Text := ["     number of atoms/cell      =            1", "!    total energy              =     -10 Ry",
  "     convergence has been achieved in  12 iterations", "ATOMIC_POSITIONS (alat)", "Si 0 0 0", "!    total energy              =     -11 Ry",
  "     convergence has been achieved in  5 iterations"].map String.toList

/-- **C120** counterexample: in a relaxation `etot` has one entry per step (the energy of the start structure is left out), the numbers of iterations
are not adapted: entry 0 belongs to another SCF cycle than entry 0 of the energies. -/
theorem C120_nstep_scf_counterexample :
    ((PwOut.getEtot parseInt exRelax).toOption, (nstepScfRaw exRelax).toOption) = (some (some [-11]), some (some [12, 5])) := by
  decide +kernel

/-- Non-vacuity: a header. -/
example : AlatLine parseInt "     lattice parameter (alat)  =       5  a.u.".toList (5 : Int) ∧ PointsLine "     number of k points=    21".toList 21 ∧
    AxesLike "     crystal axes: (cart. coord. in units of alat)".toList ∧ Row parseInt [4, 5, 6] "  a(1) = (   1   0   -2 )".toList [(1 : Int), 0, -2] ∧
    SiteLike "     site n.     atom                  positions (alat units)".toList ∧
    HeadAtomLine parseInt "         1           Al  tau(   1) = (   0   1   2  )".toList ("Al".toList, [(0 : Int), 1, 2]) := by
  refine ⟨⟨⟨"     ".toList, " (alat)  =       5  a.u.".toList, by decide +kernel⟩, "     lattice parameter (alat)  ".toList, "       ".toList, "5".toList,
    "  ".toList, [], ?_⟩, ⟨"     ".toList, "    ".toList, [], ?_⟩,
    ⟨"     ".toList, " ".toList, ": (cart. coord. in ".toList, " of ".toList, ")".toList, _, Or.inl rfl, by decide +kernel⟩, ?_,
    ⟨"     ".toList, " n.     ".toList, "                  ".toList, " (alat ".toList, [], [], by decide +kernel⟩, by decide +kernel,
    ⟨"         1           Al  tau(   1) = ".toList, "   0   1   2  ".toList, [], ?_⟩⟩
  · unfold BlankText WordText; decide +kernel
  · refine ⟨by decide +kernel, by unfold BlankText; decide +kernel, by simp, by simp⟩
  · unfold Row; decide +kernel
  · unfold BlankText NumLine; decide +kernel

/-- Non-vacuity: two runs with different units. -/
example : Interleaved (FactorLine parseInt) (fun l => ¬ CellLike l) (["CELL_PARAMETERS (alat= 22)", "x", "CELL_PARAMETERS (alat= 23)"].map String.toList) [(22 : Int), 23] := by
  refine .hit ⟨[], " (".toList, [], " ".toList, "22".toList, ")".toList, ?_⟩ (.other ?_ (.hit ⟨[], " (".toList, [], " ".toList, "23".toList, ")".toList, ?_⟩ .nil))
  · refine ⟨by decide +kernel, by unfold BlankText; decide +kernel, by decide +kernel, by unfold NumChar; decide +kernel, ?_, by decide +kernel, by decide +kernel⟩
    intro c hc
    have : c = ')' := by simpa using hc.symm
    rw [this, ← floatChar_iff]
    decide +kernel
  · rintro ⟨a, b, h⟩
    have := congrArg List.length h
    simp at this
    omega
  · refine ⟨by decide +kernel, by unfold BlankText; decide +kernel, by decide +kernel, by unfold NumChar; decide +kernel, ?_, by decide +kernel, by decide +kernel⟩
    intro c hc
    have : c = ')' := by simpa using hc.symm
    rw [this, ← floatChar_iff]
    decide +kernel

/-- Non-vacuity: a line of a vc-md run. -/
example : EkinLike "     Ekin =     1 Ry     T =  300 K      Etot =   -34".toList ∧
    Row parseInt [3, 7, 11] "     Ekin =     1 Ry     T =  300 K      Etot =   -34".toList [(1 : Int), 300, -34] ∧
    IterLike "     convergence has been achieved in  12 iterations".toList ∧ (splitWs "     convergence has been achieved in  12 iterations".toList)[5]? = some (strNat 12) :=
  ⟨⟨"     ".toList, " =     1 Ry     ".toList, " =  300 K      ".toList, " =   -34".toList, by decide +kernel⟩, by unfold Row; decide +kernel,
    ⟨"     ".toList, "  12 iterations".toList, by decide +kernel⟩, by decide +kernel⟩

end Pwtools.PwHead
