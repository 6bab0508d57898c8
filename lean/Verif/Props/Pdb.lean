import Verif.Model.Pdb
import Verif.Spec.Pdb
import Verif.Props.Regex
import Verif.Props.PwRead
import Verif.Props.ReadMd
import Verif.Props.Cif
import Mathlib.Data.List.TakeWhile
/-!
# C136: PDB files
-/
namespace Pwtools.Pdb
open Re Gr Tr Units PwRead Spec
variable {β : Type}

/-! ## classes of characters -/

theorem letter_iff (c : Char) : letter c = c.isAlpha := Cif.letter_alpha c

theorem digit_iff (c : Char) : digit c = c.isDigit := by
  rfl

theorem digit_space (c : Char) (h : c.isDigit = true) : isPySpace c = false := isPySpace_digit c h

theorem floatChar_iff (c : Char) : floatChar c = true ↔ c.isDigit = true ∨ c ∈ ['.', '+', '-', 'e', 'E', 'd', 'D'] := by
  unfold floatChar sign
  rw [digit_iff]
  simp
  tauto

theorem floatChar_space (c : Char) (h : floatChar c = true) : isPySpace c = false := by
  rcases (floatChar_iff c).1 h with h | h
  · exact digit_space c h
  · simp only [List.mem_cons, List.not_mem_nil, or_false] at h
    rcases h with rfl | rfl | rfl | rfl | rfl | rfl | rfl <;> decide

theorem alpha_range (c : Char) (h : c.isAlpha = true) : (97 ≤ c.toNat ∧ c.toNat ≤ 122) ∨ (65 ≤ c.toNat ∧ c.toNat ≤ 90) := by
  rw [← letter_iff] at h
  simp only [letter, Bool.or_eq_true, Bool.and_eq_true, decide_eq_true_eq] at h
  exact h

theorem letter_space (c : Char) (h : c.isAlpha = true) : isPySpace c = false := by
  have h1 := alpha_range c h
  simp only [isPySpace]
  generalize c.toNat = n at h1
  simp only [Bool.or_eq_false_iff, Bool.and_eq_false_iff, decide_eq_false_iff_not, beq_eq_false_iff_ne]
  omega

theorem letter_digit (c : Char) (h : c.isAlpha = true) : c.isDigit = false := by
  have h1 := alpha_range c h
  by_contra hd
  simp only [Char.isDigit, Bool.not_eq_false, Bool.and_eq_true, decide_eq_true_eq] at hd
  have h2 : 48 ≤ c.toNat ∧ c.toNat ≤ 57 := hd
  omega

/-! ## numbers -/

theorem num_split {x : Text} (h : PdbNum x) : (∀ c ∈ x, floatChar c = true) ∧ ∃ u v, x = u ++ v ∧ (∀ c ∈ u, sign c = true) ∧ v ≠ [] ∧
    ∀ c, v.head? = some c → sign c = false := by
  refine ⟨fun c hc => (floatChar_iff c).2 (h.1 c hc), x.takeWhile sign, x.dropWhile sign, (List.takeWhile_append_dropWhile).symm, fun c hc => List.mem_takeWhile_imp hc, ?_, ?_⟩
  · intro e
    rw [List.dropWhile_eq_nil_iff] at e
    obtain ⟨c, hc, h1, h2⟩ := h.2
    have := e c hc
    simp [sign, h1, h2] at this
  · intro c hc
    have := List.head?_dropWhile_not sign x
    rw [hc] at this
    simpa using this

theorem float_m {k : Text → Text → Caps → Option β} (x s : Text) (b : β) (hx : PdbNum x) (hs : ∀ c, s.head? = some c → floatChar c = false) (h : k x s [] = some b) :
    floatRe.m (x ++ s) k = some b := by
  obtain ⟨hf, u, v, rfl, hu, hv, hv'⟩ := num_split hx
  unfold floatRe
  rw [Rx.m, List.append_assoc]
  refine many_all u (v ++ s) b hu (fun c hc => hv' c ?_) (Nat.zero_le _) ?_
  · rw [List.head?_append_of_ne_nil _ hv] at hc
    exact hc
  · exact many_all v s b (fun c hc => hf c (by simp [hc])) hs (List.length_pos_iff.2 hv) (by simpa using h)

theorem word_m {k : Text → Text → Caps → Option β} (n : Nat) (w x s : Text) (b : β) (hw : BlankText w) (hw' : w ≠ []) (hx : PdbNum x)
    (hs : ∀ c, s.head? = some c → floatChar c = false) (h : k (w ++ x) s [(n, w ++ x)] = some b) : (wordRe n).m (w ++ (x ++ s)) k = some b := by
  unfold wordRe
  rw [Rx.m, Rx.m]
  refine many_all w (x ++ s) b hw (fun c hc => ?_) (List.length_pos_iff.2 hw') ?_
  · obtain ⟨hf, -⟩ := num_split hx
    have hne : x ≠ [] := by obtain ⟨d, hd, -⟩ := hx.2; exact List.ne_nil_of_mem hd
    rw [List.head?_append_of_ne_nil _ hne] at hc
    exact floatChar_space c (hf c (List.mem_of_mem_head? hc))
  · exact float_m x s b hx hs (by simpa using h)

theorem word_none {k : Text → Text → Caps → Option β} (n : Nat) (s : Text) (hs : ∀ c, s.head? = some c → isPySpace c = false) : (wordRe n).m s k = none := by
  unfold wordRe
  rw [Rx.m, Rx.m]
  refine many_none fun n h1 h2 => ?_
  cases s with
  | nil => simp at h2; omega
  | cons c s =>
    rw [List.takeWhile_cons_of_neg (by simp [hs c rfl])] at h2
    simp at h2
    omega

/-- Texts with digits and blanks before the coordinates: no white space behind the first character, no coordinates. -/
theorem coords_none {k : Text → Text → Caps → Option β} (n m : Nat) (t : Text)
    (h : ∀ i c, 1 ≤ i → i ≤ (t.takeWhile fun c => isPySpace c || digit c).length → t[i]? = some c → isPySpace c = false) :
    (Rx.seq (.many 1 fun c => isPySpace c || digit c) (.grp n ((wordRe m).rep 3))).m t k = none := by
  rw [Rx.m]
  refine many_none fun i h1 h2 => ?_
  rw [Rx.m, Rx.rep, Rx.m]
  refine word_none _ _ fun c hc => h i c h1 h2 ?_
  rw [List.head?_drop] at hc
  exact hc

/-- The groups of a record. -/
def PdbCaps (a : PdbAtom) (g : Caps) : Prop := group g 2 = some a.name ∧ ∃ w, BlankText w ∧ group g 3 = some (w ++ (a.x ++ (a.gap1 ++ (a.y ++ (a.gap2 ++ a.z)))))

theorem head_append {s t : Text} (hs : s ≠ []) {c : Char} (h : (s ++ t).head? = some c) : c ∈ s := by
  rw [List.head?_append_of_ne_nil _ hs] at h
  exact List.mem_of_mem_head? h

theorem blank_float {w t : Text} (hw : BlankText w) (hw' : w ≠ []) : ∀ c, (w ++ t).head? = some c → floatChar c = false := by
  intro c hc
  by_contra hf
  have := floatChar_space c (by simpa using hf)
  rw [hw c (head_append hw' hc)] at this
  simp at this

theorem coords_m {k : Text → Text → Caps → Option β} (w x w1 y w2 z s : Text) (b : β) (hw : BlankText w) (hw' : w ≠ []) (hx : PdbNum x) (h1 : BlankText w1)
    (h1' : w1 ≠ []) (hy : PdbNum y) (h2 : BlankText w2) (h2' : w2 ≠ []) (hz : PdbNum z) (hs : ∀ c, s.head? = some c → floatChar c = false)
    (h : k (w ++ x ++ (w1 ++ y ++ (w2 ++ z ++ []))) s ((3, w ++ x ++ (w1 ++ y ++ (w2 ++ z ++ []))) :: ([(4, w ++ x)] ++ ([(4, w1 ++ y)] ++ ([(4, w2 ++ z)] ++ [])))) =
      some b) : (Rx.grp 3 ((wordRe 4).rep 3)).m (w ++ (x ++ (w1 ++ (y ++ (w2 ++ (z ++ s)))))) k = some b := by
  rw [Rx.m, Rx.rep, Rx.m]
  refine word_m 4 w x _ b hw hw' hx (blank_float h1 h1') ?_
  rw [Rx.rep, Rx.m]
  refine word_m 4 w1 y _ b h1 h1' hy (blank_float h2 h2') ?_
  rw [Rx.rep, Rx.m]
  refine word_m 4 w2 z _ b h2 h2' hz hs ?_
  rw [Rx.rep, Rx.m]
  exact h

/-- A position behind which a point or a sign ends all digits. -/
theorem stop_at {x : Text} (hx : ∃ c ∈ x, c = '.' ∨ c = '+' ∨ c = '-') : ∃ (i : Nat) (c : Char), x[i]? = some c ∧ (c = '.' ∨ c = '+' ∨ c = '-') := by
  obtain ⟨c, hc, h⟩ := hx
  obtain ⟨i, hi⟩ := List.mem_iff_getElem?.1 hc
  exact ⟨i, c, hi, h⟩

/-- Digits, letters or blanks before the coordinates: the search ends with the last two blanks before them. -/
theorem body_m {k : Text → Text → Caps → Option β} (r x w1 y w2 z s : Text) (g0 g1 : Char) (b : β)
    (hr : ∀ c ∈ r, isPySpace c = true ∨ c.isAlpha = true ∨ c.isDigit = true) (hg0 : isPySpace g0 = true) (hg1 : isPySpace g1 = true)
    (hx : PdbNum x) (hx' : ∃ c ∈ x, c = '.' ∨ c = '+' ∨ c = '-') (h1 : BlankText w1) (h1' : w1 ≠ []) (hy : PdbNum y) (h2 : BlankText w2) (h2' : w2 ≠ [])
    (hz : PdbNum z) (hs : ∀ c, s.head? = some c → floatChar c = false)
    (h : k (r ++ ([g0] ++ ([g1] ++ x ++ (w1 ++ y ++ (w2 ++ z ++ []))))) s
      ([] ++ ([] ++ ((3, [g1] ++ x ++ (w1 ++ y ++ (w2 ++ z ++ []))) :: ([(4, [g1] ++ x)] ++ ([(4, w1 ++ y)] ++ ([(4, w2 ++ z)] ++ [])))))) = some b) :
    (Rx.seq (.many 0 fun c => isPySpace c || letter c || digit c) (.seq (.many 1 fun c => isPySpace c || digit c) (.grp 3 ((wordRe 4).rep 3)))).m
      (r ++ (g0 :: g1 :: (x ++ (w1 ++ (y ++ (w2 ++ (z ++ s))))))) k = some b := by
  obtain ⟨i, st, hi, hst⟩ := stop_at hx'
  obtain ⟨hf, -⟩ := num_split hx
  have hil : i < x.length := (List.getElem?_eq_some_iff.1 hi).1
  set X := x ++ (w1 ++ (y ++ (w2 ++ (z ++ s)))) with hX
  have hXi : ∀ j, j ≤ i → ∀ c, X[j]? = some c → isPySpace c = false := by
    intro j hj c hc
    rw [hX, List.getElem?_append_left (by omega)] at hc
    exact floatChar_space c (hf c (List.mem_iff_getElem?.2 ⟨j, hc⟩))
  have hXst : X[i]? = some st := by rw [hX, List.getElem?_append_left hil, hi]
  have st1 : (isPySpace st || digit st) = false := by rcases hst with rfl | rfl | rfl <;> decide
  have st2 : (isPySpace st || letter st || digit st) = false := by rcases hst with rfl | rfl | rfl <;> decide
  rw [Rx.m]
  refine many_some r.length b (Nat.zero_le _) ?_ ?_ ?_
  · rw [List.takeWhile_append_of_pos]
    · simp
    · intro c hc
      rcases hr c hc with h | h | h
      · simp [h]
      · simp [letter_iff, h]
      · simp [digit_iff, h]
  · intro n hn1 hn2
    have := takeWhile_le (p := fun c => isPySpace c || letter c || digit c) (r ++ g0 :: g1 :: X) (r.length + 2 + i) st (by
      rw [List.getElem?_append_right (by omega), show r.length + 2 + i - r.length = i + 2 by omega]
      exact hXst) st2
    obtain ⟨j, rfl⟩ : ∃ j, n = r.length + (1 + j) := ⟨n - r.length - 1, by omega⟩
    rw [List.drop_append, List.drop_eq_nil_of_le (by omega), List.nil_append, show r.length + (1 + j) - r.length = j + 1 by omega, List.drop_succ_cons]
    refine coords_none _ _ _ fun i' c h1 h2 hc => ?_
    have hj : j ≤ 1 + i := by omega
    have h3 := takeWhile_le (p := fun c => isPySpace c || digit c) (List.drop j (g1 :: X)) (1 + i - j) st (by
      rw [List.getElem?_drop, show j + (1 + i - j) = i + 1 by omega]
      exact hXst) st1
    rw [List.getElem?_drop, show j + i' = (j + i' - 1) + 1 by omega, List.getElem?_cons_succ] at hc
    exact hXi _ (by omega) c hc
  · rw [List.take_left, List.drop_left, Rx.m]
    refine many_some 1 b (Nat.le_refl _) ?_ ?_ ?_
    · rw [List.takeWhile_cons_of_pos (by simp [hg0])]
      simp
    · intro n hn1 hn2
      have := takeWhile_le (p := fun c => isPySpace c || digit c) (g0 :: g1 :: X) (i + 2) st hXst st1
      obtain ⟨j, rfl⟩ : ∃ j, n = j + 2 := ⟨n - 2, by omega⟩
      rw [Rx.m, Rx.rep, Rx.m]
      refine word_none _ _ fun c hc => ?_
      rw [List.drop_succ_cons, List.drop_succ_cons, List.head?_drop] at hc
      exact hXi j (by omega) c hc
    · rw [List.drop_succ_cons, List.drop_zero, List.take_succ_cons, List.take_zero]
      exact coords_m [g1] x w1 y w2 z s b (by simpa [BlankText] using hg1) (by simp) hx h1 h1' hy h2 h2' hz hs h

theorem gap_split {gap : Text} (h : BlankText gap ∧ 2 ≤ gap.length) : ∃ u g0 g1, gap = u ++ [g0, g1] ∧ BlankText u ∧ isPySpace g0 = true ∧ isPySpace g1 = true := by
  obtain ⟨u, g1, rfl⟩ : ∃ u g1, gap = u ++ [g1] := ⟨_, _, (List.dropLast_append_getLast (by rintro rfl; simp at h)).symm⟩
  obtain ⟨v, g0, rfl⟩ : ∃ v g0, u = v ++ [g0] := ⟨_, _, (List.dropLast_append_getLast (by rintro rfl; simp at h)).symm⟩
  refine ⟨v, g0, g1, by simp, fun c hc => h.1 c (by simp [hc]), h.1 g0 (by simp), h.1 g1 (by simp)⟩

theorem kind_m {k : Text → Text → Caps → Option β} (kd s : Text) (b : β) (hk : kd = "ATOM".toList ∨ kd = "HETATM".toList) (h : k kd s [(1, kd)] = some b) :
    (Rx.grp 1 (.alt (.lit "ATOM".toList) (.lit "HETATM".toList))).m (kd ++ s) k = some b := by
  simp only [Rx.m]
  rcases hk with rfl | rfl
  · rw [if_pos (List.isPrefixOf_iff_prefix.2 ⟨s, rfl⟩), List.drop_left, h]
    rfl
  · have e : "ATOM".toList.isPrefixOf ("HETATM".toList ++ s) = false := by
      rw [← Bool.not_eq_true, List.isPrefixOf_iff_prefix]
      rintro ⟨t, ht⟩
      have := congrArg (List.take 1) ht
      simp at this
    rw [e, if_neg (by simp), if_pos (List.isPrefixOf_iff_prefix.2 ⟨s, rfl⟩), List.drop_left, h]
    rfl

/-- A record is found, with its name and its coordinates. -/
theorem atom_match (a : PdbAtom) (h : a.Wf) (s : Text) : ∃ c g, atomRe.matchAt (a.text ++ s) = some (c, a.rest ++ s, g) ∧ c ≠ [] ∧ PdbCaps a g := by
  obtain ⟨u, g0, g1, eg, hu, hg0, hg1⟩ := gap_split h.gap
  have hrest : ∀ c, (a.rest ++ s).head? = some c → floatChar c = false := by
    obtain ⟨c, hc, hc'⟩ := h.rest.2
    intro d hd
    rw [List.head?_append, hc] at hd
    simp only [Option.some_or, Option.some.injEq] at hd
    rw [← hd]
    by_contra hf
    rw [floatChar_space c (by simpa using hf)] at hc'
    simp at hc'
  have e : a.text ++ s = a.kind ++ (a.serial ++ (a.name ++ ((a.residue ++ u) ++ (g0 :: g1 :: (a.x ++ (a.gap1 ++ (a.y ++ (a.gap2 ++ (a.z ++ (a.rest ++ s)))))))))) := by
    simp [PdbAtom.text, eg]
  rw [e]
  refine ⟨?c, ?g, ?h1, ?h2, ?h3⟩
  case h1 =>
    unfold Rx.matchAt atomRe
    rw [Rx.m]
    refine kind_m _ _ _ h.kind ?_
    rw [Rx.m]
    refine many_all a.serial _ _ ?_ ?_ (List.length_pos_iff.2 h.serial.1) ?_
    · intro c hc
      rcases h.serial.2 c hc with h | h
      · simp [h]
      · simp [digit_iff, h]
    · intro c hc
      have := h.name.2 c (head_append h.name.1 hc)
      simp [letter_space c this, digit_iff, letter_digit c this]
    · rw [Rx.m, Rx.m]
      refine many_all a.name _ _ ?_ ?_ (List.length_pos_iff.2 h.name.1) ?_
      · intro c hc
        rw [letter_iff]
        exact h.name.2 c hc
      · intro c hc
        rw [letter_iff]
        rcases hr : a.residue with - | ⟨d, r⟩
        · rw [hr, List.nil_append] at hc
          have : isPySpace c = true := by
            rcases u with - | ⟨d, u⟩
            · simp only [List.nil_append, List.head?_cons, Option.some.injEq] at hc
              rw [← hc]
              exact hg0
            · simp only [List.cons_append, List.head?_cons, Option.some.injEq] at hc
              rw [← hc]
              exact hu d (by simp)
          by_contra hf
          rw [letter_space c (by simpa using hf)] at this
          simp at this
        · rw [hr] at hc
          exact h.residue.2 c (by rw [hr]; simpa using hc)
      · refine body_m (a.residue ++ u) a.x a.gap1 a.y a.gap2 a.z (a.rest ++ s) g0 g1 _ ?_ hg0 hg1 h.x.1 h.x.2 h.gap1.1 h.gap1.2 h.y h.gap2.1 h.gap2.2 h.z hrest ?_
        · intro c hc
          rcases List.mem_append.1 hc with hc | hc
          · exact h.residue.1 c hc
          · exact .inl (hu c hc)
        · rfl
  case h2 => rcases h.kind with h | h <;> simp [h]
  case h3 =>
    refine ⟨?_, [g1], by simpa [BlankText] using hg1, ?_⟩
    · simp [group]
    · simp [group]

/-! ## files -/

theorem atom_none (s : Text) (h1 : ¬ "ATOM".toList <+: s) (h2 : ¬ "HETATM".toList <+: s) : atomRe.matchAt s = none := by
  unfold Rx.matchAt atomRe
  rw [Rx.m, Rx.m, Rx.m, Rx.m, Rx.m, if_neg (by rwa [List.isPrefixOf_iff_prefix]), if_neg (by rwa [List.isPrefixOf_iff_prefix])]
  rfl

/-- A word without newline which begins within a text that ends with a newline is within the text. -/
theorem prefix_quiet (w t s : Text) (hw : '\n' ∉ w) (ht : t.getLast? = some '\n') (h : w <+: t ++ s) : w <+: t := by
  rcases List.prefix_or_prefix_of_prefix h (List.prefix_append t s) with h | h
  · exact h
  · exact absurd (h.subset (List.mem_of_getLast? ht)) hw

theorem skip (w t s u v : Text) (hw : '\n' ∉ w) (hi : ¬ w <:+: t) (hl : t = [] ∨ t.getLast? = some '\n') (e : t = u ++ v) (hv : v ≠ []) : ¬ w <+: v ++ s := by
  intro h
  have hl' : v.getLast? = some '\n' := by
    rcases hl with rfl | hl
    · simp at e; exact absurd e.2 hv
    · rw [e, List.getLast?_append_of_ne_nil _ hv] at hl
      exact hl
  obtain ⟨x, hx⟩ := prefix_quiet w v s hw hl' h
  exact hi ⟨u, x, by rw [e, ← hx, List.append_assoc]⟩

theorem quiet_skip (t s : Text) (h : PdbQuiet t) : atomRe.finditer (t ++ s) = atomRe.finditer s :=
  finditer_skip _ t s fun u v e hv => atom_none _ (skip _ t s u v (by decide) h.1 h.2.2 e hv) (skip _ t s u v (by decide) h.2.1 h.2.2 e hv)

theorem quiet_end (t : Text) (h1 : ¬ "ATOM".toList <:+: t) (h2 : ¬ "HETATM".toList <:+: t) : atomRe.finditer t = [] := by
  have key : ∀ w : Text, ¬ w <:+: t → ∀ u v, t = u ++ v → ¬ w <+: v := by
    intro w hw u v e hp
    obtain ⟨x, hx⟩ := hp
    exact hw ⟨u, x, by rw [e, ← hx, List.append_assoc]⟩
  have h0 : atomRe.matchAt [] = none := atom_none _ (by decide) (by decide)
  have := finditer_skip atomRe t [] fun u v e hv => by
    rw [List.append_nil]
    exact atom_none _ (key _ h1 u v e) (key _ h2 u v e)
  rw [List.append_nil] at this
  rw [this, finditer_nil _ h0]

theorem split_cons (w x c : Text) (hw : BlankText w) (hx : WordText x) (hc : ∀ d, c.head? = some d → isPySpace d = true) :
    splitWs (w ++ (x ++ c)) = x :: splitWs c := by
  unfold splitWs
  rw [splitWsAux_sep w hw, splitWsAux_tok x hx.2, List.nil_append]
  cases c with
  | nil => simp [splitWsAux, hx.1]
  | cons d c => simp [splitWsAux, hx.1, hc d rfl]

theorem num_word {x : Text} (h : PdbNum x) : WordText x := by
  refine ⟨?_, fun c hc => floatChar_space c ((floatChar_iff c).2 (h.1 c hc))⟩
  obtain ⟨d, hd, -⟩ := h.2
  exact List.ne_nil_of_mem hd

theorem caps_data (a : PdbAtom) (h : a.Wf) (g : Caps) (hg : PdbCaps a g) :
    ((group g 2).getD [], splitWs ((group g 3).getD [])) = (a.name, [a.x, a.y, a.z]) := by
  obtain ⟨h1, w, hw, h2⟩ := hg
  rw [h1, h2]
  simp only [Option.getD_some]
  have hb : ∀ {w t : Text}, BlankText w → w ≠ [] → ∀ d, (w ++ t).head? = some d → isPySpace d = true := fun h h' d hd => h d (head_append h' hd)
  rw [split_cons w a.x _ hw (num_word h.x.1) (hb h.gap1.1 h.gap1.2), split_cons _ a.y _ h.gap1.1 (num_word h.y) (hb h.gap2.1 h.gap2.2)]
  have := split_cons a.gap2 a.z [] h.gap2.1 (num_word h.z) (by simp)
  rw [List.append_nil] at this
  rw [this]
  rfl

/-- All records, in order, and nothing else. -/
theorem coords_data (atoms : List PdbAtom) (txt : Text) (h : IsPdb atoms txt) : coordsData txt = atoms.map fun a => (a.name, [a.x, a.y, a.z]) := by
  obtain ⟨pre, post, rfl, h1, h2, h3, h4⟩ := h
  unfold coordsData
  rw [quiet_skip pre _ h1]
  induction atoms with
  | nil => rw [List.flatMap_nil, List.nil_append, quiet_end _ h2 h3]; rfl
  | cons a atoms ih =>
    obtain ⟨c, g, e, hc, hg⟩ := atom_match a (h4 a (by simp)) (atoms.flatMap PdbAtom.text ++ post)
    rw [List.flatMap_cons, List.append_assoc, finditer_some _ _ _ _ _ e hc, quiet_skip _ _ (h4 a (by simp)).rest.1, List.map_cons, List.map_cons,
      caps_data a (h4 a (by simp)) g hg, ih fun a ha => h4 a (by simp [ha])]

theorem fixName_eq (s : Text) : fixName s = pdbSymbol s := by
  unfold fixName pdbSymbol
  match s with
  | [] => rfl
  | [_] => rfl
  | [_, _] => rfl
  | _ :: _ :: _ :: _ => simp

/-! ## the cell -/

theorem rep_m (ws : List (Text × Text)) (hw : ∀ w ∈ ws, PdbNum w.1 ∧ BlankText w.2 ∧ w.2 ≠ []) (w post : Text) (hb : BlankText w) (hb' : w ≠ []) :
    ∃ c t g, splitWs c = ws.map Prod.fst ∧ (∀ d, c.head? = some d → isPySpace d = true) ∧ (∀ x ∈ g, x.1 = 2) ∧
      ∀ (β : Type) (k : Text → Text → Caps → Option β) (b : β), k c t g = some b →
        ((wordRe 2).rep ws.length).m (w ++ ((ws.flatMap fun w => w.1 ++ w.2) ++ post)) k = some b := by
  induction ws generalizing w with
  | nil => exact ⟨[], _, [], rfl, by simp, by simp, fun β k b h => h⟩
  | cons x ws ih =>
    obtain ⟨h1, h2, h3⟩ := hw x (by simp)
    obtain ⟨c, t, g, e1, e2, e3, e4⟩ := ih (fun w h => hw w (by simp [h])) x.2 h2 h3
    refine ⟨(w ++ x.1) ++ c, t, [(2, w ++ x.1)] ++ g, ?_, ?_, ?_, fun β k b hk => ?_⟩
    · rw [List.append_assoc, split_cons w x.1 c hb (num_word h1) e2, e1]
      rfl
    · intro d hd
      rw [List.append_assoc] at hd
      exact hb d (head_append hb' hd)
    · intro y hy
      simp only [List.cons_append, List.nil_append, List.mem_cons] at hy
      rcases hy with rfl | hy
      · rfl
      · exact e3 y hy
    · rw [List.length_cons, Rx.rep, Rx.m, List.flatMap_cons, List.append_assoc, List.append_assoc]
      exact word_m 2 w x.1 _ b hb hb' h1 (blank_float h2 h3) (e4 _ _ b hk)

theorem cell_match (a : PdbCell) (h : a.Wf) (post : Text) : ∃ x, crystRe.matchAt (a.text ++ post) = some x ∧ ∃ c, group x.2.2 1 = some c ∧ splitWs c = a.words.map Prod.fst := by
  obtain ⟨u, g0, g1, eg, hu, hg0, hg1⟩ := gap_split h.gap
  have hgl : a.gap = u ++ [g0] ++ [g1] := by rw [eg]; simp
  obtain ⟨c, t, g, e1, -, e3, e4⟩ := rep_m a.words h.words [g1] post (by simpa [BlankText] using hg1) (by simp)
  rw [h.six] at e4
  refine ⟨?x, ?h1, ?h2⟩
  case h1 =>
    unfold Rx.matchAt crystRe PdbCell.text
    rw [Rx.m, Rx.m, List.append_assoc, if_pos (List.isPrefixOf_iff_prefix.2 ⟨_, rfl⟩), List.drop_left, Rx.m]
    refine many_some (u ++ [g0]).length _ (by simp) ?_ ?_ ?_
    · rw [hgl]
      simp only [List.append_assoc]
      rw [List.takeWhile_append_of_pos hu]
      simp [hg0]
    · intro n hn1 hn2
      have hne : a.words ≠ [] := by intro e; have := h.six; rw [e] at this; simp at this
      obtain ⟨w0, ws, ew⟩ := List.exists_cons_of_ne_nil hne
      have hw0 := h.words w0 (by rw [ew]; simp)
      have hw := num_word hw0.1
      have hh : ∀ d, ((a.words.flatMap fun w => w.1 ++ w.2) ++ post).head? = some d → isPySpace d = false := by
        intro d hd
        rw [ew, List.flatMap_cons, List.append_assoc, List.append_assoc] at hd
        exact hw.2 d (head_append hw.1 hd)
      rw [List.append_assoc, takeWhile_split a.gap _ h.gap.1 hh, hgl, List.length_append] at hn2
      have : n = a.gap.length := by rw [hgl, List.length_append]; simp at hn2 ⊢; simp at hn1; omega
      rw [this, List.append_assoc, List.drop_left, Rx.m, Rx.m, Rx.rep, Rx.m]
      exact word_none _ _ hh
    · rw [hgl, List.append_assoc, List.append_assoc (u ++ [g0]), List.drop_left, List.take_left, Rx.m, Rx.m]
      refine e4 _ _ _ ?_
      refine many_some _ _ (Nat.zero_le _) (Nat.le_refl _) (fun n h1 h2 => by omega) ?_
      rfl
  case h2 =>
    refine ⟨c, ?_, e1⟩
    have : ∀ g : Caps, (∀ x ∈ g, x.1 = 2) → (g.reverse.find? fun x => decide (x.1 = 1)) = none := by
      intro g hg
      rw [List.find?_eq_none]
      intro x hx
      simp [hg x (List.mem_reverse.1 hx)]
    simp [group, this g e3]

theorem cryst_const {K : Type} (num : Text → Option K) (a : PdbCell) (h : a.Wf) (txt : Text) (ht : HasPdbCell a txt) (v : List K)
    (hv : a.words.map (fun w => num w.1) = v.map some) : getCrystConst num txt = .ok v := by
  obtain ⟨pre, post, rfl, h1, h2⟩ := ht
  obtain ⟨x, hx, c, hc, hs⟩ := cell_match a h post
  have none : ∀ s : Text, ¬ "CRYST1".toList <+: s → crystRe.matchAt s = none := by
    intro s hs
    unfold Rx.matchAt crystRe
    rw [Rx.m, Rx.m, if_neg (by rwa [List.isPrefixOf_iff_prefix])]
  unfold getCrystConst
  rw [search_skip _ pre _ fun u v e hv => none _ (skip _ pre _ u v (by decide) h1 h2 e hv), search_some _ _ _ hx]
  simp only [hc, Option.getD_some, hs]
  rw [mapM_num num (a.words.map Prod.fst) v (by rw [List.map_map]; exact hv)]

theorem get_symbols (atoms : List PdbAtom) (txt : Text) (h : IsPdb atoms txt) (hne : atoms ≠ []) : getSymbols txt = .ok (atoms.map fun a => pdbSymbol a.name) := by
  unfold getSymbols
  rw [coords_data atoms txt h]
  obtain ⟨a, l, rfl⟩ := List.exists_cons_of_ne_nil hne
  simp [fixName_eq, Function.comp_def]

theorem get_coords {K : Type} (num : Text → Option K) (atoms : List PdbAtom) (txt : Text) (h : IsPdb atoms txt) (hne : atoms ≠ []) (pos : List (List K))
    (hp : (atoms.map fun a => [num a.x, num a.y, num a.z]) = pos.map fun r => r.map some) : getCoords num txt = .ok pos := by
  unfold getCoords
  rw [coords_data atoms txt h]
  have : (atoms.map fun a => (a.name, [a.x, a.y, a.z])).mapM (fun x => x.2.mapM num) = some pos := by
    have := mapM_rows num (atoms.map fun a => [a.x, a.y, a.z]) pos (by
      clear h hne
      induction atoms generalizing pos with
      | nil => rw [List.map_nil] at hp; rw [List.map_eq_nil_iff.1 hp.symm]; exact .nil
      | cons a l ih =>
        cases pos with
        | nil => simp at hp
        | cons r pos =>
          simp only [List.map_cons, List.cons.injEq] at hp
          exact .cons hp.1 (ih pos hp.2))
    rw [← this, List.mapM_map, List.mapM_map]
    rfl
  obtain ⟨a, l, rfl⟩ := List.exists_cons_of_ne_nil hne
  rw [List.map_cons] at this ⊢
  simp only [this]

/-- **C136** `read_pdb`, whatever parsers have been used before: every record of an atom, in order, with its symbol and its coordinates times the unit of length, and
the lattice constants with the lengths times the same unit. Partial: not for records outside of `Wf`, and not without a record `CRYST1`, see the counterexamples. -/
theorem C136_struct_partial {K : Type} [Field K] [DecidableEq K] (num : Text → Option K) (atoms : List PdbAtom) (txt : Text) (h : IsPdb atoms txt) (hne : atoms ≠ [])
    (pos : List (List K)) (hp : (atoms.map fun a => [num a.x, num a.y, num a.z]) = pos.map fun r => r.map some)
    (cell : PdbCell) (hcell : cell.Wf) (hc : HasPdbCell cell txt) (a b c' al be ga : K)
    (hv : (cell.words.map fun w => num w.1) = [some a, some b, some c', some al, some be, some ga])
    (c : Consts K) (hist : List (Kind × UDict K)) (user : UDict K) (g : Getters K (Val K)) :
    ∃ st, readPdb c hist user g num txt = .ok st ∧
      st.attr (.other "symbols") = some (.words (atoms.map fun a => pdbSymbol a.name)) ∧
      st.attr .coords = some (.mat (pos.map fun r => r.map fun x => x * (user .length).getD 1)) ∧
      st.cc = some (.one [a * (user .length).getD 1, b * (user .length).getD 1, c' * (user .length).getD 1, al, be, ga]) := by
  have f := ReadMd.units_of c hist .pdb user .length rfl (by simp)
  unfold readPdb parse
  rw [get_coords num atoms txt h hne pos hp, get_symbols atoms txt h hne, cryst_const num cell hcell txt hc [a, b, c', al, be, ga] hv]
  generalize he : (create c (after c hist) .pdb user).2 = units at f
  refine ⟨_, rfl, ?_, ?_, ?_⟩
  · show (scaleUnits units unitsMap _ _).or _ = _
    rw [scale_each]
    rfl
  · show (scaleUnits units unitsMap _ _).or _ = _
    rw [scale_each]
    show some (Val.scale (units .length) _) = _
    rw [f]
    rfl
  · show some (CC.one (scaleRow (units .length) _)) = _
    rw [f]
    rfl

/-- **C136** Without a record `CRYST1`, `read_pdb` raises `AttributeError`; the documentation says that `cryst_const` is `None` in this case. -/
theorem C136_no_cell_counterexample {K : Type} [Field K] [DecidableEq K] (num : Text → Option K) (atoms : List PdbAtom) (txt : Text) (h : IsPdb atoms txt) (hne : atoms ≠ [])
    (pos : List (List K)) (hp : (atoms.map fun a => [num a.x, num a.y, num a.z]) = pos.map fun r => r.map some) (hc : ¬ "CRYST1".toList <:+: txt)
    (c : Consts K) (hist : List (Kind × UDict K)) (user : UDict K) (g : Getters K (Val K)) : readPdb c hist user g num txt = .error (.inl .attr) := by
  have hs : crystRe.search txt = none := search_none _ _ fun u v e => by
    unfold Rx.matchAt crystRe
    rw [Rx.m, Rx.m, if_neg]
    rw [List.isPrefixOf_iff_prefix]
    rintro ⟨x, hx⟩
    exact hc ⟨u, x, by rw [e, ← hx, List.append_assoc]⟩
  unfold readPdb parse
  rw [get_coords num atoms txt h hne pos hp, get_symbols atoms txt h hne]
  simp only [Except.bind, getCrystConst, hs]

/-- **C136** A file without atoms raises `IndexError`. -/
theorem C136_no_atoms_counterexample {K : Type} [Field K] [DecidableEq K] (num : Text → Option K) (txt : Text) (h1 : ¬ "ATOM".toList <:+: txt) (h2 : ¬ "HETATM".toList <:+: txt)
    (c : Consts K) (hist : List (Kind × UDict K)) (user : UDict K) (g : Getters K (Val K)) : readPdb c hist user g num txt = .error (.inl .index) := by
  have : coordsData txt = [] := by unfold coordsData; rw [quiet_end txt h1 h2]; rfl
  unfold readPdb parse getCoords
  rw [this]
  rfl

/-- The files of the counterexamples have this cell. -/
def cellLine : String := "CRYST1   52.000   58.600   61.900  90.00  90.00  90.00  P 21 21 21   8\n"

/-- **C136** A negative number of the residue is read as the first coordinate, the other coordinates are shifted. -/
theorem C136_residue_counterexample :
    coordsData (cellLine ++ "ATOM      1  N   GLY A  -5      11.104   6.134  -6.504  1.00  0.00           N\n").toList
      = [("N".toList, ["-5".toList, "11.104".toList, "6.134".toList])] := by decide +kernel

/-- **C136** Two coordinates which fill their columns are read as one word, which is not a number: `ValueError`. -/
theorem C136_columns_counterexample {K : Type} (num : Text → Option K) (h : num "-100.123-100.456".toList = none) :
    getCoords num (cellLine ++ "ATOM      1  N   GLY A   5    -100.123-100.456  -6.504  1.00  0.00           N\n").toList = .error .value := by
  unfold getCoords
  have : coordsData (cellLine ++ "ATOM      1  N   GLY A   5    -100.123-100.456  -6.504  1.00  0.00           N\n").toList
      = [("N".toList, ["-100.123-100.456".toList, "-6.504".toList, "1.00".toList])] := by decide +kernel
  rw [this]
  show (match List.mapM (fun x : Text × List Text => x.2.mapM num) _ with | some m => Except.ok m | none => Except.error PErr.value) = _
  rw [List.mapM_cons, List.mapM_cons, h]
  rfl

/-- **C136** An atom whose name has a prime is left out, without a message. -/
theorem C136_prime_counterexample :
    coordsData (cellLine ++ "ATOM      1  O5'  DC A   1      18.935  34.195  25.617  1.00 64.35           O\n"
        ++ "ATOM      2  P    DC A   1      19.130  33.921  24.219  1.00 44.69           P\n").toList
      = [("P".toList, ["19.130".toList, "33.921".toList, "24.219".toList])] := by decide +kernel

/-- **C136** A cell with a length of 1000 Angstrom fills its column, which leaves one blank before it: `AttributeError`. -/
theorem C136_wide_cell_counterexample {K : Type} (num : Text → Option K) :
    getCrystConst num "CRYST1 1000.000 1000.000 1000.000  90.00  90.00  90.00 P 1           1\n".toList = .error .attr := by
  unfold getCrystConst
  have : crystRe.search "CRYST1 1000.000 1000.000 1000.000  90.00  90.00  90.00 P 1           1\n".toList = none := by decide +kernel
  rw [this]

/-! ## a file -/

/-- Two records. -/
def exAtoms : List PdbAtom :=
  [⟨"ATOM".toList, "      2  ".toList, "CA".toList, "  ALA A   1".toList, "      ".toList, "11.104".toList, "   ".toList, "6.134".toList, "  ".toList, "-6.504".toList,
     "  1.00  0.00           C\nTER\n".toList⟩,
   ⟨"HETATM".toList, "    3 ".toList, "ZN".toList, "    ZN A   2".toList, "      ".toList, "0.5".toList, " ".toList, "1".toList, " ".toList, "-2.0".toList, "\n".toList⟩]

/-- The cell. -/
def exCell : PdbCell :=
  ⟨"   ".toList, [("52.000".toList, "   ".toList), ("58.600".toList, "   ".toList), ("61.900".toList, "  ".toList), ("90.00".toList, "  ".toList), ("90.00".toList, "  ".toList),
    ("90.00".toList, "  ".toList)]⟩

def exTxt : Text := ("HEADER\n" ++ cellLine ++ "ATOM      2  CA  ALA A   1      11.104   6.134  -6.504  1.00  0.00           C\nTER\nHETATM    3 ZN    ZN A   2      0.5 1 -2.0\nEND").toList

instance (x : Text) : Decidable (PdbNum x) := by unfold PdbNum; infer_instance

theorem exAtoms_wf : ∀ a ∈ exAtoms, a.Wf := by
  intro a ha
  simp only [exAtoms, List.mem_cons, List.not_mem_nil, or_false] at ha
  rcases ha with rfl | rfl
  · refine ⟨by decide, ?_, ?_, ⟨?_, ?_⟩, ?_, ?_, ?_, ?_, ?_, ?_, ⟨⟨?_, ?_, ?_⟩, ' ', ?_⟩⟩ <;> first | (unfold BlankText; decide +kernel) | decide +kernel
  · refine ⟨by decide, ?_, ?_, ⟨?_, ?_⟩, ?_, ?_, ?_, ?_, ?_, ?_, ⟨⟨?_, ?_, ?_⟩, '\n', ?_⟩⟩ <;> first | (unfold BlankText; decide +kernel) | decide +kernel

theorem ex_pdb : IsPdb exAtoms exTxt :=
  ⟨("HEADER\n" ++ cellLine).toList, "END".toList, by decide +kernel, ⟨by decide +kernel, by decide +kernel, by decide +kernel⟩, by decide +kernel, by decide +kernel, exAtoms_wf⟩

theorem ex_cell : exCell.Wf := by
  refine ⟨?_, ?_, rfl⟩
  · unfold BlankText; decide +kernel
  · unfold BlankText; decide +kernel

theorem ex_has : HasPdbCell exCell exTxt :=
  ⟨"HEADER\n".toList, ("P 21 21 21   8\n" ++ "ATOM      2  CA  ALA A   1      11.104   6.134  -6.504  1.00  0.00           C\nTER\nHETATM    3 ZN    ZN A   2      0.5 1 -2.0\nEND").toList,
    by decide +kernel, by decide +kernel, by decide +kernel⟩

/-- The numbers of the file. -/
def exNum (t : Text) : Option ℚ :=
  List.lookup t [("11.104".toList, 1388 / 125), ("6.134".toList, 3067 / 500), ("-6.504".toList, -813 / 125), ("0.5".toList, 1 / 2), ("1".toList, 1), ("-2.0".toList, -2), ("52.000".toList, 52),
    ("58.600".toList, 293 / 5), ("61.900".toList, 619 / 10), ("90.00".toList, 90)]

/-- The hypotheses of `C136_struct_partial` are met: two atoms, `Ca` (which is carbon alpha) and `Zn`. -/
example (c : Consts ℚ) (hist : List (Kind × UDict ℚ)) (g : Getters ℚ (Val ℚ)) :
    ∃ st, readPdb c hist (fun _ => some 2) g exNum exTxt = .ok st ∧ st.attr (.other "symbols") = some (.words ["Ca".toList, "Zn".toList]) ∧
      st.attr .coords = some (.mat [[2776 / 125, 3067 / 250, -1626 / 125], [1, 2, -4]]) ∧ st.cc = some (.one [104, 586 / 5, 619 / 5, 90, 90, 90]) := by
  obtain ⟨st, h0, h1, h2, h3⟩ := C136_struct_partial exNum exAtoms exTxt ex_pdb (by decide) [[1388 / 125, 3067 / 500, -813 / 125], [1 / 2, 1, -2]] (by decide +kernel) exCell ex_cell ex_has
    52 (293 / 5) (619 / 10) 90 90 90 (by decide +kernel) c hist (fun _ => some 2) g
  refine ⟨st, h0, ?_, ?_, ?_⟩
  · rw [h1]; exact congrArg (fun x => some (Val.words x)) (by decide +kernel)
  · rw [h2]; exact congrArg (fun x => some (Val.mat x)) (by decide +kernel)
  · rw [h3]; exact congrArg (fun x => some (CC.one x)) (by decide +kernel)

/-- The hypotheses of `C136_no_cell_counterexample` are met. -/
example (c : Consts ℚ) (hist : List (Kind × UDict ℚ)) (user : UDict ℚ) (g : Getters ℚ (Val ℚ)) : readPdb c hist user g exNum (exAtoms.flatMap PdbAtom.text) = .error (.inl .attr) :=
  C136_no_cell_counterexample exNum exAtoms _ ⟨[], [], by simp, ⟨by decide, by decide, .inl rfl⟩, by decide, by decide, exAtoms_wf⟩ (by decide)
    [[1388 / 125, 3067 / 500, -813 / 125], [1 / 2, 1, -2]] (by decide +kernel) (by decide +kernel) c hist user g

/-- The hypotheses of `C136_no_atoms_counterexample` are met. -/
example (c : Consts ℚ) (hist : List (Kind × UDict ℚ)) (user : UDict ℚ) (g : Getters ℚ (Val ℚ)) : readPdb c hist user g exNum cellLine.toList = .error (.inl .index) :=
  C136_no_atoms_counterexample exNum _ (by decide +kernel) (by decide +kernel) c hist user g

end Pwtools.Pdb
