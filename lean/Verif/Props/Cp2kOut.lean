import Verif.Model.Cp2kOut
import Verif.Spec.Cp2kOut
import Verif.Props.PwHead
/-!
# C123: forces, number of atoms, time step and run type in a CP2K output file
-/
namespace Pwtools.Cp2kOut
open Gr Scf PwHead Spec
variable {K : Type}

/-! ## `tr` and `cut` -/

theorem dropWhile_chars (p : Char → Bool) (a b : Text) (ha : ∀ c ∈ a, p c = true) (hb : ∀ c ∈ b.head?, p c = false) : (a ++ b).dropWhile p = b := by
  induction a with
  | nil =>
    cases b with
    | nil => rfl
    | cons c b => rw [List.nil_append, List.dropWhile_cons_of_neg (by simp [hb c (by simp)])]
  | cons c a ih =>
    rw [List.cons_append, List.dropWhile_cons_of_pos (ha c (by simp))]
    exact ih fun x hx => ha x (by simp [hx])

theorem squeeze_word (w t : Text) (hw : ' ' ∉ w) : squeeze (w ++ t) = w ++ squeeze t := by
  induction w with
  | nil => rfl
  | cons c w ih =>
    have hc : c ≠ ' ' := fun e => hw (by simp [e])
    rw [List.cons_append, squeeze, if_neg (fun h => hc h.1), ih fun h => hw (by simp [h])]
    rfl

theorem squeeze_blanks (b t : Text) (hb : Blanks b) (ht : t.head? ≠ some ' ') : squeeze (b ++ t) = ' ' :: squeeze t := by
  obtain ⟨h0, hb⟩ := hb
  induction b with
  | nil => exact absurd rfl h0
  | cons c b ih =>
    have hc : c = ' ' := hb c (by simp)
    subst hc
    cases b with
    | nil =>
      rw [List.cons_append, List.nil_append, squeeze, if_neg (fun h => ht h.2)]
    | cons d b =>
      have hd : d = ' ' := hb d (by simp)
      subst hd
      rw [List.cons_append, squeeze, if_pos (by simp), ih (by simp) fun c hc => hb c (by simp [hc])]

theorem behind_word (n : Nat) (w t : Text) (hw : ' ' ∉ w) : behind (n + 1) (w ++ (' ' :: t)) = behind n t := by
  rw [behind, dropWhile_chars _ w _ (fun c hc => by
    have : c ≠ ' ' := fun e => hw (e ▸ hc)
    simpa using this) (by simp)]

theorem splitWs_squeeze (t : Text) : splitWs (squeeze t) = splitWs t := by
  have : ∀ cur, splitWsAux cur (squeeze t) = splitWsAux cur t := by
    induction t with
    | nil => intro cur; rfl
    | cons c t ih =>
      intro cur
      rw [squeeze]
      split
      · next h =>
        obtain ⟨rfl, h2⟩ := h
        rw [ih]
        cases t with
        | nil => cases h2
        | cons d t =>
          simp only [List.head?_cons, Option.some.injEq] at h2
          subst h2
          simp [splitWsAux, show isPySpace ' ' = true by decide]
      · simp only [splitWsAux, ih]
  exact this []

theorem head_word {w : Text} (t : Text) (hw : NoBlank w) : (w ++ t).head? ≠ some ' ' := by
  obtain ⟨h0, h1⟩ := hw
  cases w with
  | nil => exact absurd rfl h0
  | cons c w =>
    intro h
    simp only [List.cons_append, List.head?_cons, Option.some.injEq] at h
    exact h1 (by simp [h])

/-- The words which are left of a row. -/
theorem row_words (num : Text → Option K) (l : Text) (v : List K) (h : ForceRow num l v) : (splitWs (cut5 (squeeze l))).map num = v.map some := by
  obtain ⟨b1, i, b2, k, b3, s, b4, rest, rfl, h1, hi, h2, hk, h3, hs, h4, hr, hv, -⟩ := h
  rw [squeeze_blanks b1 _ h1 (head_word _ hi), squeeze_word i _ hi.2, squeeze_blanks b2 _ h2 (head_word _ hk), squeeze_word k _ hk.2,
    squeeze_blanks b3 _ h3 (head_word _ hs), squeeze_word s _ hs.2, squeeze_blanks b4 _ h4 hr]
  rw [cut5, if_pos (by simp)]
  have e := behind_word 3 [] (i ++ ' ' :: (k ++ ' ' :: (s ++ ' ' :: squeeze rest))) (by simp)
  rw [List.nil_append] at e
  rw [e, behind_word 2 i _ hi.2, behind_word 1 k _ hk.2, behind_word 0 s _ hs.2, behind, Option.getD_some, splitWs_squeeze]
  exact hv

/-! ## Tables -/

theorem has_iff (w l : Text) : isInfix w l = true ↔ HasText w l := isInfix_iff_append w l

theorem kept_head (l : Text) (h : isKept l = true) : isForceHead l = false := by
  rw [← Bool.not_eq_true, isForceHead, has_iff]
  rintro ⟨a, b, rfl⟩
  have : isInfix "ATOM".toList (a ++ "ATOMIC FORCES in".toList ++ b) = true :=
    (has_iff _ _).2 ⟨a, "IC FORCES in".toList ++ b, by rw [List.append_assoc, List.append_assoc]; rfl⟩
  rw [isKept, this] at h
  simp at h

theorem kept_iff (l : Text) : isKept l = true ↔ ¬ HasText "ATOM".toList l ∧ ¬ HasText "--".toList l ∧ ¬ HasText "Kind".toList l := by
  rw [isKept, ← has_iff, ← has_iff, ← has_iff]
  simp [and_assoc]

/-- What `grep -A` leaves of a table. -/
theorem pick_table (num : Text → Option K) (na : Nat) (T : List Text) (F : List (List K)) (h : ForceTable num na T F) :
    ∃ R, List.Forall₂ (ForceRow num) R F ∧ R.length = na ∧ (T.filter isForceHead).length = 1 ∧
      ∀ rest, pick (na + 1) isForceHead isKept (T ++ rest) 0 = R ++ pick (na + 1) isForceHead isKept rest 0 := by
  obtain ⟨hd, ti, R, B, rfl, hh, ⟨ht, ht'⟩, hn, hF, hR, hB⟩ := h.parts
  have e1 : isForceHead hd = true := (has_iff _ _).2 hh
  have e2 : isForceHead ti = false := bfalse (has_iff _ _) ht'
  have e3 : isKept ti = false := bfalse (kept_iff ti) fun h => h.2.2 ht
  have e4 : ∀ l ∈ R, isForceHead l = false ∧ isKept l = true := fun l hl => ⟨kept_head l ((kept_iff l).2 (hR l hl)), (kept_iff l).2 (hR l hl)⟩
  have e5 : ∀ l ∈ B, isForceHead l = false := fun l hl => bfalse (has_iff _ _) (hB l hl)
  refine ⟨R, hF, hn, ?_, fun rest => ?_⟩
  · rw [List.filter_cons, if_pos e1, List.filter_cons, if_neg (by simp [e2]), List.filter_append,
      List.filter_eq_nil_iff.2 fun l hl => by simp [(e4 l hl).1], List.filter_eq_nil_iff.2 fun l hl => by simp [e5 l hl]]
    rfl
  · simp only [List.cons_append, pick, e1, if_true, e2, Bool.false_eq_true, if_false, e3, List.nil_append]
    rw [List.append_assoc, pick_rows _ _ _ R (B ++ rest) na e4 hn.le, hn, Nat.sub_self, pick_other _ _ _ B rest e5]

theorem pick_tables (num : Text → Option K) (na : Nat) (Ts : List (List Text)) (Fs : List (List (List K))) (h : List.Forall₂ (ForceTable num na) Ts Fs) :
    (Ts.flatten.filter isForceHead).length = Fs.length ∧ (∀ F ∈ Fs, F.length = na ∧ ∀ r ∈ F, r.length = 3) ∧
      ((pick (na + 1) isForceHead isKept Ts.flatten 0).flatMap fun l => splitWs (cut5 (squeeze l))).map num = (Fs.flatMap List.flatten).map some := by
  induction h with
  | nil => exact ⟨rfl, by simp, rfl⟩
  | cons hT _ ih =>
    obtain ⟨R, hF, hn, h1, hp⟩ := pick_table num na _ _ hT
    obtain ⟨i1, i2, i3⟩ := ih
    refine ⟨?_, ?_, ?_⟩
    · rw [List.flatten_cons, List.filter_append, List.length_append, h1, i1, List.length_cons]
      omega
    · intro F hF'
      rcases List.mem_cons.1 hF' with rfl | hF'
      · refine ⟨by rw [← hF.length_eq, hn], fun r hr => ?_⟩
        clear i1 i2 i3 h1 hp hn hT
        induction hF with
        | nil => cases hr
        | cons h _ ih =>
          rcases List.mem_cons.1 hr with rfl | hr
          · obtain ⟨_, _, _, _, _, _, _, _, -, -, -, -, -, -, -, -, -, -, h3⟩ := h
            exact h3
          · exact ih (by simp) hr
      · exact i2 F hF'
    · rw [List.flatten_cons, hp, List.flatMap_append, List.map_append, i3, List.flatMap_cons, List.map_append]
      congr 1
      clear i1 i2 i3 h1 hp hn hT
      induction hF with
      | nil => rfl
      | cons h _ ih =>
        rw [List.flatMap_cons, List.map_append, row_words num _ _ h, ih, List.flatten_cons, List.map_append]

theorem blank_lines {out lines : List Text} (h : Interleaved (fun l x => l = x ∧ ¬ BlankText l) BlankText out lines) :
    out.filter (fun l => !blankLine l) = lines ∧ out.filter isForceHead = lines.filter isForceHead := by
  have hb : ∀ l, blankLine l = true ↔ BlankText l := fun l => by
    rw [blankLine, List.all_eq_true]
    rfl
  induction h with
  | nil => exact ⟨rfl, rfl⟩
  | other hq _ ih =>
    rename_i l ls xs _
    have e : isForceHead l = false := by
      apply bfalse (has_iff _ _)
      rintro ⟨a, b, rfl⟩
      have := hq 'A' (by simp)
      revert this
      decide
    refine ⟨?_, ?_⟩
    · rw [List.filter_cons, (hb l).2 hq]
      simpa using ih.1
    · rw [List.filter_cons, e]
      simpa using ih.2
  | hit hp _ ih =>
    obtain ⟨rfl, hp⟩ := hp
    rename_i l ls xs _
    refine ⟨?_, ?_⟩
    · rw [List.filter_cons, bfalse (hb l) hp, ih.1]
      rfl
    · rw [List.filter_cons, List.filter_cons, ih.2]

/-- **C123** Forces in the output file of an MD run, for a number of atoms: one array per table, in order, with all atoms; `None` without a table. -/
theorem C123_forces_of (num : Text → Option K) (na : Nat) (out : List Text) (Fs : List (List (List K))) (hna : 0 < na)
    (h : IsForceOut num na out Fs) : forcesOf num (some na) out = .ok (if Fs = [] then none else some Fs) := by
  obtain ⟨lines, A, Ts, hi, rfl, hA, hT⟩ := h
  obtain ⟨h1, h2⟩ := blank_lines hi
  have hA' : ∀ l ∈ A, isForceHead l = false := fun l hl => bfalse (has_iff _ _) (hA l hl)
  obtain ⟨t1, t2, t3⟩ := pick_tables num na Ts Fs hT
  unfold forcesOf
  simp only [Int.toNat_natCast, h1, h2]
  rw [grepA_filter _ _ _ kept_head (by decide), pick_other _ _ _ _ _ hA', List.filter_append, List.filter_eq_nil_iff.2 fun l hl => by simp [hA' l hl], List.nil_append, t1]
  exact trajFromTxt_eq num _ Fs na 3 hna (by omega) t2 t3

/-- **C123** The same with the number of atoms in the output file. -/
theorem C123_forces (num : Text → Option K) (na : Nat) (out : List Text) (Fs : List (List (List K))) (hna : 0 < na)
    (hn : natoms out = .ok (some na)) (h : IsForceOut num na out Fs) : forces num out = .ok (if Fs = [] then none else some Fs) := by
  unfold forces
  rw [hn]
  exact C123_forces_of num na out Fs hna h

/-! ## Single values -/

/-- **C123** The number of atoms: the first line `Number of atoms: <n>`. -/
theorem C123_natoms (A B : List Text) (p s t : Text) (n : Nat) (hA : ∀ l ∈ A, ¬ HasText "Number of atoms:".toList l) (hs : BlankText s) (ht : BlankText t) :
    natoms (A ++ (p ++ "Number of atoms:".toList ++ (s ++ strNat n ++ t)) :: B) = .ok (some (n : Int)) ∧ natoms A = .ok none := by
  have hA' : ∀ a ∈ A, isInfix "Number of atoms:".toList a = false := fun a ha => infix_false (hA a ha)
  constructor
  · unfold natoms
    rw [find_first _ A B _ hA' ((has_iff _ _).2 ⟨_, _, rfl⟩)]
    simp only
    have hc : ':' ∉ s ++ strNat n ++ t := by
      simp only [List.mem_append, not_or]
      refine ⟨⟨fun h => ?_, fun h => ?_⟩, fun h => ?_⟩
      · have := hs _ h; revert this; decide
      · have := strNat_digits n _ h; revert this; decide
      · have := ht _ h; revert this; decide
    have e : p ++ "Number of atoms:".toList ++ (s ++ strNat n ++ t) = (p ++ "Number of atoms".toList) ++ (':' :: (s ++ strNat n ++ t)) := by
      simp
    rw [e, show (":".toList) = [':'] from rfl, lastOcc_char ':' _ _ _ (s ++ strNat n ++ t) hc rfl, Option.getD_some, Cp2k.intFromTxt, splitWs_word s (strNat n) t hs ?_ ht]
    · simp only
      rw [parseInt_strNat]
    · exact ⟨strNat_ne_nil n, fun c hc => isPySpace_digit c (strNat_digits n c hc)⟩
  · unfold natoms
    rw [find_none _ A hA']

/-- **C123** The time step: the first line `MD| Time Step [fs] <x>`. -/
theorem C123_timestep (num : Text → Option K) (A B : List Text) (p s w t : Text) (x : K) (hA : ∀ l ∈ A, ¬ HasText "MD| Time Step [fs]".toList l)
    (hs : BlankText s) (hw : WordText w) (hb : ']' ∉ w) (ht : BlankText t) (hx : num w = some x) :
    timestep num (A ++ (p ++ "MD| Time Step [fs]".toList ++ (s ++ w ++ t)) :: B) = .ok (some x) ∧ timestep num A = .ok none := by
  have hA' : ∀ a ∈ A, isInfix "MD| Time Step [fs]".toList a = false := fun a ha => infix_false (hA a ha)
  constructor
  · unfold timestep
    rw [find_first _ A B _ hA' ((has_iff _ _).2 ⟨_, _, rfl⟩), Option.map_some, Option.toList_some]
    have hc : ']' ∉ s ++ w ++ t := by
      simp only [List.mem_append, not_or]
      refine ⟨⟨fun h => ?_, hb⟩, fun h => ?_⟩
      · have := hs _ h; revert this; decide
      · have := ht _ h; revert this; decide
    have e : p ++ "MD| Time Step [fs]".toList ++ (s ++ w ++ t) = (p ++ "MD| Time Step [fs".toList) ++ (']' :: (s ++ w ++ t)) := by
      simp
    rw [e, show ("]".toList) = [']'] from rfl, lastOcc_char ']' _ _ _ (s ++ w ++ t) hc rfl, Option.getD_some]
    exact floatTxt_one num _ w x (splitWs_word s w t hs hw ht) hx
  · unfold timestep
    rw [find_none _ A hA']
    rfl

theorem strip_word (s w t : Text) (hs : BlankText s) (hw : WordText w) (ht : BlankText t) : Hdr.strip (s ++ w ++ t) = w := by
  have hne : ∀ r, ∀ c ∈ (w ++ r).head?, isPySpace c = false := by
    intro r c hc
    cases hww : w with
    | nil => exact absurd hww hw.1
    | cons d w' =>
      rw [hww] at hc
      simp only [List.cons_append, List.head?_cons, Option.mem_def, Option.some.injEq] at hc
      exact hw.2 c (by rw [hww, hc]; simp)
  unfold Hdr.strip Hdr.rstrip Hdr.lstrip
  rw [List.append_assoc, dropWhile_chars _ s (w ++ t) hs (hne t), List.reverse_append,
    dropWhile_chars _ t.reverse w.reverse (fun c hc => ht c (by simpa using hc)) (fun b hb => hw.2 b (by
      have : b ∈ w.reverse := List.mem_of_mem_head? hb
      simpa using this)), List.reverse_reverse]

theorem skip_text (X Y m q : Text) (h : X ++ Y = m ++ ("type".toList ++ q)) (hX : 't' ∉ X) : ∃ n, Y = n ++ ("type".toList ++ q) := by
  rcases List.append_eq_append_iff.1 h with ⟨n, h1, h2⟩ | ⟨n, h1, h2⟩
  · exact ⟨n, h2⟩
  · cases n with
    | nil => exact ⟨[], by simpa using h2.symm⟩
    | cons c n =>
      have : c = 't' := by
        have := congrArg List.head? h2
        simpa using this.symm
      exact absurd (by rw [h1, this]; simp) hX

/-- **C123** The run type: the first line `GLOBAL| Run type  <word>`. -/
theorem C123_run_type (A B : List Text) (p q s w t : Text) (hA : ∀ l ∈ A, ¬ ∃ a b c, l = a ++ ("GLOBAL".toList ++ (b ++ ("Run type".toList ++ c))))
    (hs : Blanks s) (hw : WordText w) (hb : ∀ a b, w ≠ a ++ ("type".toList ++ b)) (ht : BlankText t) :
    runType (A ++ (p ++ ("GLOBAL".toList ++ (q ++ ("Run type".toList ++ (s ++ w ++ t))))) :: B) = w := by
  have hl : ∀ l, hasSeq ["GLOBAL".toList, "Run type".toList] l = true ↔ ∃ a b c, l = a ++ ("GLOBAL".toList ++ (b ++ ("Run type".toList ++ c))) := by
    intro l
    rw [hasSeq_cons]
    constructor
    · rintro ⟨a, _, rfl, h⟩
      obtain ⟨b, c, rfl, -⟩ := (hasSeq_cons _ _ _).1 h
      exact ⟨a, b, c, rfl⟩
    · rintro ⟨a, b, c, rfl⟩
      exact ⟨a, _, rfl, (hasSeq_cons _ _ _).2 ⟨b, c, rfl, rfl⟩⟩
  unfold runType
  rw [find_first _ A B _ (fun a ha => bfalse (hl a) (hA a ha)) ((hl _).2 ⟨_, _, _, rfl⟩)]
  simp only
  have e : p ++ ("GLOBAL".toList ++ (q ++ ("Run type".toList ++ (s ++ w ++ t)))) =
      (p ++ ("GLOBAL".toList ++ (q ++ "Run ".toList))) ++ ("type".toList ++ (s ++ w ++ t)) := by simp
  have hsb : BlankText s := fun c hc => by rw [hs.2 c hc]; decide
  rw [e, lastOcc_eq "type".toList (by decide) _ _ _ (s ++ w ++ t) ?_ ?_, Option.getD_some, strip_word s w t hsb hw ht]
  · obtain ⟨h0, h1⟩ := hs
    cases s with
    | nil => exact absurd rfl h0
    | cons c s =>
      rw [h1 c (by simp)]
      rfl
  · intro p' q' h hlen
    exfalso
    obtain ⟨m, hm, h⟩ : ∃ m, p' = p ++ ("GLOBAL".toList ++ (q ++ "Run ".toList)) ++ m ∧ "type".toList ++ (s ++ w ++ t) = m ++ ("type".toList ++ q') := by
      rcases List.append_eq_append_iff.1 h with ⟨m, h1, h2⟩ | ⟨m, h1, h2⟩
      · exact ⟨m, h1, h2⟩
      · have := congrArg List.length h1
        simp only [List.length_append] at this hlen
        omega
    cases m with
    | nil =>
      rw [hm, List.append_nil] at hlen
      omega
    | cons c m =>
      have h' : ("ype".toList ++ s) ++ (w ++ t) = m ++ ("type".toList ++ q') := by
        have := congrArg List.tail h
        simpa using this
      have hbl : ∀ u, BlankText u → 't' ∉ u := by
        intro u hu hc
        have := hu _ hc
        revert this
        decide
      obtain ⟨n, h2⟩ := skip_text _ _ _ _ h' (by
        rw [List.mem_append]
        rintro (h3 | h3)
        · revert h3; decide
        · exact hbl s hsb h3)
      rcases List.append_eq_append_iff.1 h2 with ⟨x, h3, h4⟩ | ⟨x, h3, h4⟩
      · exact hbl t ht (by rw [h4]; simp)
      · rcases List.append_eq_append_iff.1 h4 with ⟨y, h5, h6⟩ | ⟨y, h5, h6⟩
        · exact hb n y (by rw [h3, h5])
        · cases y with
          | nil => exact hb n [] (by rw [h3, List.append_nil]; simpa using h5.symm)
          | cons c y =>
            have h7 := ht c (by rw [h6]; simp)
            have h8 : c ∈ "type".toList := by rw [h5]; simp
            have h9 : ∀ c ∈ "type".toList, isPySpace c = false := by decide
            rw [h9 c h8] at h7
            cases h7

/-! ## Non-vacuity -/

def exTable (x : String) : List Text := [" ATOMIC FORCES in [a.u.]", " # Atom   Kind   Element          X              Y              Z",
  "      1      1      Si         " ++ x ++ "     0     -2", "      2      2      H          3     4     5", " SUM OF ATOMIC FORCES           0  0  0"].map String.toList

theorem exTable_ok (x : String) (v : Int) (h : x = "7" ∧ v = 7 ∨ x = "-8" ∧ v = -8) : ForceTable parseInt 2 (exTable x) [[v, 0, -2], [3, 4, 5]] := by
  have t : ∀ (w : String) (l : String), isInfix w.toList l.toList = false → ¬ HasText w.toList l.toList := fun w l h hc => by
    rw [(has_iff _ _).2 hc] at h
    cases h
  rcases h with ⟨rfl, rfl⟩ | ⟨rfl, rfl⟩
  · refine ⟨_, _, [_, _], [_], rfl, (has_iff _ _).1 (by decide +kernel), ⟨(has_iff _ _).1 (by decide +kernel), t _ _ (by decide +kernel)⟩, rfl, ?_, ?_, ?_⟩
    · refine .cons ⟨"      ".toList, "1".toList, "      ".toList, "1".toList, "      ".toList, "Si".toList, "         ".toList, "7     0     -2".toList, ?_⟩
        (.cons ⟨"      ".toList, "2".toList, "      ".toList, "2".toList, "      ".toList, "H".toList, "          ".toList, "3     4     5".toList, ?_⟩ .nil) <;>
        (unfold Blanks NoBlank NumLine; decide +kernel)
    · simp only [List.forall_mem_cons]
      exact ⟨⟨t _ _ (by decide +kernel), t _ _ (by decide +kernel), t _ _ (by decide +kernel)⟩, ⟨t _ _ (by decide +kernel), t _ _ (by decide +kernel), t _ _ (by decide +kernel)⟩, by simp⟩
    · simp only [List.forall_mem_cons]
      exact ⟨t _ _ (by decide +kernel), by simp⟩
  · refine ⟨_, _, [_, _], [_], rfl, (has_iff _ _).1 (by decide +kernel), ⟨(has_iff _ _).1 (by decide +kernel), t _ _ (by decide +kernel)⟩, rfl, ?_, ?_, ?_⟩
    · refine .cons ⟨"      ".toList, "1".toList, "      ".toList, "1".toList, "      ".toList, "Si".toList, "         ".toList, "-8     0     -2".toList, ?_⟩
        (.cons ⟨"      ".toList, "2".toList, "      ".toList, "2".toList, "      ".toList, "H".toList, "          ".toList, "3     4     5".toList, ?_⟩ .nil) <;>
        (unfold Blanks NoBlank NumLine; decide +kernel)
    · simp only [List.forall_mem_cons]
      exact ⟨⟨t _ _ (by decide +kernel), t _ _ (by decide +kernel), t _ _ (by decide +kernel)⟩, ⟨t _ _ (by decide +kernel), t _ _ (by decide +kernel), t _ _ (by decide +kernel)⟩, by simp⟩
    · simp only [List.forall_mem_cons]
      exact ⟨t _ _ (by decide +kernel), by simp⟩

/-- Two steps, with a blank line in the second table. -/
def exOut : List Text := " - Number of atoms:   2".toList :: (exTable "7" ++ (exTable "-8").take 1 ++ [[' ', ' ']] ++ (exTable "-8").drop 1)

theorem exForceOut : IsForceOut parseInt 2 exOut [[[7, 0, -2], [3, 4, 5]], [[-8, 0, -2], [3, 4, 5]]] := by
  have nb : ∀ l, blankLine l = false → ¬ BlankText l := fun l h hc => by
    rw [blankLine, List.all_eq_true.2 hc] at h
    cases h
  have pre : ∀ (ls r x : List Text), (∀ l ∈ ls, blankLine l = false) → Interleaved (fun l x => l = x ∧ ¬ BlankText l) BlankText r x →
      Interleaved (fun l x => l = x ∧ ¬ BlankText l) BlankText (ls ++ r) (ls ++ x) := by
    intro ls r x h hr
    induction ls with
    | nil => exact hr
    | cons l ls ih => exact .hit ⟨rfl, nb l (h l (by simp))⟩ (ih fun a ha => h a (by simp [ha]))
  refine ⟨_, [" - Number of atoms:   2".toList], [exTable "7", exTable "-8"], ?_, rfl, ?_, .cons (exTable_ok _ _ (Or.inl ⟨rfl, rfl⟩)) (.cons (exTable_ok _ _ (Or.inr ⟨rfl, rfl⟩)) .nil)⟩
  · have := pre (" - Number of atoms:   2".toList :: (exTable "7" ++ (exTable "-8").take 1)) ([' ', ' '] :: ((exTable "-8").drop 1 ++ [])) ((exTable "-8").drop 1 ++ []) (by decide +kernel)
      (.other (by unfold BlankText; decide) (pre _ _ _ (by decide +kernel) .nil))
    exact this
  · intro l hl
    rw [List.mem_singleton] at hl
    subst hl
    intro hc
    have := (has_iff _ _).2 hc
    revert this
    decide +kernel

example : forces parseInt exOut = .ok (some [[[7, 0, -2], [3, 4, 5]], [[-8, 0, -2], [3, 4, 5]]]) :=
  C123_forces parseInt 2 exOut _ (by omega) (by
    have := (C123_natoms [] (exOut.drop 1) " - ".toList "   ".toList [] 2 (by simp) (by unfold BlankText; decide) (by unfold BlankText; decide)).1
    have e : exOut = [] ++ (" - ".toList ++ "Number of atoms:".toList ++ ("   ".toList ++ strNat 2 ++ [])) :: exOut.drop 1 := by decide +kernel
    rw [e]
    exact this) exForceOut

example : runType [" GLOBAL| Run type                                  CELL_OPT".toList] = "CELL_OPT".toList :=
  C123_run_type [] [] " ".toList "| ".toList "                                  ".toList "CELL_OPT".toList [] (by simp) (by unfold Blanks; decide)
    (by unfold WordText; decide) (fun a b h => by
      have : isInfix "type".toList "CELL_OPT".toList = true := (has_iff _ _).2 ⟨a, b, by rw [h, List.append_assoc]⟩
      revert this
      decide +kernel) (by unfold BlankText; simp)

end Pwtools.Cp2kOut
