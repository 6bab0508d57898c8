import Verif.Props.Phonon
/-!
# Reading phonon frequencies and mode vectors: main theorems (C94)
-/
namespace Pwtools.Ph
open Pwtools.Gr Pwtools.Spec Pwtools.Lmp Pwtools.PwOut

variable {K : Type} {num : Text → Option K}

theorem qs_eq (bs : List (PhQ K)) (h : ∀ b ∈ bs, b.Wf num) (h0 : bs ≠ []) :
    arr2d num ((bs.map PhQ.qline).map fun l => splitWs (sedQ l)) = .ok (some (bs.map PhQ.q)) := by
  apply arr2d_eq num _ _ 3 (by norm_num)
  · simpa using h0
  · clear h0
    induction bs with
    | nil => simp
    | cons b bs ih =>
      exact List.Forall₂.cons (q_line (h b (by simp)).qline).2.2.2 (ih fun x hx => h x (by simp [hx]))
  · intro v hv
    obtain ⟨b, hb, rfl⟩ := List.mem_map.1 hv
    exact (h b hb).qline.three

theorem rows_wf (ms : List (PhMode K)) (h : ∀ m ∈ ms, m.Wf num) : ∀ r ∈ ms.flatMap PhMode.rows, VecLine num r.1 r.2 := by
  intro r hr
  obtain ⟨m, hm, hr⟩ := List.mem_flatMap.1 hr
  exact (h m hm).rows r hr

/-- What the reader does with a file of well-formed lines, whatever the numbers of modes and rows are. -/
theorem read_eq (bs : List (PhQ K)) (tail : List Text) (na : Nat) (h : ∀ b ∈ bs, b.Wf num) (ht : ∀ l ∈ tail, OtherLine l)
    (h0 : bs ≠ []) (hr : (allModes bs).flatMap PhMode.rows ≠ []) :
    readMatdynModes num (bs.flatMap PhQ.lines ++ tail) (some na) =
      match reshape4 (((allModes bs).flatMap PhMode.rows).map Prod.snd).flatten bs.length (3 * na) na 3 with
      | .error e => .error e
      | .ok vecs => match reshape2 ((allModes bs).map PhMode.freq) bs.length (3 * na) with
        | .error e => .error e
        | .ok freqs => .ok ⟨bs.map PhQ.q, freqs, vecs⟩ := by
  obtain ⟨f1, f2, f3⟩ := file_filters bs tail h ht
  unfold readMatdynModes omegas
  simp only [f1, f2, f3, qs_eq bs h h0, flatVecs_eq _ (rows_wf _ (allModes_wf bs h)) hr, omegas_eq _ (allModes_wf bs h), List.length_map]
  cases reshape4 (((allModes bs).flatMap PhMode.rows).map Prod.snd).flatten bs.length (3 * na) na 3 with
  | error e => rfl
  | ok v => cases reshape2 ((allModes bs).map PhMode.freq) bs.length (3 * na) <;> rfl

theorem flat_modes (bs : List (PhQ K)) :
    (((allModes bs).flatMap PhMode.rows).map Prod.snd).flatten =
      ((bs.map fun b => b.modes.map fun m => m.rows.map Prod.snd).map fun a => (a.map List.flatten).flatten).flatten := by
  have hm : ∀ ms : List (PhMode K), ((ms.flatMap PhMode.rows).map Prod.snd).flatten =
      ((ms.map fun m => m.rows.map Prod.snd).map List.flatten).flatten := by
    intro ms
    induction ms with
    | nil => rfl
    | cons m ms ih => rw [List.flatMap_cons, List.map_append, List.flatten_append, ih]; rfl
  induction bs with
  | nil => rfl
  | cons b bs ih =>
    rw [allModes, List.flatMap_cons, List.flatMap_append, List.map_append, List.flatten_append, hm]
    rw [allModes] at ih
    rw [ih]
    rfl

theorem flat_freqs (bs : List (PhQ K)) : (allModes bs).map PhMode.freq = (bs.map fun b => b.modes.map PhMode.freq).flatten := by
  induction bs with
  | nil => rfl
  | cons b bs ih =>
    rw [allModes] at ih ⊢
    rw [List.flatMap_cons, List.map_append, ih]
    rfl

/-- The complete file gives, in order, every q-point, every frequency (in cm⁻¹) and every vector. -/
theorem C94_modes (bs : List (PhQ K)) (tail : List Text) (na : Nat) (hna : 0 < na) (h0 : bs ≠ []) (h : ∀ b ∈ bs, b.Wf num)
    (hc : ∀ b ∈ bs, b.Complete na) (ht : ∀ l ∈ tail, OtherLine l) :
    readMatdynModes num (bs.flatMap PhQ.lines ++ tail) (some na) =
      .ok ⟨bs.map PhQ.q, bs.map fun b => b.modes.map PhMode.freq, bs.map fun b => b.modes.map fun m => m.rows.map Prod.snd⟩ := by
  have hr : (allModes bs).flatMap PhMode.rows ≠ [] := by
    obtain ⟨b, hb⟩ := List.exists_mem_of_ne_nil bs h0
    obtain ⟨c1, c2⟩ := hc b hb
    have : b.modes ≠ [] := by
      intro e
      rw [e] at c1
      simp at c1
      omega
    obtain ⟨m, hm⟩ := List.exists_mem_of_ne_nil _ this
    have h3 := c2 m hm
    have : m.rows ≠ [] := by
      intro e
      rw [e] at h3
      simp at h3
      omega
    obtain ⟨r, hr⟩ := List.exists_mem_of_ne_nil _ this
    exact List.ne_nil_of_mem (List.mem_flatMap.2 ⟨m, List.mem_flatMap.2 ⟨b, hb, hm⟩, hr⟩)
  rw [read_eq bs tail na h ht h0 hr, flat_modes, flat_freqs]
  have h4 := reshape4_eq (bs.map fun b => b.modes.map fun m => m.rows.map Prod.snd) (3 * na) na 3 (by
    intro a ha
    obtain ⟨b, hb, rfl⟩ := List.mem_map.1 ha
    refine ⟨by simpa using (hc b hb).1, ?_⟩
    intro c hcm
    obtain ⟨m, hm, rfl⟩ := List.mem_map.1 hcm
    exact ⟨by simpa using (hc b hb).2 m hm, vec_len m.rows ((h b hb).modes m hm).rows⟩)
  have h2 := reshape2_eq (bs.map fun b => b.modes.map PhMode.freq) (3 * na) (by
    intro a ha
    obtain ⟨b, hb, rfl⟩ := List.mem_map.1 ha
    simpa using (hc b hb).1)
  rw [List.length_map] at h4 h2
  rw [h4]
  simp only
  rw [h2]

/-- An incomplete file, or a wrong number of atoms: if the number of vectors or of frequencies is not that of `na` atoms at every q-point,
the reader raises. -/
theorem C94_counts (bs : List (PhQ K)) (tail : List Text) (na : Nat) (h : ∀ b ∈ bs, b.Wf num) (ht : ∀ l ∈ tail, OtherLine l)
    (hn : ((allModes bs).flatMap PhMode.rows).length ≠ bs.length * (3 * na) * na ∨ (allModes bs).length ≠ bs.length * (3 * na)) :
    ∃ e, readMatdynModes num (bs.flatMap PhQ.lines ++ tail) (some na) = .error e := by
  obtain ⟨f1, f2, f3⟩ := file_filters bs tail h ht
  by_cases h0 : bs = []
  · subst h0
    simp [allModes] at hn
  by_cases hr : (allModes bs).flatMap PhMode.rows = []
  · refine ⟨.attr, ?_⟩
    unfold readMatdynModes
    simp only [f1, f2, qs_eq bs h h0, hr]
    rfl
  · rw [read_eq bs tail na h ht h0 hr]
    have hl : (((allModes bs).flatMap PhMode.rows).map Prod.snd).flatten.length = ((allModes bs).flatMap PhMode.rows).length * 3 := by
      rw [flat_length _ 3 (vec_len _ (rows_wf _ (allModes_wf bs h))), List.length_map]
    rcases hn with hn | hn
    · refine ⟨.value, ?_⟩
      unfold reshape4
      rw [if_neg]
      rw [hl]
      intro e
      exact hn (Nat.eq_of_mul_eq_mul_right (by norm_num) e)
    · have h2 : reshape2 ((allModes bs).map PhMode.freq) bs.length (3 * na) = .error .value := by
        unfold reshape2
        rw [if_neg (by simpa using hn)]
      rw [h2]
      split
      · exact ⟨_, rfl⟩
      · exact ⟨_, rfl⟩

theorem complete_rows (bs : List (PhQ K)) (na : Nat) (hc : ∀ b ∈ bs, b.Complete na) : (allModes bs).length = bs.length * (3 * na) := by
  rw [allModes, List.length_flatMap, List.map_congr_left (g := fun _ => 3 * na) fun b hb => (hc b hb).1]
  simp

/-- A wrong number of atoms is noticed. -/
theorem C94_wrong_natoms (bs : List (PhQ K)) (tail : List Text) (na na' : Nat) (hne : na' ≠ na) (h0 : bs ≠ [])
    (h : ∀ b ∈ bs, b.Wf num) (hc : ∀ b ∈ bs, b.Complete na) (ht : ∀ l ∈ tail, OtherLine l) :
    ∃ e, readMatdynModes num (bs.flatMap PhQ.lines ++ tail) (some na') = .error e := by
  apply C94_counts bs tail na' h ht
  right
  rw [complete_rows bs na hc]
  intro e
  have hp : 0 < bs.length := List.length_pos_of_ne_nil h0
  have := Nat.eq_of_mul_eq_mul_left hp e
  omega

/-! ## dynamical matrix files -/

theorem dyn_filters (b : PhQ K) (tail : List Text) (h : b.WfDyn num) (ht : ∀ l ∈ tail, OtherLine l) :
    ((b.lines ++ tail).filter isDynQ).getLast? = some b.qline ∧
    ((b.lines ++ tail).filter fun l => !isQ l).filter isVec = (b.modes.flatMap PhMode.rows).map Prod.fst ∧
    (b.lines ++ tail).filter isOmega = b.modes.map PhMode.line := by
  obtain ⟨m1, m2, m3⟩ := modes_filters b.modes h.modes
  obtain ⟨q1, q2, q3, -⟩ := dynq_line h.qline
  have hmq : ∀ l ∈ b.modes.flatMap PhMode.lines, isQ l = false := by
    intro l hl
    rw [List.filter_eq_nil_iff] at m1
    simpa using m1 l hl
  refine ⟨?_, ?_, ?_⟩
  · unfold PhQ.lines
    have hz : ∀ L : List Text, (∀ l ∈ L, isQ l = false) → L.filter isDynQ = [] := fun L hL =>
      filter_false _ _ fun l hl => dynq_of_q (hL l hl)
    rw [List.filter_append, List.filter_append, List.filter_cons, if_pos q2, List.filter_append,
      hz b.mid fun l hl => (other_line (h.mid l hl)).1, hz _ hmq, hz tail fun l hl => (other_line (ht l hl)).1]
    simp
  · unfold PhQ.lines
    have hpre : (b.pre.filter fun l => !isQ l).filter isVec = [] := by
      apply filter_false
      intro l hl
      obtain ⟨h1, h2⟩ := List.mem_filter.1 hl
      apply isVec_false
      intro hv
      have := (isQ_iff l).2 ((h.pre l h1).2 hv)
      rw [this] at h2
      exact absurd h2 (by decide)
    have hoth : ∀ L : List Text, (∀ l ∈ L, OtherLine l) → (L.filter fun l => !isQ l).filter isVec = [] := by
      intro L hL
      apply filter_false
      intro l hl
      exact (other_line (hL l (List.mem_filter.1 hl).1)).2.1
    have hms : (b.modes.flatMap PhMode.lines).filter (fun l => !isQ l) = b.modes.flatMap PhMode.lines := by
      apply filter_true
      intro l hl
      rw [hmq l hl]
      rfl
    simp only [List.filter_append, List.filter_cons, q1, Bool.not_true, Bool.false_eq_true, if_false, hpre, hoth b.mid h.mid,
      hoth tail ht, hms, m2, List.nil_append, List.append_nil]
  · unfold PhQ.lines
    rw [List.filter_append, List.filter_append, List.filter_cons, q3, List.filter_append, m3,
      filter_false isOmega b.pre fun l hl => isOmega_false (h.pre l hl).1,
      filter_false isOmega b.mid fun l hl => (other_line (h.mid l hl)).2.2,
      filter_false isOmega tail fun l hl => (other_line (ht l hl)).2.2]
    simp

/-- The file of one q-point: the q-point, the frequencies and the vectors. -/
theorem C94_dyn (b : PhQ K) (tail : List Text) (na : Nat) (hna : 0 < na) (h : b.WfDyn num) (hc : b.Complete na)
    (ht : ∀ l ∈ tail, OtherLine l) :
    readDyn num (b.lines ++ tail) (some na) =
      .ok ⟨b.q, b.modes.map PhMode.freq, b.modes.map fun m => m.rows.map Prod.snd⟩ := by
  obtain ⟨f1, f2, f3⟩ := dyn_filters b tail h ht
  have hr : b.modes.flatMap PhMode.rows ≠ [] := by
    obtain ⟨c1, c2⟩ := hc
    have : b.modes ≠ [] := by
      intro e
      rw [e] at c1
      simp at c1
      omega
    obtain ⟨m, hm⟩ := List.exists_mem_of_ne_nil _ this
    have h3 := c2 m hm
    have : m.rows ≠ [] := by
      intro e
      rw [e] at h3
      simp at h3
      omega
    obtain ⟨r, hr⟩ := List.exists_mem_of_ne_nil _ this
    exact List.ne_nil_of_mem (List.mem_flatMap.2 ⟨m, hm, hr⟩)
  have hq : fromString num (splitWs (sedDynQ b.qline)) = b.q := fromString_map num _ _ (dynq_line h.qline).2.2.2
  have h3 := reshape3_eq (b.modes.map fun m => m.rows.map Prod.snd) na 3 (by
    intro c hcm
    obtain ⟨m, hm, rfl⟩ := List.mem_map.1 hcm
    exact ⟨by simpa using hc.2 m hm, vec_len m.rows (h.modes m hm).rows⟩)
  rw [List.length_map, hc.1] at h3
  have hf := flat_modes [b]
  simp only [allModes, List.flatMap_cons, List.flatMap_nil, List.append_nil, List.map_cons, List.map_nil, List.flatten_cons,
    List.flatten_nil] at hf
  unfold readDyn omegas
  simp only [f1, f2, f3, hq, h.qline.three, ne_eq, not_true_eq_false, if_false, flatVecs_eq _ (rows_wf _ h.modes) hr, hf, h3,
    omegas_eq _ h.modes]

/-- All files together give the same arrays as `matdyn.modes` does for the same data. -/
theorem C94_all_dyn (bs : List (PhQ K)) (tails : List (List Text)) (na : Nat) (hna : 0 < na) (hl : tails.length = bs.length)
    (h : ∀ b ∈ bs, b.WfDyn num) (hc : ∀ b ∈ bs, b.Complete na) (ht : ∀ t ∈ tails, ∀ l ∈ t, OtherLine l) :
    readAllDyn num (List.zipWith (fun b t => b.lines ++ t) bs tails) na =
      .ok ⟨bs.map PhQ.q, bs.map fun b => b.modes.map PhMode.freq, bs.map fun b => b.modes.map fun m => m.rows.map Prod.snd⟩ := by
  induction bs generalizing tails with
  | nil => rfl
  | cons b bs ih =>
    cases tails with
    | nil => simp at hl
    | cons t tails =>
      have ih := ih tails (by simpa using hl) (fun x hx => h x (by simp [hx])) (fun x hx => hc x (by simp [hx]))
        fun x hx => ht x (by simp [hx])
      have hm : (b.modes.map PhMode.freq).length = 3 * na := by simpa using (hc b (by simp)).1
      have ha : assignRow (3 * na) (b.modes.map PhMode.freq) = .ok (b.modes.map PhMode.freq) := by
        unfold assignRow
        split
        · rename_i x hx
          rw [hx] at hm
          simp at hm
          omega
        · rw [if_pos hm]
      simp only [List.zipWith_cons_cons, readAllDyn]
      rw [C94_dyn b t na hna (h b (by simp)) (hc b (by simp)) (ht t (by simp))]
      simp only [ha, ih, List.map_cons]

/-! ## dynmat.x -/

theorem grepA_other (n : Nat) (p : Text → Bool) (A : List Text) (h : ∀ l ∈ A, p l = false) (s g : Bool) (B : List Text) :
    ∃ g', (A = [] → g' = g) ∧ grepA n p (A ++ B) 0 s g = grepA n p B 0 s g' := by
  induction A generalizing g with
  | nil => exact ⟨g, fun _ => rfl, rfl⟩
  | cons l A ih =>
    obtain ⟨g', -, h2⟩ := ih (fun x hx => h x (by simp [hx])) true
    refine ⟨g', by simp, ?_⟩
    simp only [List.cons_append, grepA, h l (by simp), Bool.false_eq_true, if_false, h2]

theorem grepA_none (n : Nat) (p : Text → Bool) (A : List Text) (h : ∀ l ∈ A, p l = false) (s g : Bool) : grepA n p A 0 s g = [] := by
  obtain ⟨g', -, h2⟩ := grepA_other n p A h s g []
  rw [List.append_nil] at h2
  rw [h2]
  rfl

theorem grepA_context (n : Nat) (p : Text → Bool) (A : List Text) (h : ∀ l ∈ A, p l = false) (c : Nat) (hc : A.length ≤ c) (B : List Text) :
    grepA n p (A ++ B) c true false = A ++ grepA n p B (c - A.length) true false := by
  induction A generalizing c with
  | nil => simp
  | cons l A ih =>
    obtain ⟨c, rfl⟩ : ∃ c', c = c' + 1 := ⟨c - 1, by simp at hc; omega⟩
    simp only [List.cons_append, grepA, h l (by simp), Bool.false_eq_true, if_false]
    rw [ih (fun x hx => h x (by simp [hx])) c (by simpa using hc)]
    simp

theorem mode_head {hd : Text} (h : ∃ a b c, hd = a ++ ("mode".toList ++ (b ++ ("cm-1".toList ++ c)))) :
    hasSeq ["mode".toList, "cm-1".toList] hd = true ∧ isInfix "mode".toList hd = true := by
  obtain ⟨a, b, c, h⟩ := h
  refine ⟨(Cp2k.hasSeq_two _ _ _).2 ⟨a, b, c, by rw [h]; simp⟩, (has_iff _ _).2 ⟨a, b ++ ("cm-1".toList ++ c), ?_⟩⟩
  rw [h, List.append_assoc]

theorem mode_other {l : Text} (h : ¬ ∃ a b c, l = a ++ ("mode".toList ++ (b ++ ("cm-1".toList ++ c)))) :
    hasSeq ["mode".toList, "cm-1".toList] l = false := by
  by_contra hc
  obtain ⟨a, b, c, e⟩ := (Cp2k.hasSeq_two _ _ _).1 (by simpa using hc)
  exact h ⟨a, b, c, by rw [e]; simp⟩

theorem mode_row {l : Text} (h : ¬ Has "mode".toList l) : hasSeq ["mode".toList, "cm-1".toList] l = false := by
  apply mode_other
  rintro ⟨a, b, c, e⟩
  exact h ⟨a, _, by rw [e, List.append_assoc]⟩

/-- The rows of the table: all of them, or as many as there are when the file ends early. -/
theorem modeTable_eq (n : Nat) (pre : List Text) (hd : Text) (rows tail : List Text)
    (hh : ∃ a b c, hd = a ++ ("mode".toList ++ (b ++ ("cm-1".toList ++ c))))
    (ho : ∀ l ∈ pre ++ tail, ¬ (∃ a b c, l = a ++ ("mode".toList ++ (b ++ ("cm-1".toList ++ c)))))
    (hr : ∀ l ∈ rows, ¬ Has "mode".toList l) (hl : rows.length = n ∨ (rows.length ≤ n ∧ tail = [])) :
    modeTable n (pre ++ hd :: (rows ++ tail)) = rows := by
  obtain ⟨h1, h2⟩ := mode_head hh
  unfold modeTable
  obtain ⟨g', -, hg⟩ := grepA_other n (hasSeq ["mode".toList, "cm-1".toList]) pre
    (fun l hl => mode_other (ho l (by simp [hl]))) false false (hd :: (rows ++ tail))
  rw [hg]
  have hc := grepA_context n (hasSeq ["mode".toList, "cm-1".toList]) rows (fun l hl => mode_row (hr l hl)) n
    (by rcases hl with h | h <;> omega) tail
  have ht : grepA n (hasSeq ["mode".toList, "cm-1".toList]) tail (n - rows.length) true false = [] := by
    rcases hl with h | ⟨-, h⟩
    · rw [h, Nat.sub_self]
      exact grepA_none _ _ _ (fun l hl => mode_other (ho l (by simp [hl]))) _ _
    · rw [h]
      rfl
  rw [ht, List.append_nil] at hc
  simp only [grepA, h1, if_true, Bool.false_and, Bool.false_eq_true, if_false, List.nil_append, hc, List.filter_cons, h2, Bool.not_true]
  apply filter_true
  intro l hl
  rw [has_false (hr l hl)]
  rfl

theorem axsf_grep (na : Nat) (bs : List (Axsf K)) (tail : List Text) (h : ∀ b ∈ bs, b.Wf num na)
    (ht : ∀ l ∈ tail, ¬ Has "PRIMCO".toList l) (s : Bool) (g : Bool) (hg : (s && g) = false) :
    grepA (na + 1) (isInfix "PRIMCO".toList) (bs.flatMap Axsf.lines ++ tail) 0 s g = bs.flatMap Axsf.lines := by
  induction bs generalizing s g with
  | nil => exact grepA_none _ _ _ (fun l hl => has_false (ht l hl)) _ _
  | cons b bs ih =>
    have hb := h b (by simp)
    have ih := ih (fun x hx => h x (by simp [hx])) true false rfl
    have hc := grepA_context (na + 1) (isInfix "PRIMCO".toList) (b.count :: b.rows.map Prod.fst) (by
      intro l hl
      rcases List.mem_cons.1 hl with rfl | hl
      · exact has_false hb.count
      · obtain ⟨r, hr, rfl⟩ := List.mem_map.1 hl
        exact has_false (hb.rows r hr).1) (na + 1) (by simp [hb.nrows]) (bs.flatMap Axsf.lines ++ tail)
    have hz : na + 1 - (b.count :: b.rows.map Prod.fst).length = 0 := by simp [hb.nrows]
    rw [hz, ih] at hc
    have e : (b :: bs).flatMap Axsf.lines ++ tail =
        b.head :: ((b.count :: b.rows.map Prod.fst) ++ (bs.flatMap Axsf.lines ++ tail)) := by
      simp [Axsf.lines]
    rw [e, grepA, if_pos ((has_iff _ _).2 hb.head), hg, hc]
    simp [Axsf.lines]

theorem sedDrop_plain (A : List Text) (h : ∀ l ∈ A, isInfix "PRIMCO".toList l = false) (x y : Text) (B : List Text)
    (hx : isInfix "PRIMCO".toList x = true) : sedDrop (A ++ x :: y :: B) = A ++ sedDrop B := by
  induction A with
  | nil => simp only [List.nil_append, sedDrop, hx, if_true]
  | cons l A ih =>
    have ih := ih fun z hz => h z (by simp [hz])
    cases A with
    | nil =>
      simp only [List.cons_append, List.nil_append] at ih ⊢
      rw [sedDrop, h l (by simp), if_neg (by decide), ih]
    | cons m A =>
      simp only [List.cons_append] at ih ⊢
      rw [sedDrop, h l (by simp), if_neg (by decide), ih]

theorem sedDrop_id (A : List Text) (h : ∀ l ∈ A, isInfix "PRIMCO".toList l = false) : sedDrop A = A := by
  induction A with
  | nil => rfl
  | cons l A ih =>
    have ih := ih fun z hz => h z (by simp [hz])
    cases A with
    | nil => rfl
    | cons m A => rw [sedDrop, h l (by simp), if_neg (by decide), ih]

theorem axsf_sed (na : Nat) (bs : List (Axsf K)) (h : ∀ b ∈ bs, b.Wf num na) (A : List Text)
    (hA : ∀ l ∈ A, isInfix "PRIMCO".toList l = false) :
    sedDrop (A ++ bs.flatMap Axsf.lines) = A ++ bs.flatMap fun b => b.rows.map Prod.fst := by
  induction bs generalizing A with
  | nil =>
    simp only [List.flatMap_nil, List.append_nil]
    exact sedDrop_id A hA
  | cons b bs ih =>
    have hb := h b (by simp)
    have e : A ++ (b :: bs).flatMap Axsf.lines = A ++ b.head :: b.count :: (b.rows.map Prod.fst ++ bs.flatMap Axsf.lines) := by
      simp [Axsf.lines]
    rw [e, sedDrop_plain A hA _ _ _ ((has_iff _ _).2 hb.head), ih (fun x hx => h x (by simp [hx])) _ (by
      intro l hl
      obtain ⟨r, hr, rfl⟩ := List.mem_map.1 hl
      exact has_false (hb.rows r hr).1)]
    simp

theorem awk2 (l : Text) (v : List K) (h : (splitWs l).map num = v.map some) (x : K) (hx : v[1]? = some x) :
    (awk [2] l).map num = [some x] := by
  apply awk_row num [2] l [x]
  simp only [List.map_cons, List.map_nil]
  have h1 : ((splitWs l).map num)[1]? = some (some x) := by rw [h]; simp [hx]
  rw [List.getElem?_map] at h1
  cases hw : (splitWs l)[1]? with
  | none => rw [hw] at h1; simp at h1
  | some w =>
    rw [hw] at h1
    simpa using h1

theorem freqs_rows (rows : List (Text × List K)) (ncol : Nat) (h2 : 2 ≤ ncol)
    (h : ∀ r ∈ rows, r.2.length = ncol ∧ (splitWs r.1).map num = r.2.map some) :
    ((rows.map Prod.fst).flatMap (awk [2])).map num = (rows.filterMap fun r => r.2[1]?).map some := by
  induction rows with
  | nil => rfl
  | cons r rows ih =>
    obtain ⟨l1, l2⟩ := h r (by simp)
    have hx : r.2[1]? = some r.2[1] := List.getElem?_eq_getElem (by omega)
    rw [List.map_cons, List.flatMap_cons, List.map_append, awk2 r.1 r.2 l2 _ hx, ih fun x hx => h x (by simp [hx]), List.filterMap_cons, hx]
    rfl

theorem axsf_words (na : Nat) (bs : List (Axsf K)) (h : ∀ b ∈ bs, b.Wf num na) :
    ((bs.flatMap fun b => b.rows.map Prod.fst).flatMap (awk [5, 6, 7])).map num =
      ((bs.map fun b => b.rows.map Prod.snd).map List.flatten).flatten.map some := by
  have hw := words_blocks (num := num) (conv := awk [5, 6, 7]) (bs.map Axsf.rows) (by
    intro rows hrows r hr
    obtain ⟨b, hb, rfl⟩ := List.mem_map.1 hrows
    obtain ⟨-, s, x, y, z, u, v, w, hs, hn⟩ := (h b hb).rows r hr
    apply awk_row
    rw [← hn]
    simp [hs])
  rw [List.flatMap_map, List.map_map, List.flatMap_map] at hw
  rw [hw, List.map_map, List.flatMap_def]
  rfl

/-- `dynmat.x`: the vectors of the AXSF file and the frequencies (second column) of the table. -/
theorem C94_dynmat [Zero K] (out axsf : List Text) (na ncol : Nat) (hna : 0 < na) (pre tail : List Text) (bs : List (Axsf K))
    (ha : axsf = pre ++ (bs.flatMap Axsf.lines ++ tail)) (hp : ∀ l ∈ pre ++ tail, ¬ Has "PRIMCO".toList l)
    (hb : ∀ b ∈ bs, b.Wf num na) (hn : bs.length = 3 * na) (rows : List (Text × List K)) (ho : DynmatOut num (3 * na) ncol out rows) :
    readDynmat num out axsf (some na) =
      .ok ⟨[0, 0, 0], rows.filterMap fun r => r.2[1]?, bs.map fun b => b.rows.map Prod.snd⟩ := by
  obtain ⟨pre', hd, tail', hf, hh, hq⟩ := ho.text
  have hm := modeTable_eq (3 * na) pre' hd (rows.map Prod.fst) tail' hh hq (by
    intro l hl
    obtain ⟨r, hr, rfl⟩ := List.mem_map.1 hl
    exact (ho.rows r hr).1) (Or.inl (by rw [List.length_map]; exact ho.nrows))
  obtain ⟨g', -, hg⟩ := grepA_other (na + 1) (isInfix "PRIMCO".toList) pre (fun l hl => has_false (hp l (by simp [hl]))) false false
    (bs.flatMap Axsf.lines ++ tail)
  have hsd := axsf_sed na bs hb [] (by simp)
  simp only [List.nil_append] at hsd
  have h3 := reshape3_eq (bs.map fun b => b.rows.map Prod.snd) na 3 (by
    intro a haa
    obtain ⟨b, hbb, rfl⟩ := List.mem_map.1 haa
    refine ⟨by simpa using (hb b hbb).nrows, ?_⟩
    intro r hr
    obtain ⟨r', hr', rfl⟩ := List.mem_map.1 hr
    obtain ⟨-, s, x, y, z, u, v, w, -, hnn⟩ := (hb b hbb).rows r' hr'
    have := congrArg List.length hnn
    simpa using this.symm)
  rw [List.length_map, hn] at h3
  unfold readDynmat
  simp only
  rw [ha, hg, axsf_grep na bs tail hb (fun l hl => hp l (by simp [hl])) false g' rfl, hsd, fromString_map num _ _ (axsf_words na bs hb), h3,
    hf, hm, fromString_map num _ _ (freqs_rows rows ncol ho.ncol2 fun r hr => (ho.rows r hr).2)]

/-- A `dynmat.out` which ends within the table: the frequencies which are there are returned, fewer than modes, without an error. -/
theorem C94_short_counterexample [Zero K] (axsf : List Text) (na ncol : Nat) (pre tail : List Text) (bs : List (Axsf K))
    (ha : axsf = pre ++ (bs.flatMap Axsf.lines ++ tail)) (hp : ∀ l ∈ pre ++ tail, ¬ Has "PRIMCO".toList l)
    (hb : ∀ b ∈ bs, b.Wf num na) (hn : bs.length = 3 * na) (rows : List (Text × List K)) (full : List Text)
    (ho : DynmatOut num (3 * na) ncol full rows) (k : Nat) (hk : k < 3 * na) :
    ∃ out r, out <+: full ∧ readDynmat num out axsf (some na) = .ok r ∧ r.freqs.length = k ∧ r.vecs.length = 3 * na := by
  obtain ⟨pre', hd, tail', hf, hh, hq⟩ := ho.text
  have hm := modeTable_eq (3 * na) pre' hd ((rows.take k).map Prod.fst) [] hh (fun l hl => hq l (by
      simp only [List.append_nil] at hl
      simp [hl])) (by
    intro l hl
    obtain ⟨r, hr, rfl⟩ := List.mem_map.1 hl
    exact (ho.rows r (List.mem_of_mem_take hr)).1) (Or.inr ⟨by rw [List.length_map, List.length_take]; omega, rfl⟩)
  have hfr := fromString_map num _ _ (freqs_rows (rows.take k) ncol ho.ncol2 fun r hr => (ho.rows r (List.mem_of_mem_take hr)).2)
  obtain ⟨g', -, hg⟩ := grepA_other (na + 1) (isInfix "PRIMCO".toList) pre (fun l hl => has_false (hp l (by simp [hl]))) false false
    (bs.flatMap Axsf.lines ++ tail)
  have hsd := axsf_sed na bs hb [] (by simp)
  simp only [List.nil_append] at hsd
  have h3 := reshape3_eq (bs.map fun b => b.rows.map Prod.snd) na 3 (by
    intro a haa
    obtain ⟨b, hbb, rfl⟩ := List.mem_map.1 haa
    refine ⟨by simpa using (hb b hbb).nrows, ?_⟩
    intro r hr
    obtain ⟨r', hr', rfl⟩ := List.mem_map.1 hr
    obtain ⟨-, s, x, y, z, u, v, w, -, hnn⟩ := (hb b hbb).rows r' hr'
    have := congrArg List.length hnn
    simpa using this.symm)
  rw [List.length_map, hn] at h3
  refine ⟨pre' ++ hd :: ((rows.take k).map Prod.fst ++ []), ⟨[0, 0, 0], (rows.take k).filterMap fun r => r.2[1]?,
    bs.map fun b => b.rows.map Prod.snd⟩, ?_, ?_, ?_, by simp [hn]⟩
  · refine ⟨(rows.drop k).map Prod.fst ++ tail', ?_⟩
    rw [hf]
    simp only [List.append_nil, List.append_assoc, List.cons_append]
    rw [← List.append_assoc (List.map Prod.fst (rows.take k)), ← List.map_append, List.take_append_drop]
  · unfold readDynmat
    simp only
    rw [ha, hg, axsf_grep na bs tail hb (fun l hl => hp l (by simp [hl])) false g' rfl, hsd, fromString_map num _ _ (axsf_words na bs hb), h3,
      hm, hfr]
  · have : ∀ rs : List (Text × List K), (∀ r ∈ rs, r.2.length = ncol) → (rs.filterMap fun r => r.2[1]?).length = rs.length := by
      intro rs hrs
      induction rs with
      | nil => rfl
      | cons r rs ih =>
        have h1 := hrs r (by simp)
        have h2 := ho.ncol2
        have hx : r.2[1]? = some r.2[1] := List.getElem?_eq_getElem (by omega)
        rw [List.filterMap_cons, hx]
        simp [ih fun x hx => hrs x (by simp [hx])]
    simp only
    rw [this _ fun r hr => (ho.rows r (List.mem_of_mem_take hr)).2.1, List.length_take, ho.nrows]
    omega

/-- IR and Raman data: the table. -/
theorem C94_table (out : List Text) (na ncol : Nat) (hna : 0 < na) (rows : List (Text × List K))
    (ho : DynmatOut num (3 * na) ncol out rows) : readIrRaman num out (some na) = .ok (some (rows.map Prod.snd)) := by
  obtain ⟨pre', hd, tail', hf, hh, hq⟩ := ho.text
  have hm := modeTable_eq (3 * na) pre' hd (rows.map Prod.fst) tail' hh hq (by
    intro l hl
    obtain ⟨r, hr, rfl⟩ := List.mem_map.1 hl
    exact (ho.rows r hr).1) (Or.inl (by rw [List.length_map]; exact ho.nrows))
  unfold readIrRaman
  simp only
  rw [hf, hm]
  apply arr2d_eq num _ _ ncol ho.ncol2
  · intro e
    have h1 := ho.nrows
    have h2 := congrArg List.length e
    simp at h2
    rw [h2] at h1
    simp at h1
    omega
  · exact forall2_rows rows fun r hr => (ho.rows r hr).2.2
  · intro v hv
    obtain ⟨r, hr, rfl⟩ := List.mem_map.1 hv
    exact (ho.rows r hr).2.1

/-- The named columns: column `i` of every row if the table has it, `None` otherwise. -/
theorem C94_columns (out : List Text) (na ncol : Nat) (hna : 0 < na) (rows : List (Text × List K))
    (ho : DynmatOut num (3 * na) ncol out rows) (cols : List (Nat × Text)) :
    ∃ d, irRamanCols num out (some na) cols = .ok d ∧
      List.Forall₂ (fun c e => e.1 = c.2 ∧ (c.1 < ncol → ∃ v, e.2 = some v ∧ v.map some = rows.map fun r => r.2[c.1]?) ∧
        (ncol ≤ c.1 → e.2 = none)) cols d := by
  have hh : ((rows.map Prod.snd).headD []).length = ncol := by
    cases hr : rows with
    | nil =>
      have h1 := ho.nrows
      rw [hr] at h1
      simp at h1
      omega
    | cons r rs => simpa using (ho.rows r (by rw [hr]; simp)).2.1
  have hcol : ∀ i, i < ncol → ∃ v : List K, (rows.map Prod.snd).mapM (fun r => r[i]?) = some v ∧ v.map some = rows.map fun r => r.2[i]? := by
    intro i hi
    have hlen : ∀ r ∈ rows, r.2.length = ncol := fun r hr => (ho.rows r hr).2.1
    clear hh ho
    induction rows with
    | nil => exact ⟨[], rfl, rfl⟩
    | cons r rows ih =>
      obtain ⟨v, v1, v2⟩ := ih fun x hx => hlen x (by simp [hx])
      have := hlen r (by simp)
      have hx : r.2[i]? = some r.2[i] := List.getElem?_eq_getElem (by omega)
      refine ⟨r.2[i] :: v, ?_, ?_⟩
      · simp [List.mapM_cons, hx, v1]
      · simp [hx, v2]
  unfold irRamanCols
  rw [C94_table out na ncol hna rows ho]
  simp only [hh]
  induction cols with
  | nil => exact ⟨[], rfl, List.Forall₂.nil⟩
  | cons c cols ih =>
    obtain ⟨d, d1, d2⟩ := ih
    by_cases hc : c.1 < ncol
    · obtain ⟨v, v1, v2⟩ := hcol c.1 hc
      refine ⟨(c.2, some v) :: d, ?_, List.Forall₂.cons ⟨rfl, fun _ => ⟨v, rfl, v2⟩, fun h => by omega⟩ d2⟩
      rw [List.mapM_cons, d1, if_pos (by omega), v1]
      rfl
    · refine ⟨(c.2, none) :: d, ?_, List.Forall₂.cons ⟨rfl, fun h => absurd h hc, fun _ => rfl⟩ d2⟩
      rw [List.mapM_cons, d1, if_neg (by omega)]
      rfl

end Pwtools.Ph
