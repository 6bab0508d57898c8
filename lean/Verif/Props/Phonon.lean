import Verif.Model.Phonon
import Verif.Spec.Phonon
import Verif.Props.Lammps
import Verif.Props.Cp2k
/-!
# Reading phonon frequencies and mode vectors (C94)
-/
namespace Pwtools.Ph
open Pwtools.Gr Pwtools.Spec Pwtools.Lmp Pwtools.PwOut

variable {K : Type}

/-! ## lines -/

theorem splitLast_none (c : Char) (t : Text) (h : c ∉ t) : splitLast c t = none := by
  induction t with
  | nil => rfl
  | cons x t ih =>
    rw [List.mem_cons, not_or] at h
    simp only [splitLast, ih h.2]
    rw [if_neg fun e => h.1 e.symm]

theorem splitLast_eq (c : Char) (a b : Text) (h : c ∉ b) : splitLast c (a ++ c :: b) = some (a, b) := by
  induction a with
  | nil => simp [splitLast, splitLast_none c b h]
  | cons x a ih => simp only [List.cons_append, splitLast, ih]

theorem dropBlank (s : Text) (hs : BlankText s) (c : Char) (r : Text) (hc : isPySpace c = false) :
    (s ++ c :: r).dropWhile isPySpace = c :: r := by
  induction s with
  | nil => simp [hc]
  | cons x s ih =>
    rw [List.cons_append, List.dropWhile_cons_of_pos (hs x (by simp))]
    exact ih fun y hy => hs y (by simp [hy])

theorem blank_noq (s : Text) (hs : BlankText s) (c : Char) (hc : isPySpace c = false) : c ∉ s := by
  intro h
  have := hs c h
  rw [hc] at this
  exact absurd this (by decide)

theorem afterQ_none (t : Text) (h : ∀ a s r, BlankText s → t ≠ a ++ 'q' :: (s ++ '=' :: r)) : afterQ t = none := by
  induction t with
  | nil => rfl
  | cons x t ih =>
    simp only [afterQ, ih fun a s r hs e => h (x :: a) s r hs (by rw [e]; rfl)]
    split
    · rename_i hx
      cases hd : t.dropWhile isPySpace with
      | nil => rfl
      | cons y r =>
        simp only
        split
        · rename_i hy
          refine absurd ?_ (h [] (t.takeWhile isPySpace) r fun c hc => List.all_eq_true.1 (List.all_takeWhile (p := isPySpace) (l := t)) c hc)
          rw [List.nil_append, ← hx, ← hy, ← hd, List.takeWhile_append_dropWhile]
        · rfl
    · rfl

theorem afterQ_eq (a s r : Text) (hs : BlankText s) (hr : ∀ a' s' r', BlankText s' → r ≠ a' ++ 'q' :: (s' ++ '=' :: r')) :
    afterQ (a ++ 'q' :: (s ++ '=' :: r)) = some r := by
  induction a with
  | nil =>
    have hn : ∀ (s : Text), BlankText s → ∀ a' s' r', BlankText s' → s ++ '=' :: r ≠ a' ++ 'q' :: (s' ++ '=' :: r') := by
      intro s hs
      induction s with
      | nil =>
        intro a' s' r' h' e
        cases a' with
        | nil => simp at e
        | cons y a' => exact hr a' s' r' h' (by simpa using (List.cons.inj e).2)
      | cons c s ih =>
        intro a' s' r' h' e
        cases a' with
        | nil =>
          have := hs c (by simp)
          rw [(List.cons.inj e).1] at this
          exact absurd this (by decide)
        | cons y a' => exact ih (fun z hz => hs z (by simp [hz])) a' s' r' h' (List.cons.inj e).2
    simp only [List.nil_append, afterQ, afterQ_none _ (hn s hs)]
    rw [dropBlank s hs '=' r (by decide)]
    simp
  | cons x a ih => simp only [List.cons_append, afterQ, ih]

theorem no_q {r : Text} (h : 'q' ∉ r) : ∀ a' s' r', BlankText s' → r ≠ a' ++ 'q' :: (s' ++ '=' :: r') := by
  intro a s t _ e
  exact h (by rw [e]; simp)

theorem afterQ_isSome (a s r : Text) (hs : BlankText s) : (afterQ (a ++ 'q' :: (s ++ '=' :: r))).isSome = true := by
  induction a with
  | nil =>
    simp only [List.nil_append, afterQ]
    split
    · rfl
    · rw [dropBlank s hs '=' r (by decide)]
      simp
  | cons x a ih =>
    obtain ⟨y, hy⟩ := Option.isSome_iff_exists.1 ih
    simp only [List.cons_append, afterQ, hy]
    rfl

theorem splitWsAux_blank (cur t s : Text) (hs : BlankText s) : splitWsAux cur (t ++ s) = splitWsAux cur t := by
  induction t generalizing cur with
  | nil =>
    simp only [List.nil_append]
    induction s generalizing cur with
    | nil => rfl
    | cons c s ih =>
      have h1 : splitWsAux [] s = [] := by
        rw [ih (fun x hx => hs x (by simp [hx])) []]
        rfl
      simp only [splitWsAux, hs c (by simp), if_true, h1]
  | cons c t ih => simp only [List.cons_append, splitWsAux, ih]

theorem splitWs_blank (t s : Text) (hs : BlankText s) : splitWs (t ++ s) = splitWs t := splitWsAux_blank [] t s hs

theorem isQ_iff (l : Text) : isQ l = true ↔ QLike l := by
  unfold isQ QLike
  rw [Cp2k.hasSeq_two]
  constructor <;> rintro ⟨a, b, c, rfl⟩ <;> exact ⟨a, b, c, by simp⟩

theorem isQ_false {l : Text} (h : ¬ QLike l) : isQ l = false := by
  by_contra hc
  exact h ((isQ_iff l).1 (by simpa using hc))

theorem isVec_iff (l : Text) : isVec l = true ↔ VecLike l := by
  unfold isVec VecLike
  constructor
  · intro h
    obtain ⟨n, hn⟩ := dropWhile_spaces l
    simp only [decide_eq_true_eq] at h
    cases hd : l.dropWhile (· = ' ') with
    | nil => rw [hd] at h; simp at h
    | cons c t =>
      rw [hd] at h
      simp only [List.head?_cons, Option.some.injEq] at h
      exact ⟨n, t, by rw [hd] at hn; rw [← h]; exact hn⟩
  · rintro ⟨n, t, rfl⟩
    rw [dropWhile_replicate_append n _ (by simp)]
    simp

theorem isVec_false {l : Text} (h : ¬ VecLike l) : isVec l = false := by
  by_contra hc
  exact h ((isVec_iff l).1 (by simpa using hc))

theorem isOmega_false {l : Text} (h : ¬ Has "omega".toList l) : isOmega l = false := has_false h

theorem other_line {l : Text} (h : OtherLine l) : isQ l = false ∧ isVec l = false ∧ isOmega l = false :=
  ⟨isQ_false h.q, isVec_false h.vec, isOmega_false h.omega⟩

section lines
variable {num : Text → Option K}

theorem omega_line {l : Text} {x : K} (h : OmegaLine num l x) :
    isQ l = false ∧ isVec l = false ∧ isOmega l = true ∧ (splitWs (sedOmega l)).map num = [some x] := by
  refine ⟨isQ_false h.q, isVec_false h.vec, ?_, ?_⟩
  · obtain ⟨a, b, c, d, g, e, w, hl, -⟩ := h.text
    unfold isOmega
    rw [has_iff]
    exact ⟨a, _, by rw [hl, List.append_assoc]⟩
  · obtain ⟨a, b, c, d, g, e, w, hl, hg, he, hw, hn⟩ := h.text
    have h1 : l = (a ++ ("omega".toList ++ (b ++ '=' :: (c ++ '[' :: (d ++ '=' :: g))))) ++ '[' :: e := by
      rw [hl]
      simp
    have h2 : a ++ ("omega".toList ++ (b ++ '=' :: (c ++ '[' :: (d ++ '=' :: g)))) =
        (a ++ ("omega".toList ++ (b ++ '=' :: (c ++ '[' :: d)))) ++ '=' :: g := by simp
    have h3 : hasSeq ["omega".toList, "=".toList, "[".toList] (a ++ ("omega".toList ++ (b ++ '=' :: (c ++ '[' :: d)))) = true := by
      rw [hasSeq_cons]
      refine ⟨a, b ++ '=' :: (c ++ '[' :: d), rfl, ?_⟩
      rw [Cp2k.hasSeq_two]
      exact ⟨b, c, d, by simp⟩
    unfold sedOmega
    rw [h1, splitLast_eq '[' _ e he]
    simp only
    rw [h2, splitLast_eq '=' _ g hg]
    simp only [h3, if_true, hw, List.map_cons, List.map_nil, hn]

theorem vec_line {l : Text} {v : List (K × K)} (h : VecLine num l v) :
    isQ l = false ∧ isVec l = true ∧ isOmega l = false ∧
      ∃ r : List K, r.length = 6 ∧ cplx r = some v ∧ v.length = 3 ∧ (splitWs (sedVec l)).map num = r.map some := by
  refine ⟨isQ_false h.q, ?_, isOmega_false h.omega, ?_⟩
  · obtain ⟨n, body, t, x, y, z, hl, -⟩ := h.text
    rw [isVec_iff]
    exact ⟨n, _, hl⟩
  · obtain ⟨n, body, t, x, y, z, hl, ht, hv, hw⟩ := h.text
    refine ⟨[x.1, x.2, y.1, y.2, z.1, z.2], rfl, by rw [hv]; rfl, by rw [hv]; rfl, ?_⟩
    have hb : BlankText (List.replicate n ' ') := by
      intro c hc
      rw [List.eq_of_mem_replicate hc]
      rfl
    unfold sedVec
    rw [hl, dropBlank _ hb '(' _ (by decide)]
    simp only [if_true]
    rw [splitLast_eq ')' body t (blank_noq t ht ')' (by decide))]
    simp only
    rw [splitWs_blank body t ht, hw]
    rfl

theorem q_line {l : Text} {q : List K} (h : QLine num l q) :
    isQ l = true ∧ isVec l = false ∧ isOmega l = false ∧ (splitWs (sedQ l)).map num = q.map some := by
  obtain ⟨a, s, r, hl, hs, hr, hw⟩ := h.text
  refine ⟨(isQ_iff l).2 ⟨a, s, r, hl⟩, isVec_false h.vec, isOmega_false h.omega, ?_⟩
  unfold sedQ
  rw [hl, afterQ_eq a s r hs hr]
  exact hw

theorem isDynQ_iff (l : Text) : isDynQ l = true ↔ ∃ a b c d, l = a ++ 'q' :: (b ++ '=' :: (c ++ '(' :: d)) := by
  unfold isDynQ
  rw [hasSeq_cons]
  constructor
  · rintro ⟨a, t, rfl, h⟩
    obtain ⟨b, c, d, rfl⟩ := (Cp2k.hasSeq_two _ _ _).1 h
    exact ⟨a, b, c, d, by simp⟩
  · rintro ⟨a, b, c, d, rfl⟩
    exact ⟨a, b ++ '=' :: (c ++ '(' :: d), by simp, (Cp2k.hasSeq_two _ _ _).2 ⟨b, c, d, by simp⟩⟩

theorem dynq_of_q {l : Text} (h : isQ l = false) : isDynQ l = false := by
  by_contra hc
  obtain ⟨a, b, c, d, rfl⟩ := (isDynQ_iff l).1 (by simpa using hc)
  have := (isQ_iff (a ++ 'q' :: (b ++ '=' :: (c ++ '(' :: d)))).2 ⟨a, b, c ++ '(' :: d, rfl⟩
  rw [h] at this
  exact absurd this (by decide)

theorem dynq_line {l : Text} {q : List K} (h : DynQLine num l q) :
    isQ l = true ∧ isDynQ l = true ∧ isOmega l = false ∧ (splitWs (sedDynQ l)).map num = q.map some := by
  obtain ⟨a, s, b, r, t, hl, hs, ht, hr, hw⟩ := h.text
  refine ⟨(isQ_iff l).2 ⟨a, s, _, hl⟩, (isDynQ_iff l).2 ⟨a, s, b, _, hl⟩, isOmega_false h.omega, ?_⟩
  have h1 : l = (a ++ 'q' :: (s ++ '=' :: (b ++ '(' :: r))) ++ ')' :: t := by
    rw [hl]
    simp
  have h2 : a ++ 'q' :: (s ++ '=' :: (b ++ '(' :: r)) = (a ++ 'q' :: (s ++ '=' :: b)) ++ '(' :: r := by simp
  unfold sedDynQ
  rw [h1, splitLast_eq ')' _ t (blank_noq t ht ')' (by decide))]
  simp only
  rw [h2, splitLast_eq '(' _ r hr]
  simp only [afterQ_isSome a s b hs, if_true]
  rw [splitWs_blank r t ht, hw]

end lines

/-! ## modes -/

variable {num : Text → Option K}

theorem filter_false (p : Text → Bool) (L : List Text) (h : ∀ l ∈ L, p l = false) : L.filter p = [] := by
  rw [List.filter_eq_nil_iff]
  intro l hl
  simp [h l hl]

theorem filter_true (p : Text → Bool) (L : List Text) (h : ∀ l ∈ L, p l = true) : L.filter p = L := by
  rw [List.filter_eq_self]
  exact h

theorem mode_filters (m : PhMode K) (h : m.Wf num) :
    m.lines.filter isQ = [] ∧ m.lines.filter isVec = m.rows.map Prod.fst ∧ m.lines.filter isOmega = [m.line] := by
  obtain ⟨o1, o2, o3, -⟩ := omega_line h.line
  refine ⟨?_, ?_, ?_⟩
  · apply filter_false
    intro l hl
    rcases List.mem_cons.1 hl with rfl | hl
    · exact o1
    · obtain ⟨r, hr, rfl⟩ := List.mem_map.1 hl
      exact (vec_line (h.rows r hr)).1
  · unfold PhMode.lines
    rw [List.filter_cons, o2]
    simp only [Bool.false_eq_true, if_false]
    apply filter_true
    intro l hl
    obtain ⟨r, hr, rfl⟩ := List.mem_map.1 hl
    exact (vec_line (h.rows r hr)).2.1
  · unfold PhMode.lines
    rw [List.filter_cons, o3, if_pos rfl, filter_false]
    intro l hl
    obtain ⟨r, hr, rfl⟩ := List.mem_map.1 hl
    exact (vec_line (h.rows r hr)).2.2.1

theorem modes_filters (ms : List (PhMode K)) (h : ∀ m ∈ ms, m.Wf num) :
    (ms.flatMap PhMode.lines).filter isQ = [] ∧
    (ms.flatMap PhMode.lines).filter isVec = (ms.flatMap PhMode.rows).map Prod.fst ∧
    (ms.flatMap PhMode.lines).filter isOmega = ms.map PhMode.line := by
  induction ms with
  | nil => exact ⟨rfl, rfl, rfl⟩
  | cons m ms ih =>
    obtain ⟨i1, i2, i3⟩ := ih fun x hx => h x (by simp [hx])
    obtain ⟨f1, f2, f3⟩ := mode_filters m (h m (by simp))
    simp only [List.flatMap_cons, List.filter_append, i1, i2, i3, f1, f2, f3, List.map_append, List.map_cons, List.append_nil,
      List.singleton_append, and_self]

theorem block_filters (b : PhQ K) (h : b.Wf num) :
    b.lines.filter isQ = [b.qline] ∧ b.lines.filter isVec = (b.modes.flatMap PhMode.rows).map Prod.fst ∧
    b.lines.filter isOmega = b.modes.map PhMode.line := by
  obtain ⟨m1, m2, m3⟩ := modes_filters b.modes h.modes
  obtain ⟨q1, q2, q3, -⟩ := q_line h.qline
  have hp : ∀ p : Text → Bool, (∀ l, OtherLine l → p l = false) → b.pre.filter p = [] ∧ b.mid.filter p = [] := fun p hp =>
    ⟨filter_false p _ fun l hl => hp l (h.pre l hl), filter_false p _ fun l hl => hp l (h.mid l hl)⟩
  obtain ⟨a1, a2⟩ := hp isQ fun l hl => (other_line hl).1
  obtain ⟨b1, b2⟩ := hp isVec fun l hl => (other_line hl).2.1
  obtain ⟨c1, c2⟩ := hp isOmega fun l hl => (other_line hl).2.2
  unfold PhQ.lines
  simp only [List.filter_append, List.filter_cons, q1, q2, q3, m1, m2, m3, a1, a2, b1, b2, c1, c2, if_true, Bool.false_eq_true, if_false,
    List.nil_append, List.append_nil, and_self]

theorem file_filters (bs : List (PhQ K)) (tail : List Text) (h : ∀ b ∈ bs, b.Wf num) (ht : ∀ l ∈ tail, OtherLine l) :
    (bs.flatMap PhQ.lines ++ tail).filter isQ = bs.map PhQ.qline ∧
    (bs.flatMap PhQ.lines ++ tail).filter isVec = ((allModes bs).flatMap PhMode.rows).map Prod.fst ∧
    (bs.flatMap PhQ.lines ++ tail).filter isOmega = (allModes bs).map PhMode.line := by
  induction bs with
  | nil =>
    exact ⟨filter_false _ _ fun l hl => (other_line (ht l hl)).1, filter_false _ _ fun l hl => (other_line (ht l hl)).2.1,
      filter_false _ _ fun l hl => (other_line (ht l hl)).2.2⟩
  | cons b bs ih =>
    obtain ⟨i1, i2, i3⟩ := ih fun x hx => h x (by simp [hx])
    obtain ⟨f1, f2, f3⟩ := block_filters b (h b (by simp))
    simp only [allModes, List.flatMap_cons, List.append_assoc, List.filter_append (l₁ := b.lines), i1, i2, i3, f1, f2, f3,
      List.flatMap_append, List.map_append, List.map_cons, List.singleton_append, and_self]

theorem allModes_wf (bs : List (PhQ K)) (h : ∀ b ∈ bs, b.Wf num) : ∀ m ∈ allModes bs, m.Wf num := by
  intro m hm
  obtain ⟨b, hb, hm⟩ := List.mem_flatMap.1 hm
  exact (h b hb).modes m hm

/-! ## arrays -/

theorem omegas_eq (ms : List (PhMode K)) (h : ∀ m ∈ ms, m.Wf num) :
    fromString num ((ms.map PhMode.line).flatMap fun l => splitWs (sedOmega l)) = ms.map PhMode.freq := by
  apply fromString_map
  induction ms with
  | nil => rfl
  | cons m ms ih =>
    rw [List.map_cons, List.flatMap_cons, List.map_append, ih fun x hx => h x (by simp [hx]), (omega_line (h m (by simp)).line).2.2.2]
    rfl

theorem arr2d_eq (num : Text → Option K) (rows : List (List Text)) (vals : List (List K)) (m : Nat) (hm : 1 < m) (h0 : vals ≠ [])
    (h : List.Forall₂ (fun r v => r.map num = v.map some) rows vals) (hv : ∀ v ∈ vals, v.length = m) :
    arr2d num rows = .ok (some vals) := by
  unfold arr2d
  rw [if_neg, loadRows_eq num rows vals m (by omega) h hv]
  · simp only
    rw [if_neg]
    cases vals with
    | nil => exact absurd rfl h0
    | cons v vals =>
      have := hv v (by simp)
      simp only [List.headD_cons]
      omega
  · intro hn
    cases h with
    | nil => exact h0 rfl
    | @cons r v rs vs hr hrs =>
      have h1 : r = [] := by
        rw [List.flatten_cons, List.append_eq_nil_iff] at hn
        exact hn.1
      have h2 := hv v (by simp)
      rw [h1] at hr
      have h3 : v = [] := by simpa using hr.symm
      rw [h3] at h2
      simp at h2
      omega

theorem flatVecs_eq (rows : List (Text × List (K × K))) (h : ∀ r ∈ rows, VecLine num r.1 r.2) (h0 : rows ≠ []) :
    flatVecs num (rows.map Prod.fst) = .ok (rows.map Prod.snd).flatten := by
  have hv : ∃ vals : List (List K), (∀ v ∈ vals, v.length = 6) ∧
      List.Forall₂ (fun r v => r.map num = v.map some) ((rows.map Prod.fst).map fun l => splitWs (sedVec l)) vals ∧
      vals.mapM cplx = some (rows.map Prod.snd) := by
    clear h0
    induction rows with
    | nil => exact ⟨[], by simp, by simp, rfl⟩
    | cons r rows ih =>
      obtain ⟨vals, v1, v2, v3⟩ := ih fun x hx => h x (by simp [hx])
      obtain ⟨-, -, -, v, w1, w2, -, w4⟩ := vec_line (h r (by simp))
      refine ⟨v :: vals, ?_, ?_, ?_⟩
      · intro x hx
        rcases List.mem_cons.1 hx with rfl | hx
        · exact w1
        · exact v1 x hx
      · exact List.Forall₂.cons w4 v2
      · simp [List.mapM_cons, w2, v3]
  obtain ⟨vals, v1, v2, v3⟩ := hv
  unfold flatVecs
  rw [arr2d_eq num _ vals 6 (by norm_num) ?_ v2 v1]
  · simp only [v3]
  · rintro rfl
    have := v2.length_eq
    simp at this
    exact h0 this

theorem vec_len (rows : List (Text × List (K × K))) (h : ∀ r ∈ rows, VecLine num r.1 r.2) :
    ∀ v ∈ rows.map Prod.snd, v.length = 3 := by
  intro v hv
  obtain ⟨r, hr, rfl⟩ := List.mem_map.1 hv
  obtain ⟨-, -, -, -, -, -, w, -⟩ := vec_line (h r hr)
  exact w

theorem flat_length {A : Type} (L : List (List A)) (m : Nat) (h : ∀ r ∈ L, r.length = m) : L.flatten.length = L.length * m := by
  rw [List.length_flatten, List.map_congr_left (g := fun _ => m) h]
  simp

theorem reshape2_eq {A : Type} (L : List (List A)) (m : Nat) (h : ∀ r ∈ L, r.length = m) :
    reshape2 L.flatten L.length m = .ok L := by
  unfold reshape2
  rw [if_pos (flat_length L m h), chunks_flatten m L h]

theorem reshape3_eq {A : Type} (L : List (List (List A))) (m k : Nat) (h : ∀ a ∈ L, a.length = m ∧ ∀ r ∈ a, r.length = k) :
    reshape3 (L.map List.flatten).flatten L.length m k = .ok L := by
  have h1 : ∀ r ∈ L.map List.flatten, r.length = m * k := by
    intro r hr
    obtain ⟨a, ha, rfl⟩ := List.mem_map.1 hr
    rw [flat_length a k (h a ha).2, (h a ha).1]
  unfold reshape3
  rw [if_pos]
  · congr 1
    have := chunks_flatten (m * k) (L.map List.flatten) h1
    rw [List.length_map] at this
    rw [this, List.map_map]
    conv_rhs => rw [← List.map_id L]
    apply List.map_congr_left
    intro a ha
    have h2 := chunks_flatten k a (h a ha).2
    rw [(h a ha).1] at h2
    exact h2
  · rw [flat_length _ (m * k) h1, List.length_map]
    ring

theorem reshape4_eq {A : Type} (L : List (List (List (List A)))) (m k l : Nat)
    (h : ∀ a ∈ L, a.length = m ∧ ∀ b ∈ a, b.length = k ∧ ∀ r ∈ b, r.length = l) :
    reshape4 (L.map fun a => (a.map List.flatten).flatten).flatten L.length m k l = .ok L := by
  have h1 : ∀ a ∈ L, ((a.map List.flatten).flatten).length = m * k * l := by
    intro a ha
    have : ∀ r ∈ a.map List.flatten, r.length = k * l := by
      intro r hr
      obtain ⟨b, hb, rfl⟩ := List.mem_map.1 hr
      rw [flat_length b l ((h a ha).2 b hb).2, ((h a ha).2 b hb).1]
    rw [flat_length _ _ this, List.length_map, (h a ha).1]
    ring
  have h2 : ∀ r ∈ L.map (fun a => (a.map List.flatten).flatten), r.length = m * k * l := by
    intro r hr
    obtain ⟨a, ha, rfl⟩ := List.mem_map.1 hr
    exact h1 a ha
  unfold reshape4
  rw [if_pos]
  · congr 1
    have := chunks_flatten (m * k * l) _ h2
    rw [List.length_map] at this
    rw [this, List.map_map]
    conv_rhs => rw [← List.map_id L]
    apply List.map_congr_left
    intro a ha
    have h3 := reshape3_eq a k l (h a ha).2
    unfold reshape3 at h3
    split at h3
    · have h4 := Except.ok.inj h3
      rw [(h a ha).1] at h4
      exact h4
    · exact absurd h3 (by simp)
  · rw [flat_length _ _ h2, List.length_map]
    ring

end Pwtools.Ph
