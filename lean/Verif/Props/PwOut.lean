import Verif.Spec.PwOut
import Verif.Props.Grep
/-!
# C87, C88: the pw.x MD parser
-/
namespace Pwtools.PwOut
open Pwtools.Gr Pwtools.Spec
variable {K : Type}

/-! ## line predicates -/

theorem matches_pos (l : Text) : isInfix kPos l = true ↔ Matches .pos l := isInfix_iff_append _ _
theorem matches_cell (l : Text) : isInfix kCell l = true ↔ Matches .cell l := isInfix_iff_append _ _
theorem matches_stress (l : Text) : isInfix kStress l = true ↔ Matches .stress l := isInfix_iff_append _ _

theorem matches_energy (l : Text) : isEnergy l = true ↔ Matches .energy l := by
  cases l <;> simp [isEnergy, Matches, eq_comm]

theorem matches_force (l : Text) : isForce l = true ↔ Matches .force l := by
  unfold isForce Matches
  simp only [hasSeq_cons]
  constructor
  · rintro ⟨a, b, rfl, c, d, rfl, e, f, rfl, _⟩
    exact ⟨a, c, e, f, rfl⟩
  · rintro ⟨a, b, c, d, rfl⟩
    exact ⟨a, _, rfl, b, _, rfl, c, d, rfl, rfl⟩

theorem matches_forceHead (l : Text) : isForceHead l = true ↔ Matches .forceHead l := by
  unfold isForceHead hasSpaced Matches
  simp only [List.any_eq_true, List.mem_tails]
  have hn : ∀ t, spacedPrefix ["Forces".toList, "acting".toList, "on".toList, "atoms".toList] t = true ↔
      ∃ i j k b, t = "Forces".toList ++ (List.replicate (i + 1) ' ' ++ ("acting".toList ++
      (List.replicate (j + 1) ' ' ++ ("on".toList ++ (List.replicate (k + 1) ' ' ++ ("atoms".toList ++ b)))))) := by
    intro t
    rw [spacedPrefix_cons _ _ _ _ (by decide) (by decide)]
    constructor
    · rintro ⟨i, u, rfl, h⟩
      rw [spacedPrefix_cons _ _ _ _ (by decide) (by decide)] at h
      obtain ⟨j, v, rfl, h⟩ := h
      rw [spacedPrefix_cons _ _ _ _ (by decide) (by decide)] at h
      obtain ⟨k, w, rfl, h⟩ := h
      simp only [spacedPrefix, List.isPrefixOf_iff_prefix] at h
      obtain ⟨b, rfl⟩ := h
      exact ⟨i, j, k, b, rfl⟩
    · rintro ⟨i, j, k, b, rfl⟩
      refine ⟨i, _, rfl, ?_⟩
      rw [spacedPrefix_cons _ _ _ _ (by decide) (by decide)]
      refine ⟨j, _, rfl, ?_⟩
      rw [spacedPrefix_cons _ _ _ _ (by decide) (by decide)]
      refine ⟨k, _, rfl, ?_⟩
      simp only [spacedPrefix, List.isPrefixOf_iff_prefix]
      exact ⟨b, rfl⟩
  constructor
  · rintro ⟨t, ⟨a, rfl⟩, h⟩
    obtain ⟨i, j, k, b, rfl⟩ := (hn t).1 h
    exact ⟨a, b, i, j, k, rfl⟩
  · rintro ⟨a, b, i, j, k, rfl⟩
    exact ⟨_, ⟨a, rfl⟩, (hn _).2 ⟨i, j, k, b, rfl⟩⟩

/-- The Boolean test for a kind of line. -/
def test : Key → Text → Bool
  | .pos => isInfix kPos
  | .cell => isInfix kCell
  | .stress => isInfix kStress
  | .energy => isEnergy
  | .forceHead => isForceHead
  | .force => isForce

theorem test_iff (k : Key) (l : Text) : test k l = true ↔ Matches k l := by
  cases k
  · exact matches_pos l
  · exact matches_cell l
  · exact matches_stress l
  · exact matches_energy l
  · exact matches_forceHead l
  · exact matches_force l

theorem test_quiet {l : Text} (h : Quiet l) (k : Key) : test k l = false := by
  rw [Bool.eq_false_iff]
  exact fun hc => h k ((test_iff k l).1 hc)

theorem test_only {l : Text} {k : Key} (h : Only k l) (k' : Key) : test k' l = decide (k' = k) := by
  rw [Bool.eq_iff_iff, test_iff, h k', decide_eq_true_iff]

theorem noDash_iff (l : Text) : isInfix "--".toList l = false ↔ NoDash l := by
  rw [Bool.eq_false_iff, Ne, isInfix_iff_append]
  unfold NoDash
  push Not
  rfl

/-! ## the number of atoms -/

theorem isNatoms_iff (l : Text) : isNatoms l = true ↔ NatomsLike l := by
  unfold isNatoms NatomsLike
  simp only [hasSeq_cons]
  constructor
  · rintro ⟨a, b, rfl, c, d, rfl, _⟩
    exact ⟨a, c, d, rfl⟩
  · rintro ⟨a, b, c, rfl⟩
    exact ⟨a, _, rfl, b, _, rfl, rfl⟩

theorem sedNat_noEq (d : Text) (h : '=' ∉ d) : sedNat d = none := by
  induction d with
  | nil => rfl
  | cons c d ih =>
    simp only [List.mem_cons, not_or] at h
    simp [sedNat, ih h.2, Ne.symm h.1]

theorem sedNat_prefix (a b r : Text) (h : sedNat b = some r) : sedNat (a ++ b) = some r := by
  induction a with
  | nil => exact h
  | cons c a ih => simp [sedNat, ih]

theorem digits_noEq (n : Nat) : '=' ∉ strNat n := by
  intro h
  have := strNat_digits n '=' h
  revert this
  decide

theorem dropWhile_blank (w t : Text) (hw : ∀ x ∈ w, isPySpace x = true) (ht : ∀ x, t.head? = some x → isPySpace x = false) :
    (w ++ t).dropWhile isPySpace = t := by
  induction w with
  | nil =>
    cases t with
    | nil => rfl
    | cons c t => simp [ht c rfl]
  | cons c w ih =>
    simp only [List.cons_append, List.dropWhile_cons, hw c (by simp), if_true]
    exact ih fun x hx => hw x (by simp [hx])

theorem takeWhile_digits (t d : Text) (ht : ∀ x ∈ t, x.isDigit = true) (hd : ∀ x, d.head? = some x → x.isDigit = false) :
    (t ++ d).takeWhile Char.isDigit = t := by
  induction t with
  | nil =>
    cases d with
    | nil => rfl
    | cons c d => simp [hd c rfl]
  | cons c t ih =>
    simp only [List.cons_append, List.takeWhile_cons, ht c (by simp), if_true]
    rw [ih fun x hx => ht x (by simp [hx])]

theorem sedNat_line (na : Nat) (w d : Text) (hw : w ≠ [] ∧ ∀ x ∈ w, isPySpace x = true)
    (hd : ∀ x, d.head? = some x → x.isDigit = false) (hl : '=' ∉ d) :
    sedNat ('=' :: (w ++ (strNat na ++ d))) = some (strNat na) := by
  have hno : '=' ∉ w ++ (strNat na ++ d) := by
    simp only [List.mem_append, not_or]
    refine ⟨fun h => ?_, digits_noEq na, hl⟩
    have := hw.2 _ h
    revert this
    decide
  have hdw : (w ++ (strNat na ++ d)).dropWhile isPySpace = strNat na ++ d := by
    apply dropWhile_blank _ _ hw.2
    intro x hx
    have hne := strNat_ne_nil na
    cases hs : strNat na with
    | nil => exact absurd hs hne
    | cons y ys =>
      rw [hs] at hx
      simp only [List.cons_append, List.head?_cons, Option.some.injEq] at hx
      subst hx
      exact isPySpace_digit _ (strNat_digits na y (by simp [hs]))
  simp only [sedNat, sedNat_noEq _ hno, if_true, hdw, takeWhile_digits _ _ (strNat_digits na) hd]
  rw [if_pos]
  refine ⟨?_, strNat_ne_nil na⟩
  obtain ⟨c, w', rfl⟩ : ∃ c w', w = c :: w' := List.exists_cons_of_ne_nil hw.1
  simp [hw.2 c (by simp)]

theorem natoms_eq {num : Text → Option K} {na : Nat} {pre : List Text} {nl : Text} {rest : List Text}
    (h1 : ∀ l ∈ pre, ¬ NatomsLike l) (h : NatomsLine nl na) : natoms (pre ++ nl :: rest) = .ok (some na) := by
  have hf : (pre ++ nl :: rest).find? isNatoms = some nl := by
    rw [List.find?_append]
    have : pre.find? isNatoms = none := by
      rw [List.find?_eq_none]
      exact fun l hl hc => h1 l hl ((isNatoms_iff l).1 hc)
    rw [this]
    have hn : isNatoms nl = true := (isNatoms_iff nl).2 ⟨h.a, h.b, _, h.eq⟩
    simp [List.find?_cons, hn]
  have hs : sedNat nl = some (strNat na) := by
    rw [h.eq]
    have := sedNat_line na h.w h.d h.blank h.digit h.last
    rw [show h.a ++ ("number".toList ++ (h.b ++ ("atoms/cell".toList ++ (h.c ++ ('=' :: (h.w ++ (strNat na ++ h.d))))))) =
      (h.a ++ "number".toList ++ h.b ++ "atoms/cell".toList ++ h.c) ++ ('=' :: (h.w ++ (strNat na ++ h.d))) by simp]
    exact sedNat_prefix _ _ _ this
  unfold natoms
  simp [hf, hs, parseInt_strNat]

/-! ## blocks with a header and rows -/

/-- What the generic lemma needs to know of a block. -/
structure RowBlocks (num : Text → Option K) (key : Text) (n : Nat) (conv : Text → List Text)
    (sel : Block K → Option (List (Text × List K))) (b : Block K) : Prop where
  none : sel b = none → ∀ l ∈ b.lines, isInfix key l = false
  some : ∀ rows, sel b = some rows → ∃ h, b.lines = h :: rows.map Prod.fst ∧ isInfix key h = true ∧ rows.length = n ∧
    ∀ r ∈ rows, isInfix key r.1 = false ∧ isInfix "--".toList r.1 = false ∧ (conv r.1).map num = r.2.map some ∧ r.2.length = 3

section generic
variable {num : Text → Option K} {key : Text} {n : Nat} {conv : Text → List Text} {sel : Block K → Option (List (Text × List K))}

theorem count_rows (blocks : List (Block K)) (h : ∀ b ∈ blocks, RowBlocks num key n conv sel b) :
    ((blocks.flatMap Block.lines).filter (isInfix key)).length = (blocks.filterMap sel).length := by
  induction blocks with
  | nil => rfl
  | cons b bs ih =>
    rw [List.flatMap_cons, List.filter_append, List.length_append, ih fun x hx => h x (by simp [hx])]
    have hb := h b (by simp)
    cases hs : sel b with
    | none =>
      have : b.lines.filter (isInfix key) = [] := by
        rw [List.filter_eq_nil_iff]
        intro l hl
        simp [hb.none hs l hl]
      simp [this, hs]
    | some rows =>
      obtain ⟨hd, e, h1, h2, h3⟩ := hb.some rows hs
      have : (rows.map Prod.fst).filter (isInfix key) = [] := by
        rw [List.filter_eq_nil_iff]
        intro l hl
        obtain ⟨r, hr, rfl⟩ := List.mem_map.1 hl
        simp [(h3 r hr).1]
      rw [e, List.filter_cons, if_pos h1, this, List.filterMap_cons_some hs]
      simp
      omega

theorem pick_blocks (blocks : List (Block K)) (tail : List Text) (h : ∀ b ∈ blocks, RowBlocks num key n conv sel b) :
    pick n (isInfix key) (fun l => !isInfix key l && !isInfix "--".toList l) (blocks.flatMap Block.lines ++ tail) 0 =
      (blocks.filterMap sel).flatMap (fun rows => rows.map Prod.fst) ++
        pick n (isInfix key) (fun l => !isInfix key l && !isInfix "--".toList l) tail 0 := by
  induction blocks with
  | nil => rfl
  | cons b bs ih =>
    have ih := ih fun x hx => h x (by simp [hx])
    have hb := h b (by simp)
    rw [List.flatMap_cons, List.append_assoc]
    cases hs : sel b with
    | none => rw [pick_other _ _ _ _ _ (hb.none hs), ih, List.filterMap_cons_none hs]
    | some rows =>
      obtain ⟨hd, e, h1, h2, h3⟩ := hb.some rows hs
      rw [e, pick_block _ _ _ hd _ _ h1, ih, List.filterMap_cons_some hs, List.flatMap_cons, List.append_assoc]
      · intro l hl
        obtain ⟨r, hr, rfl⟩ := List.mem_map.1 hl
        have := h3 r hr
        rw [this.1, this.2.1]
        exact ⟨rfl, rfl⟩
      · simpa using h2

theorem words_blocks (L : List (List (Text × List K)))
    (h : ∀ rows ∈ L, ∀ r ∈ rows, (conv r.1).map num = r.2.map some) :
    ((L.flatMap fun rows => rows.map Prod.fst).flatMap conv).map num =
      ((L.map fun rows => rows.map Prod.snd).flatMap List.flatten).map some := by
  induction L with
  | nil => rfl
  | cons rows L ih =>
    rw [List.flatMap_cons, List.flatMap_append, List.map_append, List.map_cons, List.flatMap_cons, List.map_append,
      ih fun x hx => h x (by simp [hx])]
    congr 1
    have hr := h rows (by simp)
    clear ih h
    induction rows with
    | nil => rfl
    | cons r rows ih =>
      simp only [List.map_cons, List.flatMap_cons, List.map_append, List.flatten_cons]
      rw [hr r (by simp), ih fun x hx => hr x (by simp [hx])]

/-- The text before the blocks does not matter. -/
theorem filter_pre (p : Text → Bool) (pre : List Text) (rest : List Text) (h : ∀ l ∈ pre, p l = false) :
    (pre ++ rest).filter p = rest.filter p := by
  rw [List.filter_append]
  have : pre.filter p = [] := by
    rw [List.filter_eq_nil_iff]
    intro l hl
    simp [h l hl]
  simp [this]

theorem traj_blocks (hn : 0 < n) (pre : List Text) (blocks : List (Block K)) (hp : ∀ l ∈ pre, isInfix key l = false)
    (h : ∀ b ∈ blocks, RowBlocks num key n conv sel b) :
    trajFromTxt num ((grepAfter n key (pre ++ blocks.flatMap Block.lines)).flatMap conv)
      ((pre ++ blocks.flatMap Block.lines).filter (isInfix key)).length n 3 =
    .ok (if blocks.filterMap sel = [] then none else some ((blocks.filterMap sel).map fun rows => rows.map Prod.snd)) := by
  have hsel : ∀ rows ∈ blocks.filterMap sel, rows.length = n ∧ ∀ r ∈ rows, (conv r.1).map num = r.2.map some ∧ r.2.length = 3 := by
    intro rows hr
    obtain ⟨b, hb, hs⟩ := List.mem_filterMap.1 hr
    obtain ⟨hd, _, _, h2, h3⟩ := (h b hb).some rows hs
    exact ⟨h2, fun r hr => (h3 r hr).2.2⟩
  rw [filter_pre _ _ _ hp, count_rows blocks h, grepAfter_eq, pick_other _ _ _ _ _ hp]
  have := pick_blocks blocks [] h
  rw [List.append_nil] at this
  rw [this]
  simp only [pick, List.append_nil]
  have := trajFromTxt_eq num (((blocks.filterMap sel).flatMap fun rows => rows.map Prod.fst).flatMap conv)
    ((blocks.filterMap sel).map fun rows => rows.map Prod.snd) n 3 hn (by omega) (by
      intro a ha
      obtain ⟨rows, hr, rfl⟩ := List.mem_map.1 ha
      refine ⟨by simpa using (hsel rows hr).1, fun r hr' => ?_⟩
      obtain ⟨x, hx, rfl⟩ := List.mem_map.1 hr'
      exact ((hsel rows hr).2 x hx).2)
    (words_blocks _ fun rows hr r hx => ((hsel rows hr).2 r hx).1)
  rw [List.length_map] at this
  rw [this]
  simp

end generic

/-- The rows of the three kinds of blocks. -/
def posRows : Block K → Option (List (Text × List K))
  | .positions _ rows => some rows
  | _ => none
def cellRows : Block K → Option (List (Text × List K))
  | .cell _ rows => some rows
  | _ => none
def stressRows : Block K → Option (List (Text × List K))
  | .stress _ rows => some rows
  | _ => none

theorem posRows_map (bs : List (Block K)) : (bs.filterMap posRows).map (fun rows => rows.map Prod.snd) = bs.filterMap Block.pos? := by
  induction bs with
  | nil => rfl
  | cons b bs ih => cases b <;> simp [posRows, Block.pos?, List.filterMap_cons, ih]
theorem cellRows_map (bs : List (Block K)) : (bs.filterMap cellRows).map (fun rows => rows.map Prod.snd) = bs.filterMap Block.cell? := by
  induction bs with
  | nil => rfl
  | cons b bs ih => cases b <;> simp [cellRows, Block.cell?, List.filterMap_cons, ih]
theorem stressRows_map (bs : List (Block K)) :
    (bs.filterMap stressRows).map (fun rows => rows.map Prod.snd) = bs.filterMap Block.stress? := by
  induction bs with
  | nil => rfl
  | cons b bs ih => cases b <;> simp [stressRows, Block.stress?, List.filterMap_cons, ih]

/-- Every line of a block, for a kind of line that does not occur in it. -/
theorem lines_test (num : Text → Option K) (na : Nat) (b : Block K) (hb : b.Wf num na) (k : Key)
    (hk : match b with
      | .other _ => True
      | .energy _ _ => k ≠ .energy
      | .positions _ _ => k ≠ .pos
      | .cell _ _ => k ≠ .cell
      | .stress _ _ => k ≠ .stress
      | .forces _ _ => k ≠ .forceHead ∧ k ≠ .force) : ∀ l ∈ b.lines, test k l = false := by
  intro l hl
  cases b with
  | other x =>
    simp only [Block.lines, List.mem_singleton] at hl
    subst hl
    exact test_quiet hb k
  | energy x e =>
    simp only [Block.lines, List.mem_singleton] at hl
    subst hl
    simp [test_only hb.1 k, hk]
  | positions h rows =>
    simp only [Block.lines, List.mem_cons, List.mem_map] at hl
    rcases hl with rfl | ⟨r, hr, rfl⟩
    · simp [test_only hb.1 k, hk]
    · exact test_quiet (hb.2.2 r hr).1 k
  | cell h rows =>
    simp only [Block.lines, List.mem_cons, List.mem_map] at hl
    rcases hl with rfl | ⟨r, hr, rfl⟩
    · simp [test_only hb.1 k, hk]
    · exact test_quiet (hb.2.2 r hr).1 k
  | stress h rows =>
    simp only [Block.lines, List.mem_cons, List.mem_map] at hl
    rcases hl with rfl | ⟨r, hr, rfl⟩
    · simp [test_only hb.1 k, hk]
    · exact test_quiet (hb.2.2 r hr).1 k
  | forces h body =>
    simp only [Block.lines, List.mem_cons, List.mem_map] at hl
    rcases hl with rfl | ⟨r, hr, rfl⟩
    · simp [test_only hb.1 k, hk.1]
    · have := hb.2 r hr
      rcases r with ⟨t, _ | v⟩
      · exact test_quiet this k
      · simp [test_only this.1 k, hk.2]

theorem row_length (num : Text → Option K) (cols : List Nat) (l : Text) (v : List K) (h : Row num cols l v) : v.length = cols.length := by
  simpa using (congrArg List.length h).symm

theorem pos_rowBlocks (num : Text → Option K) (na : Nat) (b : Block K) (hb : b.Wf num na) :
    RowBlocks num kPos na (awk [2, 3, 4]) posRows b := by
  constructor
  · intro h
    refine lines_test num na b hb .pos ?_
    cases b <;> simp_all [posRows]
  · intro rows h
    cases b <;> simp only [posRows, Option.some.injEq, reduceCtorEq] at h
    subst h
    refine ⟨_, rfl, (matches_pos _).2 ((hb.1 .pos).2 rfl), hb.2.1, fun r hr => ?_⟩
    obtain ⟨h1, h2, h3⟩ := hb.2.2 r hr
    exact ⟨test_quiet h1 .pos, (noDash_iff _).2 h2, awk_row num _ _ _ h3, by simpa using row_length num _ _ _ h3⟩

theorem stress_rowBlocks (num : Text → Option K) (na : Nat) (b : Block K) (hb : b.Wf num na) :
    RowBlocks num kStress 3 (awk [4, 5, 6]) stressRows b := by
  constructor
  · intro h
    refine lines_test num na b hb .stress ?_
    cases b <;> simp_all [stressRows]
  · intro rows h
    cases b <;> simp only [stressRows, Option.some.injEq, reduceCtorEq] at h
    subst h
    refine ⟨_, rfl, (matches_stress _).2 ((hb.1 .stress).2 rfl), hb.2.1, fun r hr => ?_⟩
    obtain ⟨h1, h2, h3⟩ := hb.2.2 r hr
    exact ⟨test_quiet h1 .stress, (noDash_iff _).2 h2, awk_row num _ _ _ h3, by simpa using row_length num _ _ _ h3⟩

theorem cell_rowBlocks (num : Text → Option K) (na : Nat) (b : Block K) (hb : b.Wf num na) :
    RowBlocks num kCell 3 splitWs cellRows b := by
  constructor
  · intro h
    refine lines_test num na b hb .cell ?_
    cases b <;> simp_all [cellRows]
  · intro rows h
    cases b <;> simp only [cellRows, Option.some.injEq, reduceCtorEq] at h
    subst h
    refine ⟨_, rfl, (matches_cell _).2 ((hb.1 .cell).2 rfl), hb.2.1, fun r hr => ?_⟩
    obtain ⟨h1, h2, h3, h4⟩ := hb.2.2 r hr
    exact ⟨test_quiet h1 .cell, (noDash_iff _).2 h2, h4, h3⟩

/-! ## the raw arrays -/

section file
variable {num : Text → Option K} {na : Nat} {blocks : List (Block K)} {file : List Text}

theorem file_eq (h : IsPwOut num na blocks file) : file = (h.pre ++ [h.natLine]) ++ blocks.flatMap Block.lines := by
  have := h.eq
  simp only [List.append_assoc, List.singleton_append]
  exact this

theorem file_quiet (h : IsPwOut num na blocks file) (k : Key) : ∀ l ∈ h.pre ++ [h.natLine], test k l = false := by
  intro l hl
  simp only [List.mem_append, List.mem_singleton] at hl
  rcases hl with hl | rfl
  · exact test_quiet (h.quiet l hl) k
  · exact test_quiet h.quietNat k

theorem natoms_file (h : IsPwOut num na blocks file) : natoms file = .ok (some na) := by
  rw [h.eq]
  exact natoms_eq (num := num) h.noNat h.isNat

/-- **C87**. `natoms` and the coordinates: one array per position block, in file order. -/
theorem C87_coords (h : IsPwOut num na blocks file) (hna : 0 < na) :
    natoms file = .ok (some na) ∧
    coordsRaw num file = .ok (if blocks.filterMap Block.pos? = [] then none else some (blocks.filterMap Block.pos?)) := by
  refine ⟨natoms_file h, ?_⟩
  unfold coordsRaw
  rw [natoms_file h]
  simp only
  rw [file_eq h, traj_blocks hna _ _ (file_quiet h .pos) fun b hb => pos_rowBlocks num na b (h.wf b hb), ← posRows_map]
  simp

/-- **C87**. The cells in the file. -/
theorem C87_cell (h : IsPwOut num na blocks file) :
    cell3d num file = .ok (if blocks.filterMap Block.cell? = [] then none else some (blocks.filterMap Block.cell?)) := by
  unfold cell3d
  rw [file_eq h, traj_blocks (by omega) _ _ (file_quiet h .cell) fun b hb => cell_rowBlocks num na b (h.wf b hb), ← cellRows_map]
  simp

/-- **C87**. The stress tensors in the file. -/
theorem C87_stress (h : IsPwOut num na blocks file) :
    stressRaw num file = .ok (if blocks.filterMap Block.stress? = [] then none else some (blocks.filterMap Block.stress?)) := by
  unfold stressRaw
  have hc : (file.filter (isInfix kStress)).length = (blocks.filterMap Block.stress?).length := by
    rw [file_eq h, filter_pre (isInfix kStress) _ _ (file_quiet h .stress), count_rows blocks fun b hb => stress_rowBlocks num na b (h.wf b hb),
      ← stressRows_map, List.length_map]
  have ht := traj_blocks (by omega) _ _ (file_quiet h .stress) fun b hb => stress_rowBlocks num na b (h.wf b hb)
  rw [← file_eq h] at ht
  simp only
  rw [ht, ← stressRows_map, hc, ← stressRows_map]
  by_cases h0 : blocks.filterMap stressRows = []
  · simp [h0]
  · rw [if_pos (by rw [List.length_map]; exact List.length_pos_of_ne_nil h0)]
    simp

theorem forall2_append {A B : Type} {R : A → B → Prop} {a a' : List A} {b b' : List B} (h : List.Forall₂ R a b) (h' : List.Forall₂ R a' b') :
    List.Forall₂ R (a ++ a') (b ++ b') := by
  induction h with
  | nil => exact h'
  | cons h _ ih => exact List.Forall₂.cons h ih

/-- Lines of one kind, anywhere in the file. -/
theorem forall2_lines (p : Text → Bool) (conv : Text → List Text) (vals : Block K → List (List K)) (bs : List (Block K))
    (h : ∀ b ∈ bs, List.Forall₂ (fun r v => r.map num = v.map some) ((b.lines.filter p).map conv) (vals b)) :
    List.Forall₂ (fun r v => r.map num = v.map some) (((bs.flatMap Block.lines).filter p).map conv) (bs.flatMap vals) := by
  induction bs with
  | nil => exact List.Forall₂.nil
  | cons b bs ih =>
    rw [List.flatMap_cons, List.filter_append, List.map_append, List.flatMap_cons]
    exact forall2_append (h b (by simp)) (ih fun x hx => h x (by simp [hx]))

theorem filter_none (p : Text → Bool) (ls : List Text) (h : ∀ l ∈ ls, p l = false) : ls.filter p = [] := by
  rw [List.filter_eq_nil_iff]
  intro l hl
  simp [h l hl]

theorem forall2_energy (hw : ∀ b ∈ blocks, b.Wf num na) :
    List.Forall₂ (fun r v => r.map num = v.map some) (((blocks.flatMap Block.lines).filter isEnergy).map (awk [5]))
      ((blocks.filterMap Block.energy?).map fun e => [e]) := by
  have hv : (blocks.filterMap Block.energy?).map (fun e => [e]) = blocks.flatMap fun b => b.energy?.toList.map fun e => [e] := by
    clear hw
    induction blocks with
    | nil => rfl
    | cons b bs ih => cases h : b.energy? <;> simp [h, ih]
  rw [hv]
  apply forall2_lines
  intro b hb
  have hwb := hw b hb
  cases b with
  | energy l e =>
    have h1 : isEnergy l = true := (matches_energy l).2 ((hwb.1 .energy).2 rfl)
    simp only [Block.lines, List.filter_cons, h1, if_true, List.filter_nil, List.map_cons, List.map_nil, Block.energy?,
      Option.toList_some]
    exact List.Forall₂.cons (awk_row num _ _ _ hwb.2) List.Forall₂.nil
  | other l => rw [filter_none isEnergy _ (lines_test num na _ hwb .energy trivial)]; exact List.Forall₂.nil
  | positions h rows => rw [filter_none isEnergy _ (lines_test num na _ hwb .energy (by simp))]; exact List.Forall₂.nil
  | cell h rows => rw [filter_none isEnergy _ (lines_test num na _ hwb .energy (by simp))]; exact List.Forall₂.nil
  | stress h rows => rw [filter_none isEnergy _ (lines_test num na _ hwb .energy (by simp))]; exact List.Forall₂.nil
  | forces h rows => rw [filter_none isEnergy _ (lines_test num na _ hwb .energy (by simp))]; exact List.Forall₂.nil

theorem forall2_force (hw : ∀ b ∈ blocks, b.Wf num na) :
    List.Forall₂ (fun r v => r.map num = v.map some) (((blocks.flatMap Block.lines).filter isForce).map (awk [7, 8, 9]))
      (blocks.filterMap Block.forces?).flatten := by
  have hv : (blocks.filterMap Block.forces?).flatten = blocks.flatMap fun b => b.forces?.getD [] := by
    clear hw
    induction blocks with
    | nil => rfl
    | cons b bs ih => cases h : b.forces? <;> simp [h, ih]
  rw [hv]
  apply forall2_lines
  intro b hb
  have hwb := hw b hb
  cases b with
  | forces h body =>
    have h1 : isForce h = false := by
      have := test_only hwb.1 .force
      simpa [test] using this
    simp only [Block.lines, List.filter_cons, h1, Bool.false_eq_true, if_false, Block.forces?, Option.getD_some]
    clear hb
    have hb := hwb.2
    clear hwb hv hw
    induction body with
    | nil => exact List.Forall₂.nil
    | cons r body ih =>
      have ih := ih fun x hx => hb x (by simp [hx])
      have hr := hb r (by simp)
      rcases r with ⟨t, _ | v⟩
      · have : isForce t = false := test_quiet hr .force
        simpa [List.filterMap_cons, this] using ih
      · have : isForce t = true := (matches_force t).2 ((hr.1 .force).2 rfl)
        simp only [List.map_cons, List.filter_cons, this, if_true, List.filterMap_cons]
        exact List.Forall₂.cons (awk_row num _ _ _ hr.2) ih
  | other l => rw [filter_none isForce _ (lines_test num na _ hwb .force trivial)]; exact List.Forall₂.nil
  | positions h rows => rw [filter_none isForce _ (lines_test num na _ hwb .force (by simp))]; exact List.Forall₂.nil
  | cell h rows => rw [filter_none isForce _ (lines_test num na _ hwb .force (by simp))]; exact List.Forall₂.nil
  | stress h rows => rw [filter_none isForce _ (lines_test num na _ hwb .force (by simp))]; exact List.Forall₂.nil
  | energy l e => rw [filter_none isForce _ (lines_test num na _ hwb .force (by simp))]; exact List.Forall₂.nil

theorem count_forces (hw : ∀ b ∈ blocks, b.Wf num na) :
    ((blocks.flatMap Block.lines).filter isForceHead).length = (blocks.filterMap Block.forces?).length := by
  induction blocks with
  | nil => rfl
  | cons b bs ih =>
    rw [List.flatMap_cons, List.filter_append, List.length_append, ih fun x hx => hw x (by simp [hx])]
    have hwb := hw b (by simp)
    cases b with
    | forces h body =>
      have h1 : isForceHead h = true := (matches_forceHead h).2 ((hwb.1 .forceHead).2 rfl)
      have h2 : (body.map Prod.fst).filter isForceHead = [] := by
        apply filter_none
        intro l hl
        obtain ⟨r, hr, rfl⟩ := List.mem_map.1 hl
        have := hwb.2 r hr
        rcases r with ⟨t, _ | v⟩
        · exact test_quiet this .forceHead
        · have := test_only this.1 .forceHead
          simpa [test] using this
      simp [Block.lines, List.filter_cons, h1, h2, Block.forces?]
      omega
    | other l => rw [filter_none isForceHead _ (lines_test num na _ hwb .forceHead trivial), List.filterMap_cons_none rfl]; simp
    | positions h rows => rw [filter_none isForceHead _ (lines_test num na _ hwb .forceHead (by simp)), List.filterMap_cons_none rfl]; simp
    | cell h rows => rw [filter_none isForceHead _ (lines_test num na _ hwb .forceHead (by simp)), List.filterMap_cons_none rfl]; simp
    | stress h rows => rw [filter_none isForceHead _ (lines_test num na _ hwb .forceHead (by simp)), List.filterMap_cons_none rfl]; simp
    | energy l e => rw [filter_none isForceHead _ (lines_test num na _ hwb .forceHead (by simp)), List.filterMap_cons_none rfl]; simp

theorem forall2_flatten_nil (rows : List (List Text)) (vals : List (List K))
    (h : List.Forall₂ (fun r v => r.map num = v.map some) rows vals) : rows.flatten = [] ↔ vals.flatten = [] := by
  induction h with
  | nil => simp
  | cons h _ ih =>
    rename_i r v _ _ _
    have : r = [] ↔ v = [] := by
      have := congrArg List.length h
      simp only [List.length_map] at this
      rw [← List.length_eq_zero_iff, this, List.length_eq_zero_iff]
    simp only [List.flatten_cons, List.append_eq_nil_iff, ih, this]

/-- **C87**. The energies in the file. -/
theorem C87_energies (h : IsPwOut num na blocks file) :
    etotRaw num file = .ok (if blocks.filterMap Block.energy? = [] then none else some (blocks.filterMap Block.energy?)) := by
  unfold etotRaw arr1d
  have hf := forall2_energy (num := num) (na := na) h.wf
  rw [file_eq h, filter_pre isEnergy _ _ (file_quiet h .energy)]
  have hv : ((blocks.filterMap Block.energy?).map fun e => [e]).flatten = blocks.filterMap Block.energy? := by
    induction blocks.filterMap Block.energy? with
    | nil => rfl
    | cons x xs ih => simp [ih]
  have hn := forall2_flatten_nil _ _ hf
  rw [hv] at hn
  by_cases h0 : blocks.filterMap Block.energy? = []
  · rw [if_pos (hn.2 h0), if_pos h0]
  · rw [if_neg (fun hc => h0 (hn.1 hc)), if_neg h0, loadRows_eq num _ _ 1 (by omega) hf]
    · simp only [hv]
    · intro v hv'
      obtain ⟨e, _, rfl⟩ := List.mem_map.1 hv'
      rfl

/-- The lengths of force rows. -/
theorem force_rows_length (hw : ∀ b ∈ blocks, b.Wf num na) : ∀ f ∈ blocks.filterMap Block.forces?, ∀ r ∈ f, r.length = 3 := by
  intro f hf r hr
  obtain ⟨b, hb, hs⟩ := List.mem_filterMap.1 hf
  have hwb := hw b hb
  cases b <;> simp only [Block.forces?, Option.some.injEq, reduceCtorEq] at hs
  subst hs
  obtain ⟨x, hx, hs⟩ := List.mem_filterMap.1 hr
  have := hwb.2 x hx
  obtain ⟨t, v⟩ := x
  simp only at hs
  subst hs
  simpa using row_length num _ _ _ this.2

/-- **C87**. The forces in the file: one block of `m` force lines per header, where `m` is a multiple of the number of atoms (pw.x may print
further contributions after the total forces). -/
theorem C87_forces (h : IsPwOut num na blocks file) (m : Nat) (hna : 0 < na) (hm : 0 < m)
    (hf : ∀ f ∈ blocks.filterMap Block.forces?, f.length = m * na) :
    forcesRaw num file = .ok (if blocks.filterMap Block.forces? = [] then none else some (blocks.filterMap Block.forces?)) := by
  unfold forcesRaw arr2d
  have hf2 := forall2_force (num := num) (na := na) h.wf
  have hc : (file.filter isForceHead).length = (blocks.filterMap Block.forces?).length := by
    rw [file_eq h, filter_pre isForceHead _ _ (file_quiet h .forceHead), count_forces (num := num) (na := na) h.wf]
  have hl := force_rows_length (num := num) (na := na) h.wf
  rw [natoms_file h]
  simp only [hc]
  rw [show file.filter isForce = (blocks.flatMap Block.lines).filter isForce by
    conv_lhs => rw [file_eq h]
    exact filter_pre isForce _ _ (file_quiet h .force)]
  generalize blocks.filterMap Block.forces? = F at *
  by_cases h0 : F = []
  · simp [h0]
  · have hpos : 0 < F.length := List.length_pos_of_ne_nil h0
    have hmn : 0 < m * na := Nat.mul_pos hm hna
    rw [if_pos hpos, if_neg h0]
    have hlen : F.flatten.length = F.length * (m * na) := by
      rw [List.length_flatten, List.map_congr_left (g := fun _ => m * na) (fun a ha => hf a ha)]
      simp
    have hall : ∀ v ∈ F.flatten, v.length = 3 := by
      intro v hv
      obtain ⟨f, hf', hv'⟩ := List.mem_flatten.1 hv
      exact hl f hf' v hv'
    have hne : F.flatten ≠ [] := by
      intro hc
      rw [hc] at hlen
      have := Nat.mul_pos hpos hmn
      rw [← hlen] at this
      simp at this
    obtain ⟨x, xs, hx⟩ := List.exists_cons_of_ne_nil hne
    have hx3 : x.length = 3 := hall x (by rw [hx]; simp)
    have hnf : ¬ (((blocks.flatMap Block.lines).filter isForce).map (awk [7, 8, 9])).flatten = [] := by
      rw [forall2_flatten_nil _ _ hf2, hx]
      intro hc
      simp at hc
      rw [hc.1] at hx3
      simp at hx3
    rw [if_neg hnf, loadRows_eq num _ _ 3 (by omega) hf2 hall]
    have hh : (F.flatten.headD []).length = 3 := by rw [hx]; exact hx3
    simp only [hh]
    have hdiv : F.flatten.length / F.length = m * na := by
      rw [hlen, Nat.mul_div_cancel_left _ hpos]
    simp only [show ¬ ((3 : Nat) = 1) by omega, if_false, hdiv]
    rw [if_neg (by omega), if_neg (by simp), if_pos ⟨by rw [hlen]; ring, hh⟩]
    have := chunks_flatten (m * na) F hf
    unfold chunks at this
    rw [this]

/-! ## alignment with the coordinates -/

theorem matchNstep_eq {A : Type} (c : List (List (List K))) (a : List A) (hc : c ≠ []) :
    matchNstep (.ok (some c)) (some a) = .ok (some (a.drop (a.length - c.length))) := by
  unfold matchNstep
  have : c.length ≠ 0 := fun h => hc (List.length_eq_zero_iff.1 h)
  simp only [this, if_false]
  split
  · rfl
  · next h => rw [Nat.sub_eq_zero_of_le (by omega)]; rfl

/-- **C87**. What the getters return for every file: as many of the last energies, forces and stresses as there are position blocks. -/
theorem C87_getters (h : IsPwOut num na blocks file) (m : Nat) (hna : 0 < na) (hm : 0 < m)
    (hf : ∀ f ∈ blocks.filterMap Block.forces?, f.length = m * na) (hp : blocks.filterMap Block.pos? ≠ [])
    (he : blocks.filterMap Block.energy? ≠ []) (hfn : blocks.filterMap Block.forces? ≠ []) (hs : blocks.filterMap Block.stress? ≠ []) :
    (∀ x, coordsRaw num file = .ok x ↔ x = some (blocks.filterMap Block.pos?)) ∧
    getEtot num file = .ok (some ((blocks.filterMap Block.energy?).drop
      ((blocks.filterMap Block.energy?).length - (blocks.filterMap Block.pos?).length))) ∧
    getStress num file = .ok (some ((blocks.filterMap Block.stress?).drop
      ((blocks.filterMap Block.stress?).length - (blocks.filterMap Block.pos?).length))) ∧
    getForces num file = .ok (some (((blocks.filterMap Block.forces?).drop
      ((blocks.filterMap Block.forces?).length - (blocks.filterMap Block.pos?).length)).map fun f => f.take na)) := by
  have h1 := (C87_coords h hna).2
  rw [if_neg hp] at h1
  have h2 := C87_energies h
  rw [if_neg he] at h2
  have h3 := C87_stress h
  rw [if_neg hs] at h3
  have h4 := C87_forces h m hna hm hf
  rw [if_neg hfn] at h4
  refine ⟨fun x => by rw [h1]; simp [eq_comm], ?_, ?_, ?_⟩
  · unfold getEtot
    rw [h2, h1]
    exact matchNstep_eq _ _ hp
  · unfold getStress
    rw [h3, h1]
    exact matchNstep_eq _ _ hp
  · unfold getForces
    rw [natoms_file h, h4, h1]
    simp only [matchNstep_eq _ _ hp]

/-- The values of complete structures. -/
theorem step_lists (first : List (Block K)) (e0 : K) (f0 s0 : List (List K)) (h0 : IsPwStep none e0 f0 s0 first)
    (steps : List (List (Block K) × List (List K) × K × List (List K) × List (List K)))
    (hs : ∀ x ∈ steps, IsPwStep (some x.2.1) x.2.2.1 x.2.2.2.1 x.2.2.2.2 x.1) :
    (first ++ steps.flatMap Prod.fst).filterMap Block.pos? = (steps.map fun x => x.2.1) ∧
    (first ++ steps.flatMap Prod.fst).filterMap Block.energy? = (e0 :: steps.map fun x => x.2.2.1) ∧
    (first ++ steps.flatMap Prod.fst).filterMap Block.forces? = (f0 :: steps.map fun x => x.2.2.2.1) ∧
    (first ++ steps.flatMap Prod.fst).filterMap Block.stress? = (s0 :: steps.map fun x => x.2.2.2.2) := by
  simp only [List.filterMap_append, h0.1, h0.2.1, h0.2.2.1, h0.2.2.2, Option.toList_none, List.nil_append, List.singleton_append,
    List.cons.injEq, true_and]
  induction steps with
  | nil => exact ⟨rfl, rfl, rfl, rfl⟩
  | cons x xs ih =>
    obtain ⟨i1, i2, i3, i4⟩ := ih fun y hy => hs y (by simp [hy])
    obtain ⟨j1, j2, j3, j4⟩ := hs x (by simp)
    simp only [List.flatMap_cons, List.filterMap_append, List.map_cons, i1, i2, i3, i4, j1, j2, j3, j4]
    simp

/-- **C87**. Alignment: in the output of a run whose every structure is complete, the energies, forces and stresses returned are those of the
structures returned; those of the first structure, for which there is no position block, are left out. -/
theorem C87_aligned_partial (m : Nat) (hna : 0 < na) (hm : 0 < m) (first : List (Block K)) (e0 : K) (f0 s0 : List (List K))
    (h0 : IsPwStep none e0 f0 s0 first)
    (steps : List (List (Block K) × List (List K) × K × List (List K) × List (List K)))
    (hs : ∀ x ∈ steps, IsPwStep (some x.2.1) x.2.2.1 x.2.2.2.1 x.2.2.2.2 x.1) (hne : steps ≠ [])
    (h : IsPwOut num na (first ++ steps.flatMap Prod.fst) file) (hf0 : f0.length = m * na) (hf : ∀ x ∈ steps, x.2.2.2.1.length = m * na) :
    coordsRaw num file = .ok (some (steps.map fun x => x.2.1)) ∧
    getEtot num file = .ok (some (steps.map fun x => x.2.2.1)) ∧
    getForces num file = .ok (some (steps.map fun x => x.2.2.2.1.take na)) ∧
    getStress num file = .ok (some (steps.map fun x => x.2.2.2.2)) := by
  obtain ⟨hp, he, hF, hS⟩ := step_lists first e0 f0 s0 h0 steps hs
  have := C87_getters h m hna hm (by
    rw [hF]
    intro f hf'
    rcases List.mem_cons.1 hf' with rfl | hf'
    · exact hf0
    · obtain ⟨x, hx, rfl⟩ := List.mem_map.1 hf'
      exact hf x hx) (by rw [hp]; simpa using hne) (by rw [he]; simp) (by rw [hF]; simp) (by rw [hS]; simp)
  rw [hp, he, hF, hS] at this
  obtain ⟨h1, h2, h3, h4⟩ := this
  refine ⟨(h1 _).2 rfl, ?_, ?_, ?_⟩
  · rw [h2]; simp
  · rw [h4]; simp [Function.comp_def]
  · rw [h3]; simp

/-- **C87**, disagreement. If the run was stopped after the last position block and before its energy, or if the program printed the final
positions once more, then no value is dropped: every energy, force and stress returned is that of the structure *before*. -/
theorem C87_killed_counterexample (m : Nat) (hna : 0 < na) (hm : 0 < m) (first : List (Block K)) (e0 : K) (f0 s0 : List (List K))
    (h0 : IsPwStep none e0 f0 s0 first)
    (steps : List (List (Block K) × List (List K) × K × List (List K) × List (List K)))
    (hs : ∀ x ∈ steps, IsPwStep (some x.2.1) x.2.2.1 x.2.2.2.1 x.2.2.2.2 x.1)
    (last : List (Block K)) (p : List (List K)) (hl : last.filterMap Block.pos? = [p] ∧ last.filterMap Block.energy? = [] ∧
      last.filterMap Block.forces? = [] ∧ last.filterMap Block.stress? = [])
    (h : IsPwOut num na (first ++ steps.flatMap Prod.fst ++ last) file) (hf0 : f0.length = m * na)
    (hf : ∀ x ∈ steps, x.2.2.2.1.length = m * na) :
    coordsRaw num file = .ok (some ((steps.map fun x => x.2.1) ++ [p])) ∧
    getEtot num file = .ok (some (e0 :: steps.map fun x => x.2.2.1)) ∧
    getForces num file = .ok (some (f0.take na :: steps.map fun x => x.2.2.2.1.take na)) ∧
    getStress num file = .ok (some (s0 :: steps.map fun x => x.2.2.2.2)) := by
  obtain ⟨hp, he, hF, hS⟩ := step_lists first e0 f0 s0 h0 steps hs
  have hp' : (first ++ steps.flatMap Prod.fst ++ last).filterMap Block.pos? = (steps.map fun x => x.2.1) ++ [p] := by
    rw [List.filterMap_append, hp, hl.1]
  have he' : (first ++ steps.flatMap Prod.fst ++ last).filterMap Block.energy? = e0 :: steps.map fun x => x.2.2.1 := by
    rw [List.filterMap_append, he, hl.2.1, List.append_nil]
  have hF' : (first ++ steps.flatMap Prod.fst ++ last).filterMap Block.forces? = f0 :: steps.map fun x => x.2.2.2.1 := by
    rw [List.filterMap_append, hF, hl.2.2.1, List.append_nil]
  have hS' : (first ++ steps.flatMap Prod.fst ++ last).filterMap Block.stress? = s0 :: steps.map fun x => x.2.2.2.2 := by
    rw [List.filterMap_append, hS, hl.2.2.2, List.append_nil]
  have := C87_getters h m hna hm (by
    rw [hF']
    intro f hf'
    rcases List.mem_cons.1 hf' with rfl | hf'
    · exact hf0
    · obtain ⟨x, hx, rfl⟩ := List.mem_map.1 hf'
      exact hf x hx) (by rw [hp']; simp) (by rw [he']; simp) (by rw [hF']; simp) (by rw [hS']; simp)
  rw [hp', he', hF', hS'] at this
  obtain ⟨h1, h2, h3, h4⟩ := this
  refine ⟨(h1 _).2 rfl, ?_, ?_, ?_⟩
  · rw [h2]; simp
  · rw [h4]; simp [Function.comp_def]
  · rw [h3]; simp

/-- **C87**, disagreement. The forces getter raises a `TypeError` on the output of a run that printed no forces. -/
theorem C87_no_forces_counterexample (h : IsPwOut num na blocks file) (hf : blocks.filterMap Block.forces? = []) :
    getForces num file = .error .type := by
  have hc : (file.filter isForceHead).length = 0 := by
    rw [file_eq h, filter_pre isForceHead _ _ (file_quiet h .forceHead), count_forces (num := num) (na := na) h.wf, hf]
    rfl
  unfold getForces forcesRaw
  simp [natoms_file h, hc, matchNstep]

theorem awk_length (cols : List Nat) (l : Text) : (awk cols l).length ≤ cols.length := by
  unfold awk
  exact (List.length_filter_le _ _).trans (by simp)

theorem awk_short (l : Text) (h : (splitWs l).length < 4) : (awk [2, 3, 4] l).length < 3 := by
  have : (splitWs l).getD 3 [] = [] := by
    simp [List.getD, List.getElem?_eq_none (show (splitWs l).length ≤ 3 by omega)]
  unfold awk
  simp only [List.map_cons, List.map_nil, Nat.reduceSub, this, List.filter_cons, List.filter_nil]
  split <;> split <;> simp

theorem awk_some (l : Text) (h : 2 ≤ (splitWs l).length) : awk [2, 3, 4] l ≠ [] := by
  have : (splitWs l).getD 1 [] ≠ [] := by
    simp only [List.getD, List.getElem?_eq_getElem (show 1 < (splitWs l).length by omega), Option.getD_some]
    exact splitWs_ne_nil l _ (List.getElem_mem _)
  unfold awk
  simp only [List.map_cons, List.map_nil, Nat.reduceSub, List.filter_cons]
  rw [if_pos (by simpa using this)]
  simp

theorem flatMap_length_const {A : Type} (f : A → List Text) (k : Nat) (rows : List A) (h : ∀ r ∈ rows, (f r).length = k) :
    (rows.flatMap f).length = rows.length * k := by
  induction rows with
  | nil => simp
  | cons r rows ih =>
    rw [List.flatMap_cons, List.length_append, h r (by simp), ih fun x hx => h x (by simp [hx]), List.length_cons]
    ring

/-- **C87**. A file cut inside a position block (rows missing, or the last row incomplete) is refused by all getters that need the coordinates. -/
theorem C87_truncated (pre : List Text) (nl : Text) (hq : ∀ l ∈ pre, Quiet l ∧ ¬ NatomsLike l) (hqn : Quiet nl) (hn : NatomsLine nl na)
    (hw : ∀ b ∈ blocks, b.Wf num na) (hd : Text) (hh : Only .pos hd) (rs : List Text) (hr : ∀ l ∈ rs, Quiet l ∧ NoDash l)
    (hlen : rs.length ≤ na) (hcut : rs.length < na ∨ ∃ l ∈ rs, (splitWs l).length < 4)
    (hsome : (∃ l ∈ rs, 2 ≤ (splitWs l).length) ∨ ∃ p, p ∈ blocks.filterMap Block.pos?) :
    coordsRaw num (pre ++ nl :: (blocks.flatMap Block.lines ++ hd :: rs)) = .error .value ∧
    (∀ e, etotRaw num (pre ++ nl :: (blocks.flatMap Block.lines ++ hd :: rs)) = .ok (some e) →
      getEtot num (pre ++ nl :: (blocks.flatMap Block.lines ++ hd :: rs)) = .error .value) := by
  have hna : 0 < na := by
    rcases hcut with h | ⟨l, hl, _⟩
    · omega
    · exact lt_of_lt_of_le (List.length_pos_of_mem hl) hlen
  have key : coordsRaw num (pre ++ nl :: (blocks.flatMap Block.lines ++ hd :: rs)) = .error .value := by
    unfold coordsRaw
    rw [natoms_eq (num := num) (fun l hl => (hq l hl).2) hn]
    simp only
    have hfile : pre ++ nl :: (blocks.flatMap Block.lines ++ hd :: rs) = (pre ++ [nl]) ++ (blocks.flatMap Block.lines ++ hd :: rs) := by simp
    have hquiet : ∀ l ∈ pre ++ [nl], isInfix kPos l = false := by
      intro l hl
      simp only [List.mem_append, List.mem_singleton] at hl
      rcases hl with hl | rfl
      · exact test_quiet (hq l hl).1 .pos
      · exact test_quiet hqn .pos
    have hb : ∀ b ∈ blocks, RowBlocks num kPos na (awk [2, 3, 4]) posRows b := fun b hb => pos_rowBlocks num na b (hw b hb)
    have hhd : isInfix kPos hd = true := (matches_pos hd).2 ((hh .pos).2 rfl)
    have hcount : ((pre ++ nl :: (blocks.flatMap Block.lines ++ hd :: rs)).filter (isInfix kPos)).length =
        (blocks.filterMap posRows).length + 1 := by
      rw [hfile, filter_pre _ _ _ hquiet, List.filter_append, List.length_append, count_rows blocks hb, List.filter_cons, if_pos hhd,
        filter_none (isInfix kPos) rs fun l hl => test_quiet (hr l hl).1 .pos]
      rfl
    have hrows : ∀ l ∈ rs, isInfix kPos l = false ∧ (!isInfix kPos l && !isInfix "--".toList l) = true := by
      intro l hl
      have h1 : isInfix kPos l = false := test_quiet (hr l hl).1 .pos
      rw [h1, (noDash_iff l).2 (hr l hl).2]
      exact ⟨rfl, rfl⟩
    have hpick : grepAfter na kPos (pre ++ nl :: (blocks.flatMap Block.lines ++ hd :: rs)) =
        (blocks.filterMap posRows).flatMap (fun rows => rows.map Prod.fst) ++ rs := by
      rw [hfile, grepAfter_eq, pick_other _ _ _ _ _ hquiet, pick_blocks blocks _ hb]
      congr 1
      simp only [pick, hhd, if_true]
      have := pick_rows na (isInfix kPos) (fun l => !isInfix kPos l && !isInfix "--".toList l) rs [] na hrows hlen
      rw [List.append_nil] at this
      rw [this]
      simp [pick]
    rw [hcount, hpick, List.flatMap_append]
    have hsel : ∀ rows ∈ blocks.filterMap posRows, rows.length = na := by
      intro rows hr
      obtain ⟨b, hb', hs⟩ := List.mem_filterMap.1 hr
      obtain ⟨_, _, _, h2, _⟩ := (hb b hb').some rows hs
      exact h2
    have hrowl : ∀ rows ∈ blocks.filterMap posRows, ∀ r ∈ rows, (awk [2, 3, 4] r.1).length = 3 := by
      intro rows hr r hr'
      obtain ⟨b, hb', hs⟩ := List.mem_filterMap.1 hr
      obtain ⟨_, _, _, _, h3⟩ := (hb b hb').some rows hs
      have := congrArg List.length (h3 r hr').2.2.1
      simp only [List.length_map] at this
      rw [this, (h3 r hr').2.2.2]
    have hlen1 : (((blocks.filterMap posRows).flatMap fun rows => rows.map Prod.fst).flatMap (awk [2, 3, 4])).length =
        (blocks.filterMap posRows).length * na * 3 := by
      generalize blocks.filterMap posRows = L at hsel hrowl
      clear hcount hpick
      induction L with
      | nil => simp
      | cons rows L ih =>
        have ih := ih (fun x hx => hsel x (by simp [hx])) fun x hx => hrowl x (by simp [hx])
        rw [List.flatMap_cons, List.flatMap_append, List.length_append, ih, List.length_cons]
        have h1 := hsel rows (by simp)
        have h2 := hrowl rows (by simp)
        have : ((rows.map Prod.fst).flatMap (awk [2, 3, 4])).length = rows.length * 3 := by
          rw [List.flatMap_map]
          exact flatMap_length_const _ 3 rows h2
        rw [this, h1]
        ring
    have hle : ∀ (t : List Text), (t.flatMap (awk [2, 3, 4])).length ≤ t.length * 3 := by
      intro t
      induction t with
      | nil => simp
      | cons l t ih =>
        have := awk_length [2, 3, 4] l
        simp only [List.flatMap_cons, List.length_append, List.length_cons] at *
        simp at this
        omega
    have hlt : (rs.flatMap (awk [2, 3, 4])).length < na * 3 := by
      rcases hcut with h | ⟨l, hl, h⟩
      · have := hle rs
        omega
      · obtain ⟨a, b, rfl⟩ := List.append_of_mem hl
        have h1 := hle a
        have h2 := hle b
        have h3 := awk_short l h
        simp only [List.flatMap_append, List.flatMap_cons, List.length_append, List.length_cons] at *
        omega
    apply trajFromTxt_short
    · intro hc
      rw [List.append_eq_nil_iff] at hc
      rcases hsome with ⟨l, hl, h2⟩ | ⟨p, hp⟩
      · have := List.flatMap_eq_nil_iff.1 hc.2 l hl
        exact awk_some l h2 this
      · rw [hc.1] at hlen1
        have hne : (blocks.filterMap posRows).length ≠ 0 := by
          rw [← posRows_map] at hp
          obtain ⟨r, hr, _⟩ := List.mem_map.1 hp
          have := List.length_pos_of_mem hr
          omega
        have : 0 < (blocks.filterMap posRows).length * na * 3 :=
          Nat.mul_pos (Nat.mul_pos (Nat.pos_of_ne_zero hne) hna) (by omega)
        rw [← hlen1] at this
        simp at this
    · rw [List.length_append, hlen1, Nat.add_mul, Nat.add_mul]
      omega
  refine ⟨key, fun e he => ?_⟩
  unfold getEtot
  rw [he, key]
  rfl

end file

/-! ## units -/

/-- No brackets. -/
def nob (c : Char) : Bool := c ≠ '(' ∧ c ≠ ')' ∧ c ≠ '{' ∧ c ≠ '}'

theorem filter_nob_blank (w : Text) (h : Blank' w) : w.filter nob = w := by
  rw [List.filter_eq_self]
  intro c hc
  have h1 := h c hc
  unfold nob
  simp only [decide_eq_true_eq]
  refine ⟨?_, ?_, ?_, ?_⟩ <;> rintro rfl <;> revert h1 <;> decide

theorem filter_nob_unit (u : Text) (h : IsUnit u) : u.filter nob = u := by
  rw [List.filter_eq_self]
  intro c hc
  have h1 := h.2 c hc
  unfold nob
  simp only [decide_eq_true_eq]
  exact ⟨h1.2.1, h1.2.2.1, h1.2.2.2.1, h1.2.2.2.2.1⟩

theorem takeWhile_unit (u rest : Text) (h : IsUnit u) (hr : ∀ c, rest.head? = some c → c = '=') : (u ++ rest).takeWhile (· ≠ '=') = u := by
  have hu := h.2
  clear h
  induction u with
  | nil =>
    cases rest with
    | nil => rfl
    | cons c r =>
      have := hr c rfl
      simp [this]
  | cons c u ih =>
    have := (hu c (by simp)).2.2.2.2.2
    simp only [List.cons_append, List.takeWhile_cons, ne_eq, this, not_false_eq_true, decide_true, if_true]
    congr 1
    exact ih fun x hx => hu x (by simp [hx])

theorem splitWsAux_done (cur w : Text) (hc : cur ≠ []) (hw : Blank' w) (rest : Text) (h : w ≠ []) :
    splitWsAux cur (w ++ rest) = cur :: splitWsAux [] rest := by
  obtain ⟨c, w', rfl⟩ := List.exists_cons_of_ne_nil h
  simp only [List.cons_append, splitWsAux, hw c (by simp), if_true, if_neg hc]
  rw [splitWsAux_sep w' (fun x hx => hw x (by simp [hx]))]

theorem splitWsAux_end (cur w : Text) (hc : cur ≠ []) (hw : Blank' w) : splitWsAux cur w = [cur] := by
  cases w with
  | nil => simp [splitWsAux, hc]
  | cons c w =>
    have := splitWsAux_done cur (c :: w) hc hw [] (by simp)
    simpa [splitWsAux] using this

/-- The first word after a non-empty start. -/
theorem splitWsAux_head (cur t : Text) (hc : cur ≠ []) : ∃ tail ws, splitWsAux cur t = (cur ++ tail) :: ws ∧
    ∀ c, t.head? = some c → isPySpace c = false → tail.head? = some c := by
  induction t generalizing cur with
  | nil => exact ⟨[], [], by simp [splitWsAux, hc], by simp⟩
  | cons c t ih =>
    by_cases h : isPySpace c = true
    · exact ⟨[], splitWsAux [] t, by simp [splitWsAux, h, hc], fun d hd hs => by
        simp only [List.head?_cons, Option.some.injEq] at hd
        subst hd
        simp [h] at hs⟩
    · obtain ⟨tail, ws, e, _⟩ := ih (cur ++ [c]) (by simp)
      refine ⟨c :: tail, ws, by simp [splitWsAux, h, e], fun d hd _ => by simpa using hd⟩

/-- **C88**. The unit of a block is that of the first header line of the kind. -/
theorem C88_unit (key : Text) (hk : key = "ATOMIC_POSITIONS".toList ∨ key = "CELL_PARAMETERS".toList) (a b : List Text) (l : Text)
    (u : Option Text) (ha : ∀ x ∈ a, ∀ p q, x ≠ p ++ key ++ q) (hl : UnitLine key l u) : headerUnit key (a ++ l :: b) = u := by
  have hkw : key ≠ [] ∧ (∀ c ∈ key, isPySpace c = false) ∧ key.filter nob = key := by
    rcases hk with rfl | rfl
    · exact ⟨by decide, by decide, by decide⟩
    · exact ⟨by decide, by decide, by decide⟩
  have hin : isInfix key l = true := by
    rw [isInfix_iff_append]
    cases hl with
    | none w w' _ => exact ⟨w, w', by simp⟩
    | unit w w' w'' u o c _ _ _ => exact ⟨w, _, by simp; rfl⟩
    | eqn w w' u rest _ _ => exact ⟨w, _, by simp; rfl⟩
  have hf : (a ++ l :: b).find? (isInfix key) = some l := by
    rw [List.find?_append]
    have : a.find? (isInfix key) = none := by
      rw [List.find?_eq_none]
      intro x hx hc
      obtain ⟨p, q, e⟩ := (isInfix_iff_append _ _).1 hc
      exact ha x hx p q e
    rw [this]
    simp [List.find?_cons, hin]
  unfold headerUnit
  rw [hf]
  simp only
  rw [show (fun c : Char => decide (c ≠ '(' ∧ c ≠ ')' ∧ c ≠ '{' ∧ c ≠ '}')) = nob from rfl]
  unfold splitWs
  cases hl with
  | none w w' h =>
    rw [List.filter_append, List.filter_append, filter_nob_blank w h.1, filter_nob_blank w' h.2, hkw.2.2, splitWsAux_sep w h.1,
      splitWsAux_tok key hkw.2.1, splitWsAux_end _ _ (by simpa using hkw.1) h.2]
  | unit w w' w'' u o c h hu hb =>
    have hoc : o.filter nob = [] ∧ c.filter nob = [] := by
      rcases hb with hb | hb | hb <;> (obtain ⟨rfl, rfl⟩ := Prod.mk.inj hb; decide)
    rw [List.filter_append, List.filter_append, List.filter_append, List.filter_append, List.filter_append, List.filter_append,
      filter_nob_blank w h.1, filter_nob_blank w' h.2.1, filter_nob_blank w'' h.2.2.1, hkw.2.2, hoc.1, hoc.2, filter_nob_unit u hu,
      splitWsAux_sep w h.1, splitWsAux_tok key hkw.2.1, splitWsAux_done _ w' (by simpa using hkw.1) h.2.1 _ h.2.2.2]
    simp only [List.nil_append]
    rw [splitWsAux_tok u (fun x hx => (hu.2 x hx).1), splitWsAux_end _ _ (by simpa using hu.1) h.2.2.1]
    simp only [List.nil_append]
    have := takeWhile_unit u [] hu (by simp)
    rw [List.append_nil] at this
    rw [this]
  | eqn w w' u rest h hu =>
    rw [List.filter_append, List.filter_append, List.filter_append, List.filter_cons, if_neg (by decide), List.filter_append,
      List.filter_cons, if_pos (by decide), filter_nob_blank w h.1, filter_nob_blank w' h.2.1, hkw.2.2, filter_nob_unit u hu,
      splitWsAux_sep w h.1, splitWsAux_tok key hkw.2.1, splitWsAux_done _ w' (by simpa using hkw.1) h.2.1 _ h.2.2,
      splitWsAux_tok u (fun x hx => (hu.2 x hx).1)]
    obtain ⟨tail, ws, e, ht⟩ := splitWsAux_head ([] ++ u) ('=' :: rest.filter nob) (by simpa using hu.1)
    rw [e]
    simp only [List.nil_append]
    rw [takeWhile_unit u tail hu]
    intro c hc
    have := ht '=' rfl (by decide)
    rw [this] at hc
    simpa using hc.symm

section units
variable [Field K] {num : Text → Option K} {na : Nat} {blocks : List (Block K)} {file : List Text}

theorem scale_eq (s : K) (a : List (List (List K))) : scale s a = scaled s a := rfl

theorem scale_scale (s t : K) (a : List (List (List K))) : scale t (scale s a) = scaled (s * t) a := by
  unfold scale scaled
  simp [List.map_map, Function.comp_def, mul_assoc]

/-- **C88**. Cartesian coordinates in Bohr and fractional coordinates, by the unit of the position blocks. -/
theorem C88_coords_partial (h : IsPwOut num na blocks file) (hna : 0 < na) (hp : blocks.filterMap Block.pos? ≠ []) (ang bohr a : K)
    (pre post : List Text) (l u : Text) (hf : file = pre ++ l :: post) (hpre : ∀ x ∈ pre, ¬ Matches .pos x)
    (hl : UnitLine "ATOMIC_POSITIONS".toList l (some u)) :
    (u = "bohr".toList → getCoords num ang bohr (some a) file = .ok (some (blocks.filterMap Block.pos?))) ∧
    (u = "alat".toList → getCoords num ang bohr (some a) file = .ok (some (scaled a (blocks.filterMap Block.pos?)))) ∧
    (u = "angstrom".toList → getCoords num ang bohr (some a) file = .ok (some (scaled (ang / bohr) (blocks.filterMap Block.pos?)))) ∧
    (u = "crystal".toList → getCoords num ang bohr (some a) file = .ok none ∧
      getCoordsFrac num file = .ok (some (blocks.filterMap Block.pos?))) ∧
    (u ≠ "crystal".toList → getCoordsFrac num file = .ok none) := by
  have hu : headerUnit kPos file = some u := by
    rw [hf]
    exact C88_unit _ (Or.inl rfl) pre post l (some u) (fun x hx p q e => hpre x hx ⟨p, q, e⟩) hl
  have hc := (C87_coords h hna).2
  rw [if_neg hp] at hc
  unfold getCoords getCoordsFrac
  rw [hc, hu]
  refine ⟨?_, ?_, ?_, ?_, ?_⟩
  · rintro rfl
    rfl
  · rintro rfl
    rfl
  · rintro rfl
    simp only
    rw [if_neg (by decide), if_neg (by decide), if_pos trivial, scale_scale, mul_one_div]
  · rintro rfl
    exact ⟨rfl, rfl⟩
  · intro hn
    simp only
    rw [if_neg hn]

/-- **C88**, disagreement. Without a unit in the header (which pw.x takes as alat units, and the parser's first branch as Bohr) there are no
coordinates at all. -/
theorem C88_no_unit_counterexample (h : IsPwOut num na blocks file) (hna : 0 < na) (ang bohr : K) (alat : Option K)
    (pre post : List Text) (l : Text) (hf : file = pre ++ l :: post) (hpre : ∀ x ∈ pre, ¬ Matches .pos x)
    (hl : UnitLine "ATOMIC_POSITIONS".toList l none) :
    getCoords num ang bohr alat file = .ok none ∧ getCoordsFrac num file = .ok none := by
  have hu : headerUnit kPos file = none := by
    rw [hf]
    exact C88_unit _ (Or.inl rfl) pre post l none (fun x hx p q e => hpre x hx ⟨p, q, e⟩) hl
  have hc := (C87_coords h hna).2
  unfold getCoords getCoordsFrac
  rw [hc, hu]
  constructor <;> split_ifs <;> rfl

/-- **C88**. The cells in Bohr, by the unit of the cell blocks; the start cell if there are none. -/
theorem C88_cell (h : IsPwOut num na blocks file) (ang bohr a : K) (factors : Option (List K)) (cell2d : List (List K)) :
    (blocks.filterMap Block.cell? = [] → getCell num ang bohr (some a) factors (some cell2d) file =
      .ok (some (.start (cell2d.map fun r => r.map fun x => x * a)))) ∧
    (blocks.filterMap Block.cell? ≠ [] → ∀ (pre post : List Text) (l : Text) (u : Option Text), file = pre ++ l :: post →
      (∀ x ∈ pre, ¬ Matches .cell x) → UnitLine "CELL_PARAMETERS".toList l u →
      (u = some "bohr".toList → getCell num ang bohr (some a) factors (some cell2d) file = .ok (some (.steps (blocks.filterMap Block.cell?)))) ∧
      (u = some "angstrom".toList → getCell num ang bohr (some a) factors (some cell2d) file =
        .ok (some (.steps (scaled (ang / bohr) (blocks.filterMap Block.cell?))))) ∧
      (u = none ∨ (u = some "alat".toList ∧ factors = none) → getCell num ang bohr (some a) factors (some cell2d) file =
        .ok (some (.steps (scaled a (blocks.filterMap Block.cell?))))) ∧
      (∀ f, u = some "alat".toList → factors = some f → f.length = (blocks.filterMap Block.cell?).length →
        ∃ c, getCell num ang bohr (some a) factors (some cell2d) file = .ok (some (.steps c)) ∧
          ∀ i : Nat, c[i]? = (f[i]?).bind fun s => ((blocks.filterMap Block.cell?)[i]?).map fun m => m.map fun r => r.map fun x => x * s)) := by
  have hc := C87_cell h
  refine ⟨fun h0 => ?_, fun h0 pre post l u hf hpre hl => ?_⟩
  · rw [if_pos h0] at hc
    unfold getCell
    rw [hc]
  · rw [if_neg h0] at hc
    have hu : headerUnit kCell file = u := by
      rw [hf]
      exact C88_unit _ (Or.inr rfl) pre post l u (fun x hx p q e => hpre x hx ⟨p, q, e⟩) hl
    unfold getCell
    rw [hc, hu]
    refine ⟨?_, ?_, ?_, ?_⟩
    · rintro rfl
      rfl
    · rintro rfl
      simp only
      rw [if_neg (by decide), if_neg (by decide), if_pos trivial, scale_scale, mul_one_div]
    · rintro (rfl | ⟨rfl, rfl⟩) <;> rfl
    · rintro f rfl rfl hlen
      simp only
      rw [if_neg (by decide), if_pos trivial]
      unfold scaleSteps
      rw [if_pos hlen]
      refine ⟨_, rfl, fun i => ?_⟩
      rw [List.getElem?_zipWith]
      cases f[i]? <;> cases (blocks.filterMap Block.cell?)[i]? <;> rfl

end units

/-! ## a concrete file -/

theorem only_of (k : Key) (l : Text) (h : ∀ k', test k' l = decide (k' = k)) : Only k l := by
  intro k'
  rw [← test_iff, h k', decide_eq_true_iff]

theorem quiet_of (l : Text) (h : ∀ k, test k l = false) : Quiet l := by
  intro k hk
  rw [← test_iff, h k] at hk
  cases hk

theorem forall_key (p : Key → Prop) (h1 : p .pos) (h2 : p .cell) (h3 : p .stress) (h4 : p .energy) (h5 : p .forceHead) (h6 : p .force) :
    ∀ k, p k := by
  intro k
  cases k <;> assumption

/-- Numbers: integers are enough here. -/
def exNum (t : Text) : Option ℚ := (parseInt t).map fun i => (i : ℚ)

def exScf (e : ℚ) (te tf : Text) (x : ℚ) : List (Block ℚ) :=
  [.other "     End of self-consistent calculation".toList,
   .energy ("!    total energy              =    ".toList ++ te ++ " Ry".toList) e,
   .forces "     Forces acting on atoms (Ry/au):".toList
     [([], none), ("     atom   1 type  1   force =     ".toList ++ tf ++ "   0    0".toList, some [x, 0, 0])],
   .stress "          total   stress  (Ry/bohr**3)                   (kbar)     P=  -89".toList
     [("0 0 0   1  0  0".toList, [1, 0, 0]), ("0 0 0   0  1  0".toList, [0, 1, 0]), ("0 0 0   0  0  1".toList, [0, 0, 1])]]

def exPos (tf : Text) (x : ℚ) : Block ℚ :=
  .positions "ATOMIC_POSITIONS (alat)".toList [("Al    ".toList ++ tf ++ "  5   7".toList, [x, 5, 7])]

def exBlocks : List (Block ℚ) := exScf (-14) "-14".toList "2".toList 2 ++
  [(exPos "3".toList 3 :: exScf (-15) "-15".toList "4".toList 4, [[3, 5, 7]], (-15 : ℚ), [[4, 0, 0]], [[1, 0, 0], [0, 1, 0], [0, 0, 1]])].flatMap
    Prod.fst

def exFile : List Text := ["     Program PWSCF".toList] ++ "     number of atoms/cell      =            1".toList ::
  exBlocks.flatMap Block.lines

/-- All kinds of lines, by evaluation. -/
macro "keysd" : tactic => `(tactic| exact forall_key _ (by decide +kernel) (by decide +kernel) (by decide +kernel) (by decide +kernel)
  (by decide +kernel) (by decide +kernel))

theorem exScf_wf (e : ℚ) (te tf : Text) (x : ℚ) (h : (e, te, tf, x) = (-14, "-14".toList, "2".toList, 2) ∨
    (e, te, tf, x) = (-15, "-15".toList, "4".toList, 4)) : ∀ b ∈ exScf e te tf x, b.Wf exNum 1 := by
  have hs : ∀ r ∈ [("0 0 0   1  0  0".toList, [(1 : ℚ), 0, 0]), ("0 0 0   0  1  0".toList, [0, 1, 0]), ("0 0 0   0  0  1".toList, [0, 0, 1])],
      Quiet r.1 ∧ NoDash r.1 ∧ Row exNum [4, 5, 6] r.1 r.2 := by
    intro r hr
    simp only [List.mem_cons, List.not_mem_nil, or_false] at hr
    rcases hr with rfl | rfl | rfl
    · exact ⟨quiet_of _ (by keysd), (noDash_iff _).1 (by decide +kernel), show _ = _ by decide +kernel⟩
    · exact ⟨quiet_of _ (by keysd), (noDash_iff _).1 (by decide +kernel), show _ = _ by decide +kernel⟩
    · exact ⟨quiet_of _ (by keysd), (noDash_iff _).1 (by decide +kernel), show _ = _ by decide +kernel⟩
  intro b hb
  simp only [exScf, List.mem_cons, List.not_mem_nil, or_false] at hb
  rcases h with h | h <;> (simp only [Prod.mk.injEq] at h; obtain ⟨rfl, rfl, rfl, rfl⟩ := h; rcases hb with rfl | rfl | rfl | rfl)
  · exact quiet_of _ (by keysd)
  · exact ⟨only_of _ _ (by keysd), show _ = _ by decide +kernel⟩
  · refine ⟨only_of _ _ (by keysd), fun r hr => ?_⟩
    simp only [List.mem_cons, List.not_mem_nil, or_false] at hr
    rcases hr with rfl | rfl
    · exact quiet_of _ (by keysd)
    · exact ⟨only_of _ _ (by keysd), show _ = _ by decide +kernel⟩
  · exact ⟨only_of _ _ (by keysd), rfl, hs⟩
  · exact quiet_of _ (by keysd)
  · exact ⟨only_of _ _ (by keysd), show _ = _ by decide +kernel⟩
  · refine ⟨only_of _ _ (by keysd), fun r hr => ?_⟩
    simp only [List.mem_cons, List.not_mem_nil, or_false] at hr
    rcases hr with rfl | rfl
    · exact quiet_of _ (by keysd)
    · exact ⟨only_of _ _ (by keysd), show _ = _ by decide +kernel⟩
  · exact ⟨only_of _ _ (by keysd), rfl, hs⟩

theorem exPos_wf : (exPos "3".toList 3).Wf exNum 1 := by
  refine ⟨only_of _ _ (by keysd), rfl, fun r hr => ?_⟩
  simp only [List.mem_cons, List.not_mem_nil, or_false] at hr
  subst hr
  exact ⟨quiet_of _ (by keysd), (noDash_iff _).1 (by decide +kernel), show _ = _ by decide +kernel⟩

/-- The file meets the hypotheses of the theorems. -/
def exIsPwOut : IsPwOut exNum 1 exBlocks exFile where
  pre := ["     Program PWSCF".toList]
  natLine := "     number of atoms/cell      =            1".toList
  eq := rfl
  quiet := by
    intro l hl
    rw [List.mem_singleton] at hl
    subst hl
    exact quiet_of _ (by keysd)
  noNat := by
    intro l hl
    rw [List.mem_singleton] at hl
    subst hl
    rw [← isNatoms_iff]
    decide +kernel
  quietNat := quiet_of _ (by keysd)
  isNat := ⟨"     ".toList, " of ".toList, "      ".toList, "            ".toList, [], by decide +kernel, by decide +kernel, by simp, by simp⟩
  wf := by
    intro b hb
    simp only [exBlocks, List.mem_append, List.flatMap_cons, List.flatMap_nil, List.append_nil, List.mem_cons] at hb
    rcases hb with hb | rfl | hb
    · exact exScf_wf _ _ _ _ (Or.inl rfl) b hb
    · exact exPos_wf
    · exact exScf_wf _ _ _ _ (Or.inr rfl) b hb

example : coordsRaw exNum exFile = .ok (some [[[3, 5, 7]]]) ∧ getEtot exNum exFile = .ok (some [-15]) ∧
    getForces exNum exFile = .ok (some [[[4, 0, 0]]]) ∧
    getStress exNum exFile = .ok (some [[[1, 0, 0], [0, 1, 0], [0, 0, 1]]]) :=
  C87_aligned_partial 1 (by omega) (by omega) _ (-14) [[2, 0, 0]] [[1, 0, 0], [0, 1, 0], [0, 0, 1]] ⟨rfl, rfl, rfl, rfl⟩
    [(exPos "3".toList 3 :: exScf (-15) "-15".toList "4".toList 4, [[3, 5, 7]], (-15 : ℚ), [[4, 0, 0]], [[1, 0, 0], [0, 1, 0], [0, 0, 1]])]
    (by
      intro x hx
      rw [List.mem_singleton] at hx
      subst hx
      exact ⟨rfl, rfl, rfl, rfl⟩)
    (by simp) exIsPwOut rfl (by simp)

example : UnitLine "ATOMIC_POSITIONS".toList "ATOMIC_POSITIONS (alat)".toList (some "alat".toList) :=
  .unit [] [' '] [] "alat".toList ['('] [')'] ⟨by simp [Blank'], by simp [Blank']; decide, by simp [Blank'], by simp⟩
    ⟨by decide, by decide⟩ (by simp)

end Pwtools.PwOut
