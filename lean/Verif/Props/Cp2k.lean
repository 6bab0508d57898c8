import Verif.Model.Cp2k
import Verif.Spec.Cp2k
import Verif.Props.Grep
import Verif.Props.PwOut
import Mathlib.Tactic.Ring
/-!
# The CP2K parsers (C90)
-/
namespace Pwtools.Cp2k
open Pwtools.Gr Pwtools.Spec Pwtools.PwOut

variable {K : Type} {num : Text → Option K}

/-! ## tables -/

theorem noComment_row (l : Text) (h : '#' ∉ l) : noComment l = l := by
  unfold noComment
  induction l with
  | nil => rfl
  | cons c l ih =>
    simp only [List.mem_cons, not_or] at h
    rw [List.takeWhile_cons, if_pos (by simpa using fun e : c = '#' => h.1 e.symm), ih h.2]

theorem loadRows_nil (num : Text → Option K) (rows : List (List Text)) : loadRows num ([] :: rows) = loadRows num rows := by
  unfold loadRows
  simp

theorem loadRows_filter (num : Text → Option K) (rows : List (List Text)) : loadRows num (rows.filter (· ≠ [])) = loadRows num rows := by
  unfold loadRows
  simp [List.filter_filter]

theorem table_words {lines : List Text} {rows : List (List K)} (h : IsTable num lines rows) :
    (∀ v ∈ rows, v ≠ []) → List.Forall₂ (fun r v => r.map num = v.map some)
      ((lines.map fun l => splitWs (noComment l)).filter (· ≠ [])) rows := by
  induction h with
  | nil => intro _; simp
  | comment _ ih =>
    intro hv
    have e : ∀ l : Text, splitWs (noComment ('#' :: l)) = [] := fun l => by simp [noComment, splitWs, splitWsAux]
    rw [List.map_cons, e, List.filter_cons]
    simpa using ih hv
  | @row l v ls rows h1 h2 _ ih =>
    intro hv
    rw [List.map_cons, noComment_row l h1, List.filter_cons]
    have hne : splitWs l ≠ [] := by
      intro hc
      rw [hc] at h2
      exact hv v (by simp) (by simpa using h2.symm)
    rw [if_pos (by simpa using hne)]
    exact List.Forall₂.cons h2 (ih fun x hx => hv x (by simp [hx]))

theorem loadtxt_eq {lines : List Text} {rows : List (List K)} (h : IsTable num lines rows) (m : Nat) (hm : 0 < m) (hr : ∀ v ∈ rows, v.length = m) :
    loadtxt num lines = .ok rows := by
  unfold loadtxt
  rw [← loadRows_filter]
  refine loadRows_eq num _ _ m hm (table_words h ?_) hr
  intro v hv hn
  have := hr v hv
  rw [hn] at this
  simp at this
  omega

theorem is2d_eq (rows : List (List K)) (m : Nat) (hr : ∀ v ∈ rows, v.length = m) (hm : 2 ≤ m) : is2d rows = decide (2 ≤ rows.length) := by
  unfold is2d
  cases rows with
  | nil => rfl
  | cons v rows => simp [hr v (by simp), hm]

/-- **C90**: kinetic energy, temperature, potential and conserved energy are the columns of the energy file, for any number (at least two) of rows and
any comment lines. -/
theorem C90_energies_partial (junk : K) (file : List Text) (rows : List (EnerRow K)) (h : IsTable num file (rows.map EnerRow.row)) (h2 : 2 ≤ rows.length) :
    ekin junk num file = .ok (rows.map EnerRow.ekin) ∧ temperature junk num file = .ok (rows.map EnerRow.temp) ∧
    etot junk num file = .ok (rows.map EnerRow.epot) ∧ econst junk num file = .ok (rows.map EnerRow.econst) := by
  have hl : ∀ v ∈ rows.map EnerRow.row, v.length = 7 := by
    intro v hv
    obtain ⟨r, _, rfl⟩ := List.mem_map.1 hv
    rfl
  have hload := loadtxt_eq h 7 (by omega) hl
  have h2d := is2d_eq _ 7 hl (by omega)
  have hh : ((rows.map EnerRow.row).headD []).length = 7 := by
    cases rows with
    | nil => simp at h2
    | cons r rows => rfl
  have hc : ∀ i, i < 7 → column junk (rows.map EnerRow.row) i = .ok (rows.map fun r => r.row.getD i junk) := by
    intro i hi
    unfold column
    rw [h2d, hh, List.length_map, if_pos (by simp [h2, hi]), List.map_map]
    rfl
  simp only [ekin, temperature, etot, econst, enerCol, hload, hc 2 (by omega), hc 3 (by omega), hc 4 (by omega), hc 5 (by omega)]
  exact ⟨rfl, rfl, rfl, rfl⟩

/-- **C90**: what is missing: the energy file of a run with a single step: every getter raises `IndexError`. -/
theorem C90_single_step_counterexample (junk : K) (file : List Text) (row : EnerRow K) (h : IsTable num file [row.row]) :
    ekin junk num file = .error .index ∧ temperature junk num file = .error .index ∧
    etot junk num file = .error .index ∧ econst junk num file = .error .index := by
  have hload := loadtxt_eq h 7 (by omega) (by simp [EnerRow.row])
  have hc : ∀ i, column junk [row.row] i = .error .index := fun i => by simp [column, is2d]
  simp only [ekin, temperature, etot, econst, enerCol, hload, hc, and_self]

/-- **C90**: the cell and the volume of every row of the cell file. -/
theorem C90_cell_partial (junk : K) (file : List Text) (rows : List (CellRow K)) (h : IsTable num file (rows.map CellRow.row)) (h2 : 2 ≤ rows.length) :
    cell junk num file = .ok (rows.map CellRow.cell) ∧ volume junk num file = .ok (rows.map CellRow.volume) := by
  have hl : ∀ v ∈ rows.map CellRow.row, v.length = 12 := by
    intro v hv
    obtain ⟨r, _, rfl⟩ := List.mem_map.1 hv
    rfl
  have hload := loadtxt_eq h 12 (by omega) hl
  have h2d := is2d_eq _ 12 hl (by omega)
  have hh : ((rows.map CellRow.row).headD []).length = 12 := by
    cases rows with
    | nil => simp at h2
    | cons r rows => rfl
  constructor
  · simp only [cell, hload]
    unfold repack
    rw [h2d, hh, List.length_map, if_pos (by simp [h2]), List.map_map]
    rfl
  · simp only [volume, hload]
    unfold column
    rw [h2d, hh, List.length_map, if_pos (by simp [h2]), List.map_map]
    rfl

/-- The stress file has the same columns as the cell file without the volume: the stress tensor of every row. -/
theorem C90_stress_partial (junk : K) (file : List Text) (rows : List (CellRow K)) (h : IsTable num file (rows.map fun r => r.row.take 11))
    (h2 : 2 ≤ rows.length) : stress junk num file = .ok (rows.map CellRow.cell) := by
  have hl : ∀ v ∈ rows.map (fun r => r.row.take 11), v.length = 11 := by
    intro v hv
    obtain ⟨r, _, rfl⟩ := List.mem_map.1 hv
    rfl
  have hload := loadtxt_eq h 11 (by omega) hl
  have h2d := is2d_eq _ 11 hl (by omega)
  have hh : ((rows.map fun r => r.row.take 11).headD []).length = 11 := by
    cases rows with
    | nil => simp at h2
    | cons r rows => rfl
  simp only [stress, cell, hload]
  unfold repack
  rw [h2d, hh, List.length_map, if_pos (by simp [h2]), List.map_map]
  rfl

/-- One row: `IndexError`. -/
theorem C90_single_cell_counterexample (junk : K) (file : List Text) (row : CellRow K) (h : IsTable num file [row.row]) :
    cell junk num file = .error .index ∧ volume junk num file = .error .index := by
  have hload := loadtxt_eq h 12 (by omega) (by simp [CellRow.row])
  simp only [cell, volume, hload]
  exact ⟨by simp [repack, is2d], by simp [column, is2d]⟩

/-- **C90**: the cell of a `CELL_OPT` run: with exactly one more frame than rows in the cell file, the last cell is repeated, so that there is one
cell per frame; any other number of frames is refused. Otherwise the rows of the cell file. -/
theorem C90_relax_cell (junk : K) (file : List Text) (rows : List (CellRow K)) (h : IsTable num file (rows.map CellRow.row)) (h2 : 2 ≤ rows.length)
    (coords : List (List (List K))) :
    relaxCell junk num false file (some coords) = .ok (some (rows.map CellRow.cell)) ∧
    (coords.length ≠ rows.length + 1 → relaxCell junk num true file (some coords) = .error .offset) ∧
    (coords.length = rows.length + 1 → ∃ cells, relaxCell junk num true file (some coords) = .ok (some cells) ∧ cells.length = coords.length ∧
      ∀ i, (h : i < rows.length) → cells[i]? = some rows[i].cell ∧ (i + 1 = rows.length → cells[i + 1]? = some rows[i].cell)) := by
  have hc := (C90_cell_partial junk file rows h h2).1
  refine ⟨?_, ?_, ?_⟩
  · simp [relaxCell, hc]
  · intro hn
    simp [relaxCell, hc, hn]
  · intro he
    refine ⟨rows.map CellRow.cell ++ [(rows.map CellRow.cell).getLastD []], by simp [relaxCell, hc, he], by simp [he], ?_⟩
    intro i hi
    constructor
    · rw [List.getElem?_append_left (by simpa using hi)]
      simp [hi]
    · intro hl
      rw [List.getElem?_append_right (by simp [← hl])]
      rw [show i + 1 - (rows.map CellRow.cell).length = 0 by simp [hl]]
      rw [List.getElem?_cons_zero, List.getLastD_eq_getLast?, List.getLast?_eq_getElem?, List.length_map, ← hl]
      simp [hi]

/-! ## xyz files -/

theorem hasSeq_two (a b l : Text) : hasSeq [a, b] l = true ↔ ∃ u v w, l = u ++ a ++ v ++ b ++ w := by
  rw [hasSeq_cons]
  constructor
  · rintro ⟨u, t, rfl, h⟩
    obtain ⟨v, w, rfl, _⟩ := (hasSeq_cons _ _ _).1 h
    exact ⟨u, v, w, by simp⟩
  · rintro ⟨u, v, w, rfl⟩
    exact ⟨u, v ++ (b ++ w), by simp, (hasSeq_cons _ _ _).2 ⟨v, w, rfl, by simp [hasSeq]⟩⟩

theorem hasSeq_noEq (a b l : Text) (ha : '=' ∈ a) (h : '=' ∉ l) : hasSeq [a, b] l = false := by
  by_contra hc
  obtain ⟨u, v, w, rfl⟩ := (hasSeq_two a b l).1 (by simpa using hc)
  apply h
  simp [ha]

theorem count_noEq (n na : Nat) : '=' ∉ List.replicate n ' ' ++ strNat na := by
  intro h
  rcases List.mem_append.1 h with h | h
  · have := List.eq_of_mem_replicate h
    exact absurd this (by decide)
  · exact digits_noEq na h

theorem isCount_count (n na : Nat) : isCount (List.replicate (n + 1) ' ' ++ strNat na) = true := by
  obtain ⟨d, ds, e⟩ := List.exists_cons_of_ne_nil (strNat_ne_nil na)
  have hd : d.isDigit = true := strNat_digits na d (by simp [e])
  have hsp : d ≠ ' ' := by
    rintro rfl
    exact absurd hd (by decide)
  unfold isCount
  rw [dropWhile_replicate_append _ _ (by rw [e]; simpa using hsp), e]
  simp [List.replicate_succ, hd]

theorem isCount_row (l : Text) (h : ∀ n d t, l = List.replicate (n + 1) ' ' ++ d :: t → d.isDigit = false) : isCount l = false := by
  by_contra hc
  simp only [isCount, Bool.not_eq_false, Bool.and_eq_true, decide_eq_true_eq] at hc
  obtain ⟨h1, h2⟩ := hc
  obtain ⟨n, hn⟩ := dropWhile_spaces l
  cases hd : l.dropWhile (· = ' ') with
  | nil => rw [hd] at h2; simp at h2
  | cons d t =>
    rw [hd] at h2 hn
    simp only [List.head?_cons, Option.map_some, Option.getD_some] at h2
    cases n with
    | zero =>
      rw [hn] at h1
      simp at h1
      rw [h1] at h2
      exact absurd h2 (by decide)
    | succ n => exact absurd (h n d t hn) (by simp [h2])

section
variable {na : Nat}

theorem frame_lines (f : XyzFrame K) (hf : f.Wf num na) :
    isFrame f.count = false ∧ isData f.count = false ∧ isFrame f.comment = true ∧ isData f.comment = false ∧
    ∀ r ∈ f.rows, isFrame r.1 = false ∧ isData r.1 = true := by
  obtain ⟨n, hn⟩ := hf.count
  obtain ⟨a, b, c, hc⟩ := hf.comment
  have hcnt : '=' ∉ f.count := hn ▸ count_noEq (n + 1) na
  refine ⟨hasSeq_noEq _ _ _ (by decide) hcnt, ?_, (hasSeq_two _ _ _).2 ⟨a, b, c, hc⟩, ?_, ?_⟩
  · unfold isData
    rw [hn, isCount_count]
    simp
  · have : hasSeq ["i =".toList, "E =".toList] f.comment = true := by
      refine (hasSeq_two _ _ _).2 ⟨a, ' ' :: b, c, ?_⟩
      rw [hc]
      simp
    unfold isData
    rw [this]
    rfl
  · intro r hr
    obtain ⟨h1, h2, -⟩ := hf.rows r hr
    refine ⟨hasSeq_noEq _ _ _ (by decide) h1, ?_⟩
    unfold isData
    rw [hasSeq_noEq _ _ _ (by decide) h1, isCount_row _ h2]
    rfl

theorem rows_data (rows : List (Text × Text × List K)) (h : ∀ r ∈ rows, isFrame r.1 = false ∧ isData r.1 = true) :
    (rows.map Prod.fst).filter isFrame = [] ∧ (rows.map Prod.fst).filter isData = rows.map Prod.fst := by
  constructor
  · rw [List.filter_eq_nil_iff]
    intro l hl
    obtain ⟨r, hr, rfl⟩ := List.mem_map.1 hl
    simp [(h r hr).1]
  · rw [List.filter_eq_self]
    intro l hl
    obtain ⟨r, hr, rfl⟩ := List.mem_map.1 hl
    exact (h r hr).2

theorem frames_filter (fs : List (XyzFrame K)) (hf : ∀ f ∈ fs, f.Wf num na) :
    ((fs.flatMap XyzFrame.lines).filter isFrame).length = fs.length ∧
    (fs.flatMap XyzFrame.lines).filter isData = (fs.flatMap XyzFrame.rows).map Prod.fst := by
  induction fs with
  | nil => simp
  | cons f fs ih =>
    obtain ⟨i1, i2⟩ := ih fun x hx => hf x (by simp [hx])
    obtain ⟨h1, h2, h3, h4, h5⟩ := frame_lines f (hf f (by simp))
    obtain ⟨d1, d2⟩ := rows_data f.rows h5
    rw [List.flatMap_cons, List.filter_append, List.filter_append, List.length_append, i1, i2, List.flatMap_cons, List.map_append]
    constructor
    · simp only [XyzFrame.lines, List.filter_cons, h1, h3, d1]
      simp
      omega
    · simp only [XyzFrame.lines, List.filter_cons, h2, h4, d2]
      simp

theorem awk_xyz (l sym : Text) (ws : List Text) (v : List K) (h : splitWs l = sym :: ws) (hw : ws.map num = v.map some) (hv : v.length = 3) :
    (awk [2, 3, 4] l).map num = v.map some ∧ awk [1] l = [sym] := by
  constructor
  · apply awk_row
    rw [h]
    match v, hv, ws, hw with
    | [x, y, z], _, [a, b, c], hw =>
      simp only [List.map_cons, List.map_nil, List.cons.injEq, and_true] at hw
      simp [hw.1, hw.2.1, hw.2.2]
    | [x, y, z], _, [], hw => simp at hw
    | [x, y, z], _, [a], hw => simp at hw
    | [x, y, z], _, [a, b], hw => simp at hw
    | [x, y, z], _, a :: b :: c :: d :: ws, hw => simp at hw
  · unfold awk
    have : sym ≠ [] := splitWs_ne_nil l sym (by simp [h])
    simp [h, this]

theorem rows_awk (rows : List (Text × Text × List K)) (h : ∀ r ∈ rows, r.2.2.length = 3 ∧
    ∃ ws, splitWs r.1 = r.2.1 :: ws ∧ ws.map num = r.2.2.map some) :
    ((rows.map Prod.fst).flatMap (awk [2, 3, 4])).map num = (rows.map fun r => r.2.2).flatten.map some := by
  induction rows with
  | nil => rfl
  | cons r rows ih =>
    obtain ⟨h1, ws, h2, h3⟩ := h r (by simp)
    simp only [List.map_cons, List.flatMap_cons, List.map_append, List.flatten_cons, (awk_xyz r.1 r.2.1 ws r.2.2 h2 h3 h1).1,
      ih fun x hx => h x (by simp [hx])]

theorem splitWs_blank_nat (n na : Nat) : splitWs (List.replicate n ' ' ++ strNat na) = [strNat na] := by
  induction n with
  | zero =>
    have := splitWsAux_tok (strNat na) (fun c hc => isPySpace_digit c (strNat_digits na c hc)) [] []
    unfold splitWs
    rw [List.append_nil] at this
    rw [List.replicate_zero, List.nil_append, this]
    simp [splitWsAux, strNat_ne_nil]
  | succ n ih =>
    unfold splitWs at ih ⊢
    rw [List.replicate_succ, List.cons_append, splitWsAux, if_pos (by decide)]
    simpa using ih

theorem int_count (f : XyzFrame K) (hf : f.Wf num na) : intFromTxt f.count = .ok (some (na : Int)) := by
  obtain ⟨n, hn⟩ := hf.count
  unfold intFromTxt
  rw [hn, splitWs_blank_nat]
  simp only [parseInt_strNat]

theorem frames_rows (fs : List (XyzFrame K)) (hf : ∀ f ∈ fs, f.Wf num na) : (fs.flatMap XyzFrame.rows).length = fs.length * na := by
  rw [List.length_flatMap, List.map_congr_left (g := fun _ => na) fun f hm => (hf f hm).nrows]
  simp

theorem reshape_eq (num : Text → Option K) (ws : List Text) (A : List (List (List K))) (m : Nat)
    (hA : ∀ a ∈ A, a.length = m ∧ ∀ r ∈ a, r.length = 3) (hw : ws.map num = (A.flatMap List.flatten).map some) :
    (fromString num ws).length = A.length * m * 3 ∧
    ((chunks (m * 3) (fromString num ws) A.length).map fun c => chunks 3 c m) = A := by
  have hlen : ∀ a ∈ A, a.flatten.length = m * 3 := by
    intro a ha
    rw [List.length_flatten, List.map_congr_left (g := fun _ => 3) (fun r hr => (hA a ha).2 r hr)]
    simp [(hA a ha).1]
  have hf : A.flatMap List.flatten = (A.map List.flatten).flatten := by rw [List.flatMap_def]
  rw [fromString_map num ws _ hw, hf]
  constructor
  · rw [List.length_flatten, List.map_map]
    have : A.map (List.length ∘ List.flatten) = A.map fun _ => m * 3 := List.map_congr_left fun a ha => hlen a ha
    rw [this]
    simp [Nat.mul_assoc]
  · have h1 := chunks_flatten (m * 3) (A.map List.flatten) (by
      intro r hr
      obtain ⟨a, ha, rfl⟩ := List.mem_map.1 hr
      exact hlen a ha)
    rw [List.length_map] at h1
    rw [h1, List.map_map, List.map_congr_left (g := id)]
    · simp
    · intro a ha
      have := chunks_flatten 3 a (hA a ha).2
      rwa [(hA a ha).1] at this

theorem xyz_rows (fs : List (XyzFrame K)) (hf : ∀ f ∈ fs, f.Wf num na) :
    ∀ r ∈ fs.flatMap XyzFrame.rows, r.2.2.length = 3 ∧ ∃ ws, splitWs r.1 = r.2.1 :: ws ∧ ws.map num = r.2.2.map some := by
  intro r hr
  obtain ⟨f, hm, hr⟩ := List.mem_flatMap.1 hr
  obtain ⟨-, -, h1, h2⟩ := (hf f hm).rows r hr
  exact ⟨h1, h2⟩

theorem xyz_ok (fs : List (XyzFrame K)) (hf : ∀ f ∈ fs, f.Wf num na) (h0 : fs ≠ []) (file : List Text) (h1 : file.headD [] = (fs.headD ⟨[], [], []⟩).count)
    (h2 : (file.filter isFrame).length = fs.length) (h3 : file.filter isData = (fs.flatMap XyzFrame.rows).map Prod.fst) :
    xyz2arr num file = .ok (fs.map fun f => f.rows.map fun r => r.2.2) := by
  obtain ⟨f, fs', e⟩ := List.exists_cons_of_ne_nil h0
  have hi : intFromTxt (file.headD []) = .ok (some (na : Int)) := by
    rw [h1, e]
    exact int_count f (hf f (by simp [e]))
  have hw := rows_awk _ (xyz_rows fs hf)
  have hw' : (((fs.flatMap XyzFrame.rows).map Prod.fst).flatMap (awk [2, 3, 4])).map num =
      ((fs.map fun f => f.rows.map fun r => r.2.2).flatMap List.flatten).map some := by
    rw [hw]
    congr 1
    rw [List.map_flatMap, List.flatMap_map, List.flatMap_def, List.flatMap_def, List.flatten_flatten, List.map_map]
    rfl
  obtain ⟨r1, r2⟩ := reshape_eq num _ _ na (by
    intro a ha
    obtain ⟨f, hm, rfl⟩ := List.mem_map.1 ha
    refine ⟨by simp [(hf f hm).nrows], ?_⟩
    intro v hv
    obtain ⟨r, hr, rfl⟩ := List.mem_map.1 hv
    exact ((hf f hm).rows r hr).2.2.1) hw'
  rw [List.length_map] at r1 r2
  unfold xyz2arr
  simp only [hi, h2, h3, Int.toNat_natCast]
  rw [if_pos r1, r2]

/-- **C90**: coordinates, forces and velocities from an xyz file with any number of frames: one array per frame, one row per atom. -/
theorem C90_xyz (fs : List (XyzFrame K)) (hf : ∀ f ∈ fs, f.Wf num na) (h0 : fs ≠ []) :
    xyz2arr num (fs.flatMap XyzFrame.lines) = .ok (fs.map fun f => f.rows.map fun r => r.2.2) := by
  obtain ⟨h2, h3⟩ := frames_filter fs hf
  refine xyz_ok fs hf h0 _ ?_ h2 h3
  obtain ⟨f, fs', rfl⟩ := List.exists_cons_of_ne_nil h0
  rfl

/-- **C90**: a run which was killed while it wrote the frame `f`: when only the line with the number of atoms was written, the complete frames are
returned; when the comment line was written and rows are missing, `ValueError`. -/
theorem C90_xyz_truncated (fs : List (XyzFrame K)) (f : XyzFrame K) (hf : ∀ x ∈ fs ++ [f], x.Wf num na) (h0 : fs ≠ []) (k : Nat)
    (hk : k < f.lines.length) :
    xyz2arr num (fs.flatMap XyzFrame.lines ++ f.lines.take k) =
      if k ≤ 1 then .ok (fs.map fun f => f.rows.map fun r => r.2.2) else .error .value := by
  have hfs : ∀ x ∈ fs, x.Wf num na := fun x hx => hf x (by simp [hx])
  obtain ⟨h2, h3⟩ := frames_filter fs hfs
  obtain ⟨g1, g2, g3, g4, g5⟩ := frame_lines f (hf f (by simp))
  obtain ⟨g, fs', e⟩ := List.exists_cons_of_ne_nil h0
  have hhead : (fs.flatMap XyzFrame.lines ++ f.lines.take k).headD [] = (fs.headD ⟨[], [], []⟩).count := by rw [e]; rfl
  by_cases hk1 : k ≤ 1
  · rw [if_pos hk1]
    have : f.lines.take k = [] ∨ f.lines.take k = [f.count] := by
      rcases Nat.le_one_iff_eq_zero_or_eq_one.1 hk1 with rfl | rfl
      · exact Or.inl rfl
      · exact Or.inr rfl
    refine xyz_ok fs hfs h0 _ hhead ?_ ?_
    · rw [List.filter_append, List.length_append, h2]
      rcases this with h | h <;> rw [h]
      · rfl
      · simp [g1]
    · rw [List.filter_append, h3]
      rcases this with h | h <;> rw [h]
      · simp
      · simp [g2]
  · rw [if_neg hk1]
    obtain ⟨j, rfl⟩ : ∃ j, k = j + 2 := ⟨k - 2, by omega⟩
    have ht : f.lines.take (j + 2) = f.count :: f.comment :: (f.rows.take j).map Prod.fst := by
      simp [XyzFrame.lines, List.map_take]
    have hj : j < na := by
      have := (hf f (by simp)).nrows
      simp only [XyzFrame.lines, List.length_cons, List.length_map] at hk
      omega
    obtain ⟨d1, d2⟩ := rows_data (f.rows.take j) fun r hr => g5 r (List.mem_of_mem_take hr)
    have hi : intFromTxt ((fs.flatMap XyzFrame.lines ++ f.lines.take (j + 2)).headD []) = .ok (some (na : Int)) := by
      rw [hhead, e]
      exact int_count g (hfs g (by simp [e]))
    have c1 : ((fs.flatMap XyzFrame.lines ++ f.lines.take (j + 2)).filter isFrame).length = fs.length + 1 := by
      rw [List.filter_append, List.length_append, h2, ht]
      simp only [List.filter_cons, g1, g3, d1, Bool.false_eq_true, if_false, if_true, List.length_cons, List.length_nil]
    have c2 : (fs.flatMap XyzFrame.lines ++ f.lines.take (j + 2)).filter isData =
        ((fs.flatMap XyzFrame.rows ++ f.rows.take j)).map Prod.fst := by
      rw [List.filter_append, h3, ht, List.map_append]
      simp only [List.filter_cons, g2, g4, d2, Bool.false_eq_true, if_false]
    have hrow : ∀ r ∈ fs.flatMap XyzFrame.rows ++ f.rows.take j, r.2.2.length = 3 ∧
        ∃ ws, splitWs r.1 = r.2.1 :: ws ∧ ws.map num = r.2.2.map some := by
      intro r hr
      rcases List.mem_append.1 hr with hr | hr
      · exact xyz_rows fs hfs r hr
      · exact xyz_rows [f] (fun x hx => hf x (by simp at hx; simp [hx])) r (by simpa using List.mem_of_mem_take hr)
    have hw := fromString_map num _ _ (rows_awk _ hrow)
    unfold xyz2arr
    simp only [hi, c1, c2, hw, Int.toNat_natCast]
    rw [if_neg]
    rw [List.length_flatten, List.map_map, List.map_congr_left (f := List.length ∘ fun r : Text × Text × List K => r.2.2) (g := fun _ => 3) (fun r hr => (hrow r hr).1)]
    simp only [List.map_const', List.sum_replicate_nat, List.length_append, frames_rows fs hfs, List.length_take,
      (hf f (by simp)).nrows, Nat.min_eq_left hj.le]
    have : (fs.length + 1) * na = fs.length * na + na := by ring
    rw [this]
    omega

/-- **C90**: the symbols are those of the first frame. -/
theorem C90_symbols (fs : List (XyzFrame K)) (f : XyzFrame K) (hf : ∀ x ∈ f :: fs, x.Wf num na) :
    symbols na ((f :: fs).flatMap XyzFrame.lines) = f.rows.map fun r => r.2.1 := by
  have hw := hf f (by simp)
  obtain ⟨n, hn⟩ := hw.count
  obtain ⟨a, b, c, hc⟩ := hw.comment
  have noEq : ∀ l : Text, '=' ∉ l → isInfix "i =".toList l = false := by
    intro l hl
    by_contra h
    obtain ⟨u, v, rfl⟩ := (isInfix_iff_append _ _).1 (by simpa using h)
    exact hl (by simp)
  have h1 : isInfix "i =".toList f.count = false := noEq _ (hn ▸ count_noEq (n + 1) na)
  have h2 : isInfix "i =".toList f.comment = true := by
    refine (isInfix_iff_append _ _).2 ⟨a, ' ' :: (b ++ "E =".toList ++ c), ?_⟩
    rw [hc]
    simp
  unfold symbols
  rw [List.flatMap_cons]
  simp only [XyzFrame.lines, List.cons_append, List.dropWhile_cons, h1, h2, Bool.not_false, Bool.not_true, if_true, Bool.false_eq_true, if_false]
  rw [List.take_append_of_le_length (by simp [hw.nrows]), List.take_of_length_le (by simp [hw.nrows])]
  have hrows := hw.rows
  clear hw hc hn h1 h2 hf
  revert hrows
  generalize f.rows = rows
  intro hrows
  induction rows with
  | nil => rfl
  | cons r rows ih =>
    obtain ⟨q1, q2, q3, ws, q4, q5⟩ := hrows r (by simp)
    simp only [List.map_cons, List.filter_cons, noEq r.1 q1, Bool.not_false, if_true, List.flatMap_cons, (awk_xyz r.1 r.2.1 ws r.2.2 q4 q5 q3).2]
    rw [ih fun x hx => hrows x (by simp [hx])]
    rfl

/-- **C90**: the total energies of a relaxation: the number in the sixth word of each comment line (`i = <n>, E = <energy>`). -/
theorem C90_relax_etot (fs : List (XyzFrame K)) (hf : ∀ x ∈ fs, x.Wf num na) (h0 : fs ≠ []) (es : List K)
    (he : List.Forall₂ (fun f e => ∃ w, (splitWs f.comment)[5]? = some w ∧ num w = some e) fs es) :
    relaxEtot num (fs.flatMap XyzFrame.lines) = .ok (some es) := by
  have hfl : (fs.flatMap XyzFrame.lines).filter (fun l => hasSeq ["i =".toList, "E".toList] l) = fs.map XyzFrame.comment := by
    clear he h0
    induction fs with
    | nil => rfl
    | cons f fs ih =>
      have hw := hf f (by simp)
      obtain ⟨n, hn⟩ := hw.count
      obtain ⟨a, b, c, hc⟩ := hw.comment
      have h1 : hasSeq ["i =".toList, "E".toList] f.count = false := hasSeq_noEq _ _ _ (by decide) (hn ▸ count_noEq (n + 1) na)
      have h2 : hasSeq ["i =".toList, "E".toList] f.comment = true := by
        refine (hasSeq_two _ _ _).2 ⟨a, ' ' :: b, " =".toList ++ c, ?_⟩
        rw [hc]
        simp
      have h3 : (f.rows.map Prod.fst).filter (fun l => hasSeq ["i =".toList, "E".toList] l) = [] := by
        rw [List.filter_eq_nil_iff]
        intro l hl
        obtain ⟨r, hr, rfl⟩ := List.mem_map.1 hl
        rw [hasSeq_noEq _ _ _ (by decide) (hw.rows r hr).1]
        simp
      rw [List.flatMap_cons, List.filter_append, ih fun x hx => hf x (by simp [hx])]
      simp only [XyzFrame.lines, List.filter_cons, h1, h2, h3, if_true, Bool.false_eq_true, if_false, List.map_cons, List.cons_append, List.nil_append]
  unfold relaxEtot
  rw [hfl]
  have hrow : List.Forall₂ (fun r v => r.map num = v.map some) ((fs.map XyzFrame.comment).map (awk [6])) (es.map fun e => [e]) := by
    clear hfl h0 hf
    induction he with
    | nil => exact List.Forall₂.nil
    | cons h _ ih =>
      obtain ⟨w, h1, h2⟩ := h
      refine List.Forall₂.cons ?_ ih
      exact awk_row num [6] _ _ (by simp [h1, h2])
  have hload := loadRows_eq num _ _ 1 (by omega) hrow (by simp)
  unfold arr1d
  rw [if_neg, hload]
  · simp only [Except.ok.injEq, Option.some.injEq]
    clear hload hrow he
    induction es with
    | nil => rfl
    | cons e es ih => simp [ih]
  · intro hc
    obtain ⟨f, fs', rfl⟩ := List.exists_cons_of_ne_nil h0
    cases he with
    | cons h _ =>
      obtain ⟨w, h1, h2⟩ := h
      have := awk_row num [6] f.comment [_] (by simp [h1, h2]; rfl)
      simp only [List.map_cons, List.flatten_cons, List.append_eq_nil_iff] at hc
      rw [hc.1] at this
      simp at this

end

/-! ## examples -/

def exNum (w : Text) : Option Rat := (parseInt w).map fun i : Int => (i : Rat)

def exEner : List Text := ["# Step Time Kin Temp Pot Cons Used".toList, "0 0 1 300 -5 -4 1".toList, "1 1 2 310 -6 -4 1".toList]

theorem exEner_table : IsTable exNum exEner ([⟨0, 0, 1, 300, -5, -4, 1⟩, ⟨1, 1, 2, 310, -6, -4, 1⟩].map EnerRow.row) :=
  IsTable.comment (IsTable.row (by decide +kernel) (by decide +kernel) (IsTable.row (by decide +kernel) (by decide +kernel) IsTable.nil))

example : temperature (-1) exNum exEner = .ok [300, 310] := (C90_energies_partial (-1) exEner _ exEner_table (by decide)).2.1
example : temperature (-1) exNum (exEner.take 2) = .error .index :=
  (C90_single_step_counterexample (-1) _ ⟨0, 0, 1, 300, -5, -4, 1⟩
    (IsTable.comment (IsTable.row (by decide +kernel) (by decide +kernel) IsTable.nil))).2.1

def exCell : List Text := ["# Step Time Ax ...".toList, "0 0 4 0 0 1 5 0 0 0 6 120".toList, "1 1 4 0 0 1 5 0 0 0 7 140".toList]

theorem exCell_table : IsTable exNum exCell ([⟨0, 0, 4, 0, 0, 1, 5, 0, 0, 0, 6, 120⟩, ⟨1, 1, 4, 0, 0, 1, 5, 0, 0, 0, 7, 140⟩].map CellRow.row) :=
  IsTable.comment (IsTable.row (by decide +kernel) (by decide +kernel) (IsTable.row (by decide +kernel) (by decide +kernel) IsTable.nil))

example : cell (-1) exNum exCell = .ok [[[4, 0, 0], [1, 5, 0], [0, 0, 6]], [[4, 0, 0], [1, 5, 0], [0, 0, 7]]] ∧
    volume (-1) exNum exCell = .ok [120, 140] := C90_cell_partial (-1) exCell _ exCell_table (by decide)

example : relaxCell (-1) exNum true exCell (some [[], []]) = .error .offset := by
  exact (C90_relax_cell (-1) exCell _ exCell_table (by decide) [[], []]).2.1 (by decide)

example : ∃ cells, relaxCell (-1) exNum true exCell (some [[], [], []]) = .ok (some cells) ∧ cells.length = 3 := by
  obtain ⟨c, h1, h2, -⟩ := (C90_relax_cell (-1) exCell _ exCell_table (by decide) [[], [], []]).2.2 (by decide)
  exact ⟨c, h1, h2⟩

example : cell (-1) exNum (exCell.take 2) = .error .index :=
  (C90_single_cell_counterexample (-1) _ ⟨0, 0, 4, 0, 0, 1, 5, 0, 0, 0, 6, 120⟩
    (IsTable.comment (IsTable.row (by decide +kernel) (by decide +kernel) IsTable.nil))).1

example : stress (-1) exNum ["# Step Time xx ...".toList, "0 0 4 0 0 1 5 0 0 0 6".toList, "1 1 4 0 0 1 5 0 0 0 7".toList] =
    .ok [[[4, 0, 0], [1, 5, 0], [0, 0, 6]], [[4, 0, 0], [1, 5, 0], [0, 0, 7]]] :=
  C90_stress_partial (-1) _ [⟨0, 0, 4, 0, 0, 1, 5, 0, 0, 0, 6, 120⟩, ⟨1, 1, 4, 0, 0, 1, 5, 0, 0, 0, 7, 140⟩]
    (IsTable.comment (IsTable.row (by decide +kernel) (by decide +kernel) (IsTable.row (by decide +kernel) (by decide +kernel) IsTable.nil)))
    (by decide)

/-- An xyz file with two frames of two atoms. -/
def exXyz (i e x : Text) : XyzFrame Rat := ⟨"   2".toList, " i =  ".toList ++ i ++ ", time = 0, E =  ".toList ++ e,
  [("  H  1 2 3".toList, "H".toList, [1, 2, 3]), ("  O  4 5 6".toList, "O".toList, [4, 5, 6])]⟩

theorem row_nodigit (l : Text) (h : ((l.dropWhile (· = ' ')).head?.map Char.isDigit).getD false = false) :
    ∀ n d t, l = List.replicate (n + 1) ' ' ++ d :: t → d.isDigit = false := by
  intro n d t e
  by_contra hd
  have hd : d.isDigit = true := by simpa using hd
  have hsp : d ≠ ' ' := by
    rintro rfl
    exact absurd hd (by decide)
  rw [e, dropWhile_replicate_append _ _ (by simpa using hsp)] at h
  simp [hd] at h

theorem exXyz_wf (i e x : Text) : (exXyz i e x).Wf exNum 2 := by
  refine ⟨⟨2, (by decide +kernel : "   2".toList = List.replicate (2 + 1) ' ' ++ strNat 2)⟩, ⟨" ".toList, " ".toList ++ i ++ ", time = 0, ".toList, "  ".toList ++ e, by simp [exXyz]⟩, rfl, ?_⟩
  have h : ∀ r ∈ [("  H  1 2 3".toList, "H".toList, ([1, 2, 3] : List Rat)), ("  O  4 5 6".toList, "O".toList, [4, 5, 6])],
      '=' ∉ r.1 ∧ ((r.1.dropWhile (· = ' ')).head?.map Char.isDigit).getD false = false ∧ r.2.2.length = 3 ∧
      (splitWs r.1).head? = some r.2.1 ∧ (splitWs r.1).tail.map exNum = r.2.2.map some := by decide +kernel
  intro r hr
  obtain ⟨h1, h2, h3, h4, h5⟩ := h r hr
  refine ⟨h1, row_nodigit _ h2, h3, (splitWs r.1).tail, ?_, h5⟩
  cases hs : splitWs r.1 with
  | nil => rw [hs] at h4; simp at h4
  | cons a b =>
    rw [hs] at h4
    simp at h4
    simp [h4]

example (i e x : Text) : xyz2arr exNum ([exXyz i e x, exXyz i e x].flatMap XyzFrame.lines) = .ok [[[1, 2, 3], [4, 5, 6]], [[1, 2, 3], [4, 5, 6]]] ∧
    symbols 2 ([exXyz i e x, exXyz i e x].flatMap XyzFrame.lines) = ["H".toList, "O".toList] ∧
    xyz2arr exNum ([exXyz i e x].flatMap XyzFrame.lines ++ (exXyz i e x).lines.take 3) = .error .value ∧
    xyz2arr exNum ([exXyz i e x].flatMap XyzFrame.lines ++ (exXyz i e x).lines.take 1) = .ok [[[1, 2, 3], [4, 5, 6]]] := by
  have hw : ∀ f ∈ [exXyz i e x, exXyz i e x], f.Wf exNum 2 := by
    intro f hf
    simp only [List.mem_cons, List.not_mem_nil, or_false, or_self] at hf
    rw [hf]
    exact exXyz_wf i e x
  exact ⟨C90_xyz _ hw (by simp), C90_symbols [_] _ hw, C90_xyz_truncated [_] _ hw (by simp) 3 (by simp [XyzFrame.lines, exXyz]),
    C90_xyz_truncated [_] _ hw (by simp) 1 (by simp [XyzFrame.lines, exXyz])⟩

example : relaxEtot exNum ([(⟨"   0".toList, " i =  1, E =  -7".toList, []⟩ : XyzFrame Rat)].flatMap XyzFrame.lines) = .ok (some [-7]) := by
  refine C90_relax_etot (na := 0) _ ?_ (by simp) [-7] (List.Forall₂.cons ⟨"-7".toList, by decide +kernel, by decide +kernel⟩ List.Forall₂.nil)
  intro f hf
  simp only [List.mem_singleton] at hf
  rw [hf]
  exact ⟨⟨2, by decide +kernel⟩, ⟨" ".toList, " 1, ".toList, "  -7".toList, by decide +kernel⟩, rfl, by simp⟩

end Pwtools.Cp2k
