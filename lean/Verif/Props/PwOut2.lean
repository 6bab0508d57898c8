import Verif.Props.PwOut
/-!
# The pw.x parser (C87): files with missing, surplus or unreadable numbers
-/
namespace Pwtools.PwOut
open Pwtools.Gr Pwtools.Spec

variable {K : Type} {num : Text → Option K}

/-- **C87**. Without the line with the number of atoms the getters which need it return `None`, also if there are position blocks. -/
theorem C87_no_natoms (file : List Text) (h : ∀ l ∈ file, ¬ NatomsLike l) :
    natoms file = .ok none ∧ coordsRaw num file = .ok none ∧ forcesRaw num file = .ok none ∧ getForces num file = .ok none ∧
    ∀ e, etotRaw num file = .ok e → getEtot num file = .ok none := by
  have h0 : natoms file = .ok none := by
    unfold natoms
    have : file.find? isNatoms = none := by
      rw [List.find?_eq_none]
      exact fun l hl hc => h l hl ((isNatoms_iff l).1 hc)
    rw [this]
  have h1 : coordsRaw num file = .ok none := by
    unfold coordsRaw
    rw [h0]
  refine ⟨h0, h1, by unfold forcesRaw; rw [h0], by unfold getForces; rw [h0], ?_⟩
  intro e he
  unfold getEtot
  rw [he, h1]
  cases e <;> rfl

/-- **C87**. If the number in any of the energy lines cannot be read (overflow prints stars), then the file is refused, whatever else it contains. -/
theorem C87_bad_energy (file : List Text) (l : Text) (hl : l ∈ file) (hb : Matches .energy l) (w : Text) (hw : (splitWs l)[4]? = some w)
    (hn : num w = none) : etotRaw num file = .error .value ∧ getEtot num file = .error .value := by
  have hne : w ≠ [] := splitWs_ne_nil l w (List.mem_of_getElem? hw)
  have hawk : awk [5] l = [w] := by
    unfold awk
    simp [List.getD_eq_getElem?_getD, hw, hne]
  have hmem : [w] ∈ (file.filter isEnergy).map (awk [5]) := by
    rw [← hawk]
    refine List.mem_map.2 ⟨l, List.mem_filter.2 ⟨hl, ?_⟩, rfl⟩
    obtain ⟨b, rfl⟩ := hb
    rfl
  have key : etotRaw num file = .error .value := by
    unfold etotRaw arr1d
    rw [if_neg]
    · have : loadRows num ((file.filter isEnergy).map (awk [5])) = .error .value := by
        unfold loadRows
        simp only
        have hm : [w] ∈ ((file.filter isEnergy).map (awk [5])).filter (· ≠ []) := List.mem_filter.2 ⟨hmem, by simp⟩
        generalize ((file.filter isEnergy).map (awk [5])).filter (· ≠ []) = L at hm
        have : L.mapM (fun r => r.mapM num) = none := by
          clear hmem
          induction L with
          | nil => simp at hm
          | cons r L ih =>
            rw [List.mapM_cons]
            rcases List.mem_cons.1 hm with rfl | hm
            · simp [hn]
            · rw [ih hm]
              cases r.mapM num <;> rfl
        rw [this]
      rw [this]
    · intro hc
      have : w ∈ ((file.filter isEnergy).map (awk [5])).flatten := List.mem_flatten.2 ⟨[w], hmem, by simp⟩
      rw [hc] at this
      simp at this
  exact ⟨key, by unfold getEtot; rw [key]⟩

theorem fromString_all (ws : List Text) (h : ∀ w ∈ ws, num w ≠ none) : (fromString num ws).length = ws.length := by
  induction ws with
  | nil => rfl
  | cons w ws ih =>
    rw [fromString]
    cases hw : num w with
    | none => exact absurd hw (h w (by simp))
    | some x => simp [ih fun v hv => h v (by simp [hv])]

/-- **C87**. A cell block with surplus numbers in its rows is refused: no numbers are silently left out. -/
theorem C87_surplus {na : Nat} {blocks : List (Block K)} (pre : List Text) (hq : ∀ l ∈ pre, Quiet l)
    (hw : ∀ b ∈ blocks, b.Wf num na) (hd : Text) (hh : Only .cell hd) (rs : List Text) (hr : ∀ l ∈ rs, Quiet l ∧ NoDash l)
    (hlen : rs.length = 3) (hnum : ∀ l ∈ rs, ∀ w ∈ splitWs l, num w ≠ none) (hmany : 9 < (rs.flatMap splitWs).length) :
    cell3d num (pre ++ (blocks.flatMap Block.lines ++ hd :: rs)) = .error .value := by
  have hb : ∀ b ∈ blocks, RowBlocks num kCell 3 splitWs cellRows b := fun b hb => cell_rowBlocks num na b (hw b hb)
  have hquiet : ∀ l ∈ pre, isInfix kCell l = false := fun l hl => test_quiet (hq l hl) .cell
  have hhd : isInfix kCell hd = true := (matches_cell hd).2 ((hh .cell).2 rfl)
  have hcount : ((pre ++ (blocks.flatMap Block.lines ++ hd :: rs)).filter (isInfix kCell)).length = (blocks.filterMap cellRows).length + 1 := by
    rw [filter_pre _ _ _ hquiet, List.filter_append, List.length_append, count_rows blocks hb, List.filter_cons, if_pos hhd,
      filter_none (isInfix kCell) rs fun l hl => test_quiet (hr l hl).1 .cell]
    rfl
  have hrows : ∀ l ∈ rs, isInfix kCell l = false ∧ (!isInfix kCell l && !isInfix "--".toList l) = true := by
    intro l hl
    have h1 : isInfix kCell l = false := test_quiet (hr l hl).1 .cell
    rw [h1, (noDash_iff l).2 (hr l hl).2]
    exact ⟨rfl, rfl⟩
  have hpick : grepAfter 3 kCell (pre ++ (blocks.flatMap Block.lines ++ hd :: rs)) =
      (blocks.filterMap cellRows).flatMap (fun rows => rows.map Prod.fst) ++ rs := by
    rw [grepAfter_eq, pick_other _ _ _ _ _ hquiet, pick_blocks blocks _ hb]
    congr 1
    simp only [pick, hhd, if_true]
    have := pick_rows 3 (isInfix kCell) (fun l => !isInfix kCell l && !isInfix "--".toList l) rs [] 3 hrows hlen.le
    rw [List.append_nil] at this
    rw [this]
    simp [pick]
  have hall : ∀ rows ∈ blocks.filterMap cellRows, rows.length = 3 ∧ ∀ r ∈ rows, (splitWs r.1).length = 3 ∧ ∀ w ∈ splitWs r.1, num w ≠ none := by
    intro rows hr'
    obtain ⟨b, hb', hs⟩ := List.mem_filterMap.1 hr'
    obtain ⟨_, _, _, h2, h3⟩ := (hb b hb').some rows hs
    refine ⟨h2, fun r hm => ?_⟩
    obtain ⟨-, -, h4, h5⟩ := h3 r hm
    refine ⟨?_, fun w hw' hc => ?_⟩
    · have := congrArg List.length h4
      simpa [h5] using this
    · have : none ∈ (splitWs r.1).map num := List.mem_map.2 ⟨w, hw', hc⟩
      rw [h4] at this
      simp at this
  unfold cell3d
  rw [hcount, hpick]
  generalize blocks.filterMap cellRows = L at hall
  have hl : ((L.flatMap fun rows => rows.map Prod.fst).flatMap splitWs).length = L.length * 9 := by
    clear hcount hpick
    induction L with
    | nil => rfl
    | cons rows L ih =>
      obtain ⟨h1, h2⟩ := hall rows (by simp)
      rw [List.flatMap_cons, List.flatMap_append, List.length_append, ih fun x hx => hall x (by simp [hx]), List.flatMap_map,
        flatMap_length_const _ 3 rows fun r hm => (h2 r hm).1, h1, List.length_cons]
      ring
  have hns : ∀ w ∈ ((L.flatMap fun rows => rows.map Prod.fst) ++ rs).flatMap splitWs, num w ≠ none := by
    intro w hw'
    obtain ⟨l, hl', hw'⟩ := List.mem_flatMap.1 hw'
    rcases List.mem_append.1 hl' with hl' | hl'
    · obtain ⟨rows, hm, hl'⟩ := List.mem_flatMap.1 hl'
      obtain ⟨r, hr', rfl⟩ := List.mem_map.1 hl'
      exact ((hall rows hm).2 r hr').2 w hw'
    · exact hnum l hl' w hw'
  unfold trajFromTxt
  rw [if_neg]
  · simp only [fromString_all _ hns]
    rw [if_neg]
    rw [List.flatMap_append, List.length_append, hl]
    omega
  · intro hc
    have := congrArg List.length hc
    rw [List.flatMap_append, List.length_append, List.length_nil] at this
    omega

/-! ## examples -/

example : coordsRaw exNum ["ATOMIC_POSITIONS (bohr)".toList, "H 1 2 3".toList] = .ok none := by
  refine (C87_no_natoms (num := exNum) _ ?_).2.1
  intro l hl hc
  have h1 := (isNatoms_iff l).2 hc
  have h2 : ∀ l ∈ ["ATOMIC_POSITIONS (bohr)".toList, "H 1 2 3".toList], isNatoms l = false := by decide +kernel
  rw [h2 l hl] at h1
  cases h1

example : etotRaw exNum ["!    total energy = -1 Ry".toList, "!    total energy = ******** Ry".toList] = .error .value :=
  (C87_bad_energy _ "!    total energy = ******** Ry".toList (by simp) ⟨"    total energy = ******** Ry".toList, by decide +kernel⟩ "********".toList
    (by decide +kernel) (by decide +kernel)).1

example : cell3d exNum ([] ++ (([] : List (Block Rat)).flatMap Block.lines ++
    "CELL_PARAMETERS (bohr)".toList :: ["1 0 0 7".toList, "0 1 0".toList, "0 0 1".toList])) = .error .value := by
  refine C87_surplus (na := 1) [] (by simp) (by simp) _ (only_of .cell _ (by intro k; cases k <;> decide +kernel)) _ ?_ rfl (by decide +kernel)
    (by decide +kernel)
  have h : ∀ l ∈ ["1 0 0 7".toList, "0 1 0".toList, "0 0 1".toList], ∀ k ∈ [Key.pos, .cell, .stress, .energy, .forceHead, .force],
    test k l = false := by decide +kernel
  have h2 : ∀ l ∈ ["1 0 0 7".toList, "0 1 0".toList, "0 0 1".toList], isInfix "--".toList l = false := by decide +kernel
  exact fun l hl => ⟨quiet_of l fun k => h l hl k (by cases k <;> simp), (noDash_iff l).1 (by rw [h2 l hl])⟩

end Pwtools.PwOut
