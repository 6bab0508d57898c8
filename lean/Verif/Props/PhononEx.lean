import Verif.Props.PhononMain
/-!
# A concrete case for every theorem about phonon files (C94)
-/
namespace Pwtools.Ph
open Pwtools.Gr Pwtools.Spec Pwtools.Lmp

theorem not_q {l : Text} (h : isQ l = false) : ¬ QLike l := fun hc => by
  rw [(isQ_iff l).2 hc] at h
  exact absurd h (by decide)

theorem not_vec {l : Text} (h : isVec l = false) : ¬ VecLike l := fun hc => by
  rw [(isVec_iff l).2 hc] at h
  exact absurd h (by decide)

theorem not_has {key l : Text} (h : isInfix key l = false) : ¬ Has key l := fun hc => by
  rw [(has_iff key l).2 hc] at h
  exact absurd h (by decide)

theorem blank_of {t : Text} (h : t.all isPySpace = true) : BlankText t := fun c hc => List.all_eq_true.1 h c hc

def exOmega (a n : String) : Text := "  omega(".toList ++ a.toList ++ ") = 7 [THz] = ".toList ++ n.toList ++ " [cm-1]".toList

def exMode (a n : String) (x : Int) (y : String) (v : Int) : PhMode Int :=
  ⟨exOmega a n, x, [(" ( 1 0 ".toList ++ y.toList ++ " 0 -2 0 ) ".toList, [(1, 0), (v, 0), (-2, 0)])]⟩

def exBlock (qline : String) (q : List Int) : PhQ Int :=
  ⟨["  diagonalizing".toList, []], qline.toList, q, ["****".toList], [exMode "1" "-12" (-12) "3" 3, exMode "2" "34" 34 "4" 4,
    exMode "3" "56" 56 "5" 5]⟩

theorem exOmega_wf (a n : String) (x : Int) (h : (a, n, x) = ("1", "-12", -12) ∨ (a, n, x) = ("2", "34", 34) ∨ (a, n, x) = ("3", "56", 56)) :
    OmegaLine parseInt (exOmega a n) x := by
  have h1 : isQ (exOmega a n) = false ∧ isVec (exOmega a n) = false ∧ splitWs (" ".toList ++ n.toList ++ " ".toList) = [n.toList] ∧
      parseInt n.toList = some x ∧ '=' ∉ " ".toList ++ n.toList ++ " ".toList ∧
      exOmega a n = "  ".toList ++ ("omega".toList ++ ("(".toList ++ a.toList ++ ") ".toList ++ '=' :: (" 7 ".toList ++ '[' ::
        ("THz] ".toList ++ '=' :: (" ".toList ++ n.toList ++ " ".toList ++ '[' :: "cm-1]".toList))))) := by
    rcases h with h | h | h <;>
    · simp only [Prod.mk.injEq] at h
      obtain ⟨h1, h2, h3⟩ := h
      rw [h1, h2, h3]
      decide +kernel
  obtain ⟨h1, h2, h3, h4, h5, h6⟩ := h1
  exact ⟨not_q h1, not_vec h2, "  ".toList, "(".toList ++ a.toList ++ ") ".toList, " 7 ".toList, "THz] ".toList,
    " ".toList ++ n.toList ++ " ".toList, "cm-1]".toList, n.toList, h6, h5, by decide, h3, h4⟩

theorem exMode_wf (a n : String) (x : Int) (y : String) (v : Int)
    (h : (a, n, x) = ("1", "-12", -12) ∨ (a, n, x) = ("2", "34", 34) ∨ (a, n, x) = ("3", "56", 56))
    (hy : (y, v) = ("3", 3) ∨ (y, v) = ("4", 4) ∨ (y, v) = ("5", 5)) : (exMode a n x y v).Wf parseInt := by
  refine ⟨exOmega_wf a n x h, ?_⟩
  intro r hr
  have hr := List.mem_singleton.1 hr
  have h1 : isQ (" ( 1 0 ".toList ++ y.toList ++ " 0 -2 0 ) ".toList) = false ∧
      isInfix "omega".toList (" ( 1 0 ".toList ++ y.toList ++ " 0 -2 0 ) ".toList) = false ∧
      (splitWs (" 1 0 ".toList ++ y.toList ++ " 0 -2 0 ".toList)).map parseInt = [some 1, some 0, some v, some 0, some (-2), some 0] := by
    rcases hy with h | h | h <;>
    · simp only [Prod.mk.injEq] at h
      obtain ⟨h1, h2⟩ := h
      rw [h1, h2]
      decide +kernel
  obtain ⟨h1, h2, h3⟩ := h1
  rw [hr]
  exact ⟨not_q h1, not_has h2, 1, " 1 0 ".toList ++ y.toList ++ " 0 -2 0 ".toList, " ".toList, (1, 0), (v, 0), (-2, 0),
    by simp, blank_of (by decide), rfl, h3⟩

theorem exOther {l : Text} (h : isQ l = false ∧ isVec l = false ∧ isOmega l = false) : OtherLine l :=
  ⟨not_q h.1, not_vec h.2.1, not_has h.2.2⟩

theorem exBlock_modes (s : String) (q : List Int) : ∀ m ∈ (exBlock s q).modes, m.Wf parseInt := by
  intro m hm
  simp only [exBlock, List.mem_cons, List.not_mem_nil, or_false] at hm
  rcases hm with rfl | rfl | rfl
  · exact exMode_wf _ _ _ _ _ (by simp) (by simp)
  · exact exMode_wf _ _ _ _ _ (by simp) (by simp)
  · exact exMode_wf _ _ _ _ _ (by simp) (by simp)

theorem exBlock_other (s : String) (q : List Int) : (∀ l ∈ (exBlock s q).pre, OtherLine l) ∧ ∀ l ∈ (exBlock s q).mid, OtherLine l := by
  constructor
  · intro l hl
    simp only [exBlock, List.mem_cons, List.not_mem_nil, or_false] at hl
    rcases hl with h | h
    · rw [h]
      exact exOther (by decide +kernel)
    · rw [h]
      exact exOther (by decide +kernel)
  · intro l hl
    simp only [exBlock, List.mem_cons, List.not_mem_nil, or_false] at hl
    rw [hl]
    exact exOther (by decide +kernel)

theorem exBlock_complete (s : String) (q : List Int) : (exBlock s q).Complete 1 := by
  refine ⟨rfl, ?_⟩
  intro m hm
  simp only [exBlock, List.mem_cons, List.not_mem_nil, or_false] at hm
  rcases hm with rfl | rfl | rfl <;> rfl

theorem exBlock_wf1 : (exBlock "  q = 0 0 0" [0, 0, 0]).Wf parseInt := by
  refine ⟨(exBlock_other _ _).1, ⟨not_vec (by decide +kernel), not_has (by decide +kernel), rfl, "  ".toList, " ".toList, " 0 0 0".toList,
    by decide +kernel, blank_of (by decide), no_q (by decide), by decide +kernel⟩, (exBlock_other _ _).2, exBlock_modes _ _⟩

theorem exBlock_wf2 : (exBlock "  q = 0 0 5" [0, 0, 5]).Wf parseInt := by
  refine ⟨(exBlock_other _ _).1, ⟨not_vec (by decide +kernel), not_has (by decide +kernel), rfl, "  ".toList, " ".toList, " 0 0 5".toList,
    by decide +kernel, blank_of (by decide), no_q (by decide), by decide +kernel⟩, (exBlock_other _ _).2, exBlock_modes _ _⟩

/-- A file with two q-points, one atom: read as it is; refused for two atoms. -/
example :
    readMatdynModes parseInt ([exBlock "  q = 0 0 0" [0, 0, 0], exBlock "  q = 0 0 5" [0, 0, 5]].flatMap PhQ.lines ++ ["****".toList])
        (some 1) =
      .ok ⟨[[0, 0, 0], [0, 0, 5]], [[-12, 34, 56], [-12, 34, 56]],
        [[[[(1, 0), (3, 0), (-2, 0)]], [[(1, 0), (4, 0), (-2, 0)]], [[(1, 0), (5, 0), (-2, 0)]]],
         [[[(1, 0), (3, 0), (-2, 0)]], [[(1, 0), (4, 0), (-2, 0)]], [[(1, 0), (5, 0), (-2, 0)]]]]⟩ ∧
    ∃ e, readMatdynModes parseInt ([exBlock "  q = 0 0 0" [0, 0, 0], exBlock "  q = 0 0 5" [0, 0, 5]].flatMap PhQ.lines ++ ["****".toList])
        (some 2) = .error e := by
  have hw : ∀ b ∈ [exBlock "  q = 0 0 0" [0, 0, 0], exBlock "  q = 0 0 5" [0, 0, 5]], b.Wf parseInt := by
    intro b hb
    simp only [List.mem_cons, List.not_mem_nil, or_false] at hb
    rcases hb with h | h
    · rw [h]
      exact exBlock_wf1
    · rw [h]
      exact exBlock_wf2
  have hc : ∀ b ∈ [exBlock "  q = 0 0 0" [0, 0, 0], exBlock "  q = 0 0 5" [0, 0, 5]], b.Complete 1 := by
    intro b hb
    simp only [List.mem_cons, List.not_mem_nil, or_false] at hb
    rcases hb with h | h
    · rw [h]
      exact exBlock_complete _ _
    · rw [h]
      exact exBlock_complete _ _
  have ht : ∀ l ∈ ["****".toList], OtherLine l := by
    intro l hl
    rw [List.mem_singleton.1 hl]
    exact exOther (by decide +kernel)
  exact ⟨C94_modes _ _ 1 (by norm_num) (by simp) hw hc ht, C94_wrong_natoms _ _ 1 2 (by norm_num) (by simp) hw hc ht⟩

theorem exBlock_dyn1 : (exBlock "  q = ( 0 0 0 ) " [0, 0, 0]).WfDyn parseInt := by
  refine ⟨fun l hl => ⟨((exBlock_other "" []).1 l hl).omega, fun hv => absurd hv ((exBlock_other "" []).1 l hl).vec⟩,
    ⟨not_has (by decide +kernel), rfl, "  ".toList, " ".toList, " ".toList, " 0 0 0 ".toList, " ".toList,
    by decide +kernel, blank_of (by decide), blank_of (by decide), by decide, by decide +kernel⟩, (exBlock_other _ _).2, exBlock_modes _ _⟩

theorem exBlock_dyn2 : (exBlock "  q = ( 0 0 5 ) " [0, 0, 5]).WfDyn parseInt := by
  refine ⟨fun l hl => ⟨((exBlock_other "" []).1 l hl).omega, fun hv => absurd hv ((exBlock_other "" []).1 l hl).vec⟩,
    ⟨not_has (by decide +kernel), rfl, "  ".toList, " ".toList, " ".toList, " 0 0 5 ".toList, " ".toList,
    by decide +kernel, blank_of (by decide), blank_of (by decide), by decide, by decide +kernel⟩, (exBlock_other _ _).2, exBlock_modes _ _⟩

/-- Two files for the same data. -/
example : readAllDyn parseInt [(exBlock "  q = ( 0 0 0 ) " [0, 0, 0]).lines ++ [], (exBlock "  q = ( 0 0 5 ) " [0, 0, 5]).lines ++ ["**".toList]] 1 =
      .ok ⟨[[0, 0, 0], [0, 0, 5]], [[-12, 34, 56], [-12, 34, 56]],
        [[[[(1, 0), (3, 0), (-2, 0)]], [[(1, 0), (4, 0), (-2, 0)]], [[(1, 0), (5, 0), (-2, 0)]]],
         [[[(1, 0), (3, 0), (-2, 0)]], [[(1, 0), (4, 0), (-2, 0)]], [[(1, 0), (5, 0), (-2, 0)]]]]⟩ := by
  apply C94_all_dyn [exBlock "  q = ( 0 0 0 ) " [0, 0, 0], exBlock "  q = ( 0 0 5 ) " [0, 0, 5]] [[], ["**".toList]] 1 (by norm_num) rfl
  · intro b hb
    simp only [List.mem_cons, List.not_mem_nil, or_false] at hb
    rcases hb with h | h
    · rw [h]
      exact exBlock_dyn1
    · rw [h]
      exact exBlock_dyn2
  · intro b hb
    simp only [List.mem_cons, List.not_mem_nil, or_false] at hb
    rcases hb with h | h
    · rw [h]
      exact exBlock_complete _ _
    · rw [h]
      exact exBlock_complete _ _
  · intro t ht l hl
    simp only [List.mem_cons, List.not_mem_nil, or_false] at ht
    rcases ht with h | h
    · rw [h] at hl
      simp at hl
    · rw [h] at hl
      rw [List.mem_singleton.1 hl]
      exact exOther (by decide +kernel)

def exAxsf (u : String) (n : Int) : Axsf Int := ⟨"PRIMCOORD 1".toList, "  1 1".toList, [("  Al 0 1 2 ".toList ++ u.toList ++ " 8 9".toList, [n, 8, 9])]⟩

theorem exAxsf_wf (u : String) (n : Int) (h : (u, n) = ("3", 3) ∨ (u, n) = ("4", 4) ∨ (u, n) = ("5", 5)) : (exAxsf u n).Wf parseInt 1 := by
  refine ⟨(has_iff _ _).1 (by decide +kernel : isInfix "PRIMCO".toList "PRIMCOORD 1".toList = true), not_has (by decide +kernel :
    isInfix "PRIMCO".toList "  1 1".toList = false), rfl, ?_⟩
  intro r hr
  have h1 : isInfix "PRIMCO".toList ("  Al 0 1 2 ".toList ++ u.toList ++ " 8 9".toList) = false ∧
      splitWs ("  Al 0 1 2 ".toList ++ u.toList ++ " 8 9".toList) = ["Al".toList, "0".toList, "1".toList, "2".toList, u.toList, "8".toList, "9".toList] ∧
      [parseInt u.toList, parseInt "8".toList, parseInt "9".toList] = [n, 8, 9].map some := by
    rcases h with h | h | h <;>
    · simp only [Prod.mk.injEq] at h
      obtain ⟨h1, h2⟩ := h
      rw [h1, h2]
      decide +kernel
  obtain ⟨h1, h2, h3⟩ := h1
  rw [List.mem_singleton.1 hr]
  exact ⟨not_has h1, _, _, _, _, _, _, _, h2, h3⟩

def exTable : List (Text × List Int) :=
  [(" 1 10 0 7".toList, [1, 10, 0, 7]), (" 2 20 0 8".toList, [2, 20, 0, 8]), (" 3 30 0 9".toList, [3, 30, 0, 9])]

def exOut : List Text := ["# multiply".toList] ++ "# mode   [cm-1]    [THz]   IR".toList :: (exTable.map Prod.fst ++ ["".toList, "  DYNMAT".toList])

theorem exOut_wf : DynmatOut parseInt (3 * 1) 4 exOut exTable := by
  refine ⟨⟨["# multiply".toList], "# mode   [cm-1]    [THz]   IR".toList, ["".toList, "  DYNMAT".toList], rfl,
    ⟨"# ".toList, "   [".toList, "]    [THz]   IR".toList, by decide +kernel⟩, ?_⟩, rfl, by norm_num, ?_⟩
  · intro l hl
    have h1 : ∀ l ∈ ["# multiply".toList] ++ ["".toList, "  DYNMAT".toList], isInfix "mode".toList l = false := by decide +kernel
    rintro ⟨a, b, c, e⟩
    exact not_has (h1 l hl) ⟨a, _, by rw [e, List.append_assoc]⟩
  · intro r hr
    have h1 : ∀ r ∈ exTable, isInfix "mode".toList r.1 = false ∧ r.2.length = 4 ∧ (splitWs r.1).map parseInt = r.2.map some := by
      decide +kernel
    obtain ⟨a, b, c⟩ := h1 r hr
    exact ⟨not_has a, b, c⟩

theorem exAxsfs_wf : ∀ b ∈ [exAxsf "3" 3, exAxsf "4" 4, exAxsf "5" 5], b.Wf parseInt 1 := by
  intro b hb
  simp only [List.mem_cons, List.not_mem_nil, or_false] at hb
  rcases hb with rfl | rfl | rfl
  · exact exAxsf_wf _ _ (by simp)
  · exact exAxsf_wf _ _ (by simp)
  · exact exAxsf_wf _ _ (by simp)

theorem exAxsf_pre : ∀ l ∈ ["ANIMSTEPS 3".toList] ++ ([] : List Text), ¬ Has "PRIMCO".toList l := by
  intro l hl
  have h1 : ∀ l ∈ ["ANIMSTEPS 3".toList] ++ ([] : List Text), isInfix "PRIMCO".toList l = false := by decide +kernel
  exact not_has (h1 l hl)

example : readDynmat parseInt exOut (["ANIMSTEPS 3".toList] ++ ([exAxsf "3" 3, exAxsf "4" 4, exAxsf "5" 5].flatMap Axsf.lines ++ [])) (some 1) =
    .ok ⟨[0, 0, 0], [10, 20, 30], [[[3, 8, 9]], [[4, 8, 9]], [[5, 8, 9]]]⟩ :=
  C94_dynmat exOut _ 1 4 (by norm_num) _ [] _ rfl exAxsf_pre exAxsfs_wf rfl exTable exOut_wf

/-- Cut after two rows. -/
example : ∃ out r, out <+: exOut ∧ readDynmat parseInt out
    (["ANIMSTEPS 3".toList] ++ ([exAxsf "3" 3, exAxsf "4" 4, exAxsf "5" 5].flatMap Axsf.lines ++ [])) (some 1) = .ok r ∧
    r.freqs.length = 2 ∧ r.vecs.length = 3 * 1 :=
  C94_short_counterexample _ 1 4 _ [] _ rfl exAxsf_pre exAxsfs_wf rfl exTable exOut exOut_wf 2 (by norm_num)

example : readIrRaman parseInt exOut (some 1) = .ok (some [[1, 10, 0, 7], [2, 20, 0, 8], [3, 30, 0, 9]]) :=
  C94_table exOut 1 4 (by norm_num) exTable exOut_wf

/-- Four columns: frequencies and IR are there, Raman is not. -/
example : ∃ d, irRamanCols parseInt exOut (some 1) [(1, "freqs".toList), (3, "ir".toList), (4, "raman".toList)] = .ok d ∧
    d.map Prod.snd = [some [10, 20, 30], some [7, 8, 9], none] := by
  obtain ⟨d, h1, h2⟩ := C94_columns exOut 1 4 (by norm_num) exTable exOut_wf [(1, "freqs".toList), (3, "ir".toList), (4, "raman".toList)]
  refine ⟨d, h1, ?_⟩
  cases h2 with
  | cons a h2 =>
    cases h2 with
    | cons b h2 =>
      cases h2 with
      | cons c h2 =>
        cases h2
        obtain ⟨v, v1, v2⟩ := a.2.1 (by norm_num)
        obtain ⟨w, w1, w2⟩ := b.2.1 (by norm_num)
        have hv : v = [10, 20, 30] := (List.map_inj_right fun x y h => Option.some.inj h).1 v2
        have hw : w = [7, 8, 9] := (List.map_inj_right fun x y h => Option.some.inj h).1 w2
        simp [v1, w1, hv, hw, c.2.2 (by norm_num)]

end Pwtools.Ph
