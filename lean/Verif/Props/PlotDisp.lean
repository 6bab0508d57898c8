import Verif.Model.PlotDisp
import Verif.Spec.PlotDisp
import Verif.Props.PwText
import Verif.Props.Num
/-!
# C187: plots of dispersions
-/
namespace Pwtools.Pw
open Pwtools.Num Pwtools.Spec

theorem kVecs_eq (rows : List (List Rat × List Rat)) (k : Rows) (h : ∀ (i : Nat) (h : i < rows.length), k i = rows[i].1) :
    kVecs rows.length k = rows.map (fun r => kVec r.1) := by
  apply List.ext_getElem
  · simp [kVecs]
  · intro i h1 h2
    have hi : i < rows.length := by simpa using h2
    simp only [kVecs, List.getElem_map, List.getElem_range, h i hi]
    rfl

theorem plot_path (rows : List (List Rat × List Rat)) (h0 : rows ≠ []) : ∃ x, getPathNorm (rows.map (fun r => kVec r.1)) = some x ∧
    OnPath (rows.map Prod.fst) x ∧ x[0]? = (rows[0]?).map (fun r => vnorm (kVec r.1)) := by
  rcases rows with _ | ⟨r0, rest⟩
  · exact absurd rfl h0
  · obtain ⟨p, h1, h2, h3, h4⟩ := getPathNorm_get (kVec r0.1) (rest.map (fun r => kVec r.1))
    refine ⟨p, h1, ⟨by simp [h2], ?_⟩, by simpa using h3⟩
    intro i a b u v ha hb hu hv
    have e : kVec r0.1 :: rest.map (fun r => kVec r.1) = ((r0 :: rest).map Prod.fst).map kVec := by simp
    rw [e] at h4
    have := h4 i (kVec a) (kVec b) u v (by rw [List.getElem?_map, ha]; rfl) (by rw [List.getElem?_map, hb]; rfl) hu hv
    rw [this]
    ring

/-- C187: for a complete file there is one curve per band with one point per k-point; the curves share the positions on the path, and the value of
curve `j` at k-point `i` is frequency `j` of k-point `i`. The position of the first k-point is its distance from the origin. -/
theorem C187_curves_partial (tofloat : Text → Option Rat) (junkK junkF : Rows) (files : Text → Option (List Text)) (script fn : Text) (more : List Text)
    (line : Text) (nbnd : Nat) (data : List Text) (rows : List (List Rat × List Rat)) (hf : files fn = some (line :: data)) (h0 : rows ≠ [])
    (H : Header line nbnd rows.length) (hr : ∀ r ∈ rows, r.1.length = 3 ∧ r.2.length = nbnd)
    (hw : mapE tofloat (data.flatMap splitWs) = some (rows.map fun r => r.1 ++ r.2).flatten) :
    ∃ (x : List ℝ) (curves : List (List (ℝ × ℝ))), plotDispersion tofloat junkK junkF files (script :: fn :: more) = some curves ∧
      OnPath (rows.map Prod.fst) x ∧ x[0]? = (rows[0]?).map (fun r => euclid 0 (kVec r.1)) ∧ curves.length = nbnd ∧
      ∀ (j : Nat) (c : List (ℝ × ℝ)), curves[j]? = some c → c.length = rows.length ∧
        ∀ (i : Nat) (r : List Rat × List Rat) (u : ℝ) (w : Rat), rows[i]? = some r → x[i]? = some u → r.2[j]? = some w → c[i]? = some (u, (w : ℝ)) := by
  obtain ⟨k, f, e, hkf⟩ := C73_read_matdyn_freq tofloat junkK junkF line nbnd data rows H hr hw
  obtain ⟨x, hx, hp, hs⟩ := plot_path rows h0
  have hv : ∀ v : Fin 3 → ℝ, vnorm v = euclid 0 v := by
    intro v
    unfold vnorm euclid
    simp
  refine ⟨x, drawn rows.length nbnd x f, ?_, hp, by rw [hs]; simp only [hv], by simp [drawn], ?_⟩
  · unfold plotDispersion
    simp only [List.getElem?_cons_succ, List.getElem?_cons_zero, hf, e]
    rw [kVecs_eq rows k (fun i h => (hkf i h).1), hx]
  · intro j c hc
    have hlen : x.length = rows.length := by simpa using hp.1
    have hj : j < nbnd := by
      have := (List.getElem?_eq_some_iff.1 hc).1
      simpa [drawn] using this
    have ec : c = List.zip x ((List.range rows.length).map fun i : Nat => (((f i).getD j 0 : Rat) : ℝ)) := by
      unfold drawn at hc
      rw [List.getElem?_map, List.getElem?_range hj] at hc
      exact (Option.some.inj hc).symm
    refine ⟨by rw [ec]; simp [hlen], ?_⟩
    intro i r u w hri hu hw
    obtain ⟨hi, er⟩ := List.getElem?_eq_some_iff.1 hri
    rw [ec, List.getElem?_zip_eq_some]
    refine ⟨hu, ?_⟩
    rw [List.getElem?_map, List.getElem?_range hi]
    simp only [Option.map_some, Option.some.injEq]
    rw [(hkf i hi).2, er, List.getD_eq_getElem?_getD, hw]
    rfl

/-- C187: no name of a file, a missing file and an unreadable one raise; arguments after the name change nothing. -/
theorem C187_args (tofloat : Text → Option Rat) (junkK junkF : Rows) (files : Text → Option (List Text)) (script fn : Text) (more : List Text) :
    plotDispersion tofloat junkK junkF files [script] = none ∧
    (files fn = none → plotDispersion tofloat junkK junkF files (script :: fn :: more) = none) ∧
    (∀ lines, files fn = some lines → readMatdynFreq tofloat junkK junkF lines = none →
      plotDispersion tofloat junkK junkF files (script :: fn :: more) = none) ∧
    plotDispersion tofloat junkK junkF files (script :: fn :: more) = plotDispersion tofloat junkK junkF files [script, fn] := by
  refine ⟨rfl, ?_, ?_, rfl⟩
  · intro h
    simp [plotDispersion, h]
  · intro lines h h2
    simp [plotDispersion, h, h2]

/-- C187 is false for a truncated file: it is drawn, and the values of the missing k-points are whatever was in memory. -/
theorem C187_truncated_counterexample (tofloat : Text → Option Rat) (files : Text → Option (List Text)) (script fn : Text) (line : Text) (nbnd nks : Nat)
    (data : List Text) (rows : List (List Rat × List Rat)) (extra : List Rat) (hf : files fn = some (line :: data)) (H : Header line nbnd nks)
    (hr : ∀ r ∈ rows, r.1.length = 3 ∧ r.2.length = nbnd) (hx : extra.length < 3 + nbnd) (hlt : rows.length < nks) (hb : 1 ≤ nbnd)
    (hw : mapE tofloat (data.flatMap splitWs) = some ((rows.map fun r => r.1 ++ r.2).flatten ++ extra)) (w : Rat) :
    ∃ junkK junkF curves c u, plotDispersion tofloat junkK junkF files [script, fn] = some curves ∧ curves[0]? = some c ∧
      c[rows.length]? = some (u, (w : ℝ)) := by
  obtain ⟨k, f, e, _, hj⟩ := C73_truncated_counterexample tofloat (fun _ => [0, 0, 0]) (fun _ => List.replicate nbnd w) line nbnd nks data rows extra
    H hr hx hlt hw
  obtain ⟨k0, rest, hk⟩ : ∃ k0 rest, kVecs nks k = k0 :: rest := by
    cases h : kVecs nks k with
    | nil =>
      have := congrArg List.length h
      simp [kVecs] at this
      omega
    | cons a l => exact ⟨a, l, rfl⟩
  obtain ⟨p, h1, h2, _, _⟩ := getPathNorm_get k0 rest
  have hl : p.length = nks := by
    have := congrArg List.length hk
    simp [kVecs] at this
    omega
  refine ⟨fun _ => [0, 0, 0], fun _ => List.replicate nbnd w, drawn nks nbnd p f, List.zip p ((List.range nks).map fun i : Nat => (((f i).getD 0 0 : Rat) : ℝ)), p[rows.length]'(by omega), ?_, ?_, ?_⟩
  · unfold plotDispersion
    simp only [List.getElem?_cons_succ, List.getElem?_cons_zero, hf, e, hk, h1]
  · unfold drawn
    rw [List.getElem?_map, List.getElem?_range (by omega)]
    rfl
  · rw [List.getElem?_zip_eq_some]
    refine ⟨List.getElem?_eq_getElem _, ?_⟩
    rw [List.getElem?_map, List.getElem?_range hlt]
    simp only [Option.map_some, Option.some.injEq]
    rw [(hj rows.length (le_refl _)).2, List.getD_eq_getElem?_getD, List.getElem?_replicate_of_lt (by omega)]
    rfl

private def exHead : Header " &plot nbnd=   2, nks= 3 /".toList 2 3 where
  pre := " &plot".toList
  post := []
  w := fun i => match i with | 0 => [' '] | 2 => [' ', ' ', ' '] | 4 => [' '] | 6 => [' '] | 7 => [' '] | _ => []
  blank := by unfold Blank; decide
  w0 := by decide
  eq := by decide
  post_b := by decide

private def exNum (t : Text) : Option Rat := (parseInt t).map fun i => (i : Rat)

private def exData : List Text := ["  1 0 0 ".toList, "5".toList, "6 0 1 0 7 8".toList, "2 2 2 -3 4".toList]

/-- The hypotheses of `C187_curves_partial` for three k-points and two bands. -/
example : ∃ x curves, plotDispersion exNum (fun _ => []) (fun _ => []) (fun _ => some (" &plot nbnd=   2, nks= 3 /".toList :: exData))
      ["plot_dispersion.py".toList, "matdyn.freq".toList] = some curves ∧ OnPath [[1, 0, 0], [0, 1, 0], [2, 2, 2]] x ∧ curves.length = 2 := by
  obtain ⟨x, c, h1, h2, _, h4, _⟩ := C187_curves_partial exNum (fun _ => []) (fun _ => []) (fun _ => some (" &plot nbnd=   2, nks= 3 /".toList :: exData))
    "plot_dispersion.py".toList "matdyn.freq".toList [] " &plot nbnd=   2, nks= 3 /".toList 2 exData
    [([1, 0, 0], [5, 6]), ([0, 1, 0], [7, 8]), ([2, 2, 2], [-3, 4])] rfl (by simp) exHead (by decide) (by decide +kernel)
  exact ⟨x, c, h1, h2, h4⟩

/-- The same file without its last k-point. -/
example (w : Rat) : ∃ junkK junkF curves c u, plotDispersion exNum junkK junkF
      (fun _ => some (" &plot nbnd=   2, nks= 3 /".toList :: exData.dropLast)) ["plot_dispersion.py".toList, "matdyn.freq".toList] = some curves ∧
      curves[0]? = some c ∧ c[2]? = some (u, (w : ℝ)) :=
  C187_truncated_counterexample exNum (fun _ => some (" &plot nbnd=   2, nks= 3 /".toList :: exData.dropLast)) "plot_dispersion.py".toList
    "matdyn.freq".toList " &plot nbnd=   2, nks= 3 /".toList 2 3 exData.dropLast [([1, 0, 0], [5, 6]), ([0, 1, 0], [7, 8])] [] rfl exHead (by decide)
    (by decide) (by decide) (by decide) (by decide +kernel) w

end Pwtools.Pw
