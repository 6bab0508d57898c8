import Verif.Model.ReadMd
import Verif.Props.PwMd
/-!
# Lemmas about `get_traj()` of the MD parsers
-/
namespace Pwtools.ReadMd
open Gr Tr Units PwMd Spec
variable {K : Type}

theorem units_of [Field K] (c : Consts K) (hist : List (Kind × UDict K)) (k : Kind) (user : UDict K) (q : Qty) (hr : returns k q = true)
    (hx : k ≠ .cp2kScf) : (create c (after c hist) k user).2 q = (user q).getD (factor c k q) := by
  cases hu : user q with
  | some x => rw [C86_user_units c hist k user q x hu]; rfl
  | none =>
    rw [Option.getD_none, ← C86_units_partial c hist k q hr (by simp [hx])]
    simp [create, hu]

/-- What the container holds in the end. -/
theorem toTraj_attr [Field K] [DecidableEq K] (c : Consts K) (hist : List (Kind × UDict K)) (k : Kind) (user : UDict K) (g : Getters K (Val K))
    (attrs : UAttr → Option (Val K)) (cc : Option (CC K)) (hcc : cc ≠ some .bad) :
    ∃ tr, toTraj c hist k user g attrs cc = .ok tr ∧
      (∀ x v, x ≠ .cell → x ≠ .other "nstep" → attrs x = some v → tr.attr x = some (v.scale (unitFactor (create c (after c hist) k user).2 x))) ∧
      (∀ v, attrs .cell = some v → ∃ f : Val K → Val K, (∀ m, (∀ x, m ≠ .arr [x]) → (∀ x, m ≠ .mat x) → f m = m) ∧
        tr.attr .cell = some (f (v.scale ((create c (after c hist) k user).2 .length)))) ∧
      (∀ n, (∃ p, attrs .coords = some (.arr p) ∧ p.length = n) ∨ (attrs .coords = none ∧ ∃ p, attrs (.other "coords_frac") = some (.arr p) ∧ p.length = n) →
        tr.attr (.other "nstep") = some (.nat n) ∧
        ∀ v, attrs .cell = some v → tr.attr .cell = some (extendCell n (v.scale ((create c (after c hist) k user).2 .length)))) := by
  generalize hU : (create c (after c hist) k user).2 = U
  have hr : ∃ tr, toTraj c hist k user g attrs cc = .ok tr ∧ ∀ x v, extend (scaleUnits U unitsMap attrs) x = some v → tr.attr x = some v := by
    unfold toTraj
    have : ∃ cc', scaleCC (U .length) cc = .ok cc' := by
      match cc, hcc with
      | none, _ => exact ⟨_, rfl⟩
      | some (.one r), _ => exact ⟨_, rfl⟩
      | some (.many r), _ => exact ⟨_, rfl⟩
      | some .bad, h => exact absurd rfl h
    obtain ⟨cc', h⟩ := this
    simp only [applyUnits, applyUnitsRaw, hU, h, Bool.false_eq_true, if_false]
    refine ⟨_, rfl, fun x v hv => ?_⟩
    show (extend (scaleUnits _ unitsMap attrs) x).or _ = _
    rw [hv]
    rfl
  obtain ⟨tr, h1, h2⟩ := hr
  refine ⟨tr, h1, fun x v hx1 hx2 hv => h2 _ _ ?_, fun v hv => ?_, fun n hn => ?_⟩
  · unfold extend
    cases nstep (scaleUnits U unitsMap attrs) with
    | none => simp only [scale_each, hv, Option.map_some]
    | some n => simp only [if_neg hx1, if_neg hx2, scale_each, hv, Option.map_some]
  · cases hn : nstep (scaleUnits U unitsMap attrs) with
    | none =>
      refine ⟨id, fun _ _ _ => rfl, h2 _ _ ?_⟩
      unfold extend
      rw [hn]
      simp only [scale_each, hv, Option.map_some]
      rfl
    | some n =>
      refine ⟨extendCell n, fun m h3 h4 => ?_, h2 _ _ ?_⟩
      · match m with
        | .arr [x] => exact absurd rfl (h3 x)
        | .mat x => exact absurd rfl (h4 x)
        | .arr [] | .arr (_ :: _ :: _) | .num _ | .vec _ | .words _ | .nat _ => rfl
      · unfold extend
        rw [hn]
        simp only [if_true, scale_each, hv, Option.map_some]
        rfl
  · have hx : nstep (scaleUnits U unitsMap attrs) = some n := by
      have e := fun x => scale_each U attrs x
      unfold nstep
      rw [e .coords, e (.other "coords_frac")]
      rcases hn with ⟨p, h1, h2⟩ | ⟨h0, p, h1, h2⟩
      · rw [h1]
        simp [Val.scale, h2]
      · rw [h0, h1]
        simp [Val.scale, h2]
    have he : extend (scaleUnits U unitsMap attrs) = fun a =>
        if a = .cell then (scaleUnits U unitsMap attrs .cell).map (extendCell n)
        else if a = .other "nstep" then some (.nat n) else scaleUnits U unitsMap attrs a := by
      unfold extend
      rw [hx]
    refine ⟨h2 _ _ ?_, fun v hv => h2 _ _ ?_⟩
    · rw [he]
      simp
    · rw [he]
      simp only [if_true]
      rw [scale_each, hv]
      rfl

/-- Crystallographic constants with a row per step: the lengths are scaled. -/
theorem toTraj_cc [Field K] [DecidableEq K] (c : Consts K) (hist : List (Kind × UDict K)) (k : Kind) (user : UDict K) (g : Getters K (Val K))
    (attrs : UAttr → Option (Val K)) (cc : Option (CC K)) (rows : List (List K)) (hcc : cc = some (.many rows)) (h2 : 2 ≤ rows.length) (tr : UObj K (Val K))
    (ht : toTraj c hist k user g attrs cc = .ok tr) : tr.cc = some (.many (rows.map (scaleRow ((create c (after c hist) k user).2 .length)))) := by
  unfold toTraj at ht
  rw [hcc] at ht
  simp only [applyUnits, applyUnitsRaw, scaleCC, Bool.false_eq_true, if_false] at ht
  injection ht with ht
  rw [← ht]
  generalize (create c (after c hist) k user).2 .length = u
  show (extendObjCC _).or _ = _
  have : ∀ n, extendCC n (CC.many (rows.map (scaleRow u))) = CC.many (rows.map (scaleRow u)) := by
    intro n
    match rows, h2 with
    | _ :: _ :: _, _ => rfl
  unfold extendObjCC
  split
  · rfl
  · simp only [Option.map_some, this]
    rfl

/-- **C93** Lattice constants which a parser found once for the whole run (a row, or an array with one row): the trajectory has them in each of its `n` steps, with
scaled lengths. Other shapes are not repeated. -/
theorem C93_parsed_cc [Field K] [DecidableEq K] (c : Consts K) (hist : List (Kind × UDict K)) (k : Kind) (user : UDict K) (g : Getters K (Val K))
    (attrs : UAttr → Option (Val K)) (row : List K) (cc : CC K) (hcc : cc = .one row ∨ cc = .many [row]) (p : List (List (List K)))
    (hp : attrs .coords = some (.arr p)) :
    ∃ tr row', toTraj c hist k user g attrs (some cc) = .ok tr ∧ ScaledRow ((create c (after c hist) k user).2 .length) row row' ∧
      (row.length = 6 → tr.cc = some (.many (List.replicate p.length row'))) ∧
      (row.length ≠ 6 → (cc = .one row → tr.cc = some (.one row')) ∧ (cc = .many [row] → tr.cc = some (.many [row']))) := by
  generalize hU : (create c (after c hist) k user).2 = U
  have hn : PwMd.nstep (scaleUnits U unitsMap attrs) = some p.length := by
    unfold PwMd.nstep
    rw [scale_each, hp]
    show some ((p.map _).length) = _
    rw [List.length_map]
  have hlen : (scaleRow (U .length) row).length = row.length := by
    simp [scaleRow]
    omega
  have hrow : ScaledRow (U .length) row (scaleRow (U .length) row) := by
    refine ⟨hlen, fun i x hx => ?_⟩
    have hi : i < row.length := by
      by_contra h
      rw [List.getElem?_eq_none (by omega)] at hx
      cases hx
    unfold scaleRow
    by_cases h3 : i < 3
    · rw [List.getElem?_append_left (by simp; omega), List.getElem?_map, List.getElem?_take_of_lt h3, hx, if_pos h3]
      rfl
    · rw [List.getElem?_append_right (by simp; omega), if_neg h3, List.getElem?_drop, ← hx]
      congr 1
      simp
      omega
  unfold toTraj
  rcases hcc with rfl | rfl
  · simp only [applyUnits, applyUnitsRaw, hU, scaleCC, Bool.false_eq_true, if_false]
    refine ⟨_, _, rfl, hrow, fun h6 => ?_, fun h6 => ⟨fun e => ?_, fun e => ?_⟩⟩
    · show (extendObjCC _).or _ = _
      simp only [extendObjCC, hn, Option.map_some, extendCC, hlen, if_pos h6]
      rfl
    · show (extendObjCC _).or _ = _
      simp only [extendObjCC, hn, Option.map_some, extendCC, hlen, if_neg h6]
      rfl
    · cases e
  · simp only [applyUnits, applyUnitsRaw, hU, scaleCC, Bool.false_eq_true, if_false, List.map_cons, List.map_nil]
    refine ⟨_, _, rfl, hrow, fun h6 => ?_, fun h6 => ⟨fun e => ?_, fun e => ?_⟩⟩
    · show (extendObjCC _).or _ = _
      simp only [extendObjCC, hn, Option.map_some, extendCC, hlen, if_pos h6]
      rfl
    · cases e
    · show (extendObjCC _).or _ = _
      simp only [extendObjCC, hn, Option.map_some, extendCC, hlen, if_neg h6]
      rfl

/-- Non-vacuity: six constants, two steps. -/
example : (List.replicate 2 [1, 1, 1, 90, 90, (90 : ℚ)]).length = ([[[0, 0, 0]], [[1, 0, 0]]] : List (List (List ℚ))).length ∧
    [1, 1, 1, 90, 90, (90 : ℚ)].length = 6 := by decide

end Pwtools.ReadMd
