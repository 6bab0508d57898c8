import Verif.Spec.ParserUnits
import Mathlib.Tactic.FieldSimp
import Mathlib.Tactic.NormNum
import Mathlib.Tactic.Ring
import Mathlib.Algebra.Field.Rat
/-!
# C86: unit factors of parsers in all histories
-/
namespace Pwtools.Units
open Pwtools.Tr (Qty)
open Pwtools.Spec
variable {K : Type} [Field K]

/-- The dict objects hold the initial values or those put there by the MD parsers. -/
def Ok (c : Consts K) (st : Dict → UDict K) : Prop :=
  (∀ q, st .base q = none ∨ ((q = .stress ∨ q = .velocity ∨ q = .time) ∧ st .base q = initUpdate c .lammpsTxt q)) ∧
  (∀ q, st .pw q = initial c .pw q ∨ (q = .time ∧ st .pw q = initUpdate c .pwMd q)) ∧
  (∀ q, st .cpmd q = initial c .cpmd q ∨ ((q = .time ∨ q = .velocity) ∧ st .cpmd q = initUpdate c .cpmdMd q)) ∧
  (∀ q, st .cp2k q = initial c .cp2k q ∨ ((q = .stress ∨ q = .velocity) ∧ st .cp2k q = initUpdate c .cp2kMd q))

theorem ok_initial (c : Consts K) : Ok c (initial c) :=
  ⟨fun _ => Or.inl rfl, fun _ => Or.inl rfl, fun _ => Or.inl rfl, fun _ => Or.inl rfl⟩

theorem create_fst (c : Consts K) (st : Dict → UDict K) (k : Kind) (user : UDict K) (d : Dict) (q : Qty) :
    (create c st k user).1 d q = if d = dictOf k then (initUpdate c k q).or (st d q) else st d q := by
  unfold create
  by_cases h : d = dictOf k
  · subst h
    simp [dictUpdate]
  · simp [h]

theorem ok_create (c : Consts K) (st : Dict → UDict K) (h : Ok c st) (k : Kind) (user : UDict K) : Ok c (create c st k user).1 := by
  obtain ⟨h1, h2, h3, h4⟩ := h
  unfold Ok
  simp only [create_fst]
  refine ⟨fun q => ?_, fun q => ?_, fun q => ?_, fun q => ?_⟩
  · have := h1 q
    clear h1 h2 h3 h4
    cases k <;> simp only [dictOf, reduceCtorEq, if_false, if_true] <;> first | exact this | skip
    all_goals cases q <;> simp_all [initUpdate]
  · have := h2 q
    clear h1 h2 h3 h4
    cases k <;> simp only [dictOf, reduceCtorEq, if_false, if_true] <;> first | exact this | skip
    all_goals cases q <;> simp_all [initUpdate]
  · have := h3 q
    clear h1 h2 h3 h4
    cases k <;> simp only [dictOf, reduceCtorEq, if_false, if_true] <;> first | exact this | skip
    all_goals cases q <;> simp_all [initUpdate]
  · have := h4 q
    clear h1 h2 h3 h4
    cases k <;> simp only [dictOf, reduceCtorEq, if_false, if_true] <;> first | exact this | skip
    all_goals cases q <;> simp_all [initUpdate]

theorem ok_after (c : Consts K) (h : List (Kind × UDict K)) : Ok c (after c h) := by
  unfold after
  have : ∀ st, Ok c st → Ok c (h.foldl (fun st op => (create c st op.1 op.2).1) st) := by
    induction h with
    | nil => exact fun st hs => hs
    | cons op h ih => exact fun st hs => ih _ (ok_create c st hs op.1 op.2)
  exact this _ (ok_initial c)

/-- **C86**, partial. After any history of parser creations, a new parser uses the documented factor for every quantity it
returns, except for the stress of the cp2k SCF parser. -/
theorem C86_units_partial (c : Consts K) (h : List (Kind × UDict K)) (k : Kind) (q : Qty) (hr : returns k q = true)
    (hx : ¬ (k = .cp2kScf ∧ q = .stress)) :
    (create c (after c h) k fun _ => none).2 q = factor c k q := by
  obtain ⟨h1, h2, h3, h4⟩ := ok_after c h
  generalize after c h = st at *
  have a := h1 q
  have b := h2 q
  have d := h3 q
  have e := h4 q
  clear h1 h2 h3 h4
  cases k <;> cases q <;> simp_all [create, dictOf, dictUpdate, initUpdate, initial, Function.update, returns, factor] <;> ring

/-- **C86**. Factors given by the user are used in every history. -/
theorem C86_user_units (c : Consts K) (h : List (Kind × UDict K)) (k : Kind) (user : UDict K) (q : Qty) (x : K) (hu : user q = some x) :
    (create c (after c h) k user).2 q = x := by
  simp [create, hu]

/-- **C86**, disagreement. A new cp2k SCF parser scales the stress (GPa in the file) by 1 at the start of the program, but by
`1e-4` once any cp2k MD, relax or dcd parser has been created, whatever else happened before and after. -/
theorem C86_counterexample (c : Consts K) :
    (create c (after c []) .cp2kScf fun _ => none).2 .stress = factor c .cp2kScf .stress ∧
    ∀ (h h' : List (Kind × UDict K)) (k : Kind) (user : UDict K), k = .cp2kMd ∨ k = .cp2kRelax ∨ k = .cp2kDcd →
      (create c (after c (h ++ (k, user) :: h')) .cp2kScf fun _ => none).2 .stress = 1 / 10000 := by
  refine ⟨by simp [create, after, dictOf, dictUpdate, initUpdate, initial, factor], fun h h' k user hk => ?_⟩
  have : after c (h ++ (k, user) :: h') .cp2k .stress = some (1 / 10000) := by
    have e : after c (h ++ (k, user) :: h') = h'.foldl (fun st op => (create c st op.1 op.2).1) (create c (after c h) k user).1 := by
      simp [after, List.foldl_append]
    rw [e]
    have h0 : (create c (after c h) k user).1 .cp2k .stress = some (1 / 10000) := by
      rcases hk with rfl | rfl | rfl <;> simp [create, dictOf, dictUpdate, initUpdate]
    generalize (create c (after c h) k user).1 = st at h0
    clear e
    induction h' generalizing st with
    | nil => exact h0
    | cons op h' ih =>
      apply ih
      obtain ⟨k', u'⟩ := op
      cases k' <;> simp [create, dictOf, dictUpdate, initUpdate, h0]
  simp [create, dictOf, dictUpdate, initUpdate, this]

/-- The two factors differ (here over the rationals). -/
example : (1 / 10000 : ℚ) ≠ 1 := by norm_num
example : returns .pwScf .stress = true ∧ returns .lammpsTxt .velocity = true := ⟨rfl, rfl⟩

end Pwtools.Units
