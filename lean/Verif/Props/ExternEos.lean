import Verif.Spec.ExternEos
import Mathlib.Tactic.Linarith
import Mathlib.Tactic.NormNum
import Mathlib.Tactic.FieldSimp
/-!
# C114: `ExternEOS`
-/
namespace Pwtools.Eos2
open Spec
variable {D S : Type}

/-- **C114** (part which holds) The first `fit` of an object, with either method, gives what is promised. An unknown method raises. -/
theorem C114_first_partial (sp : Splines S) (fac : ℝ) (tool : D → Tab × Tab) (data : D) (m : Method) :
    (m ≠ .other → ∃ st, fit sp fac tool { data := data, method := m } = some st ∧ st.data = data ∧ st.method = m ∧ Fitted sp fac tool st) ∧
    (m = .other → fit sp fac tool ({ data := data, method := m } : St D S) = none) := by
  constructor
  · intro hm
    cases m with
    | ev => exact ⟨_, rfl, rfl, rfl, ⟨rfl, rfl, ⟨_, rfl, rfl, rfl⟩, rfl, rfl⟩⟩
    | pv => exact ⟨_, rfl, rfl, rfl, ⟨rfl, rfl, ⟨_, rfl, rfl, rfl⟩, rfl, rfl⟩⟩
    | other => exact absurd rfl hm
  · rintro rfl
    rfl

/-- **C114** (minimum) For an object which is fitted, `get_min` gives the volume where the pressure is zero or the energy is minimal, and energy,
pressure and bulk modulus at this volume. -/
theorem C114_min (sp : Splines S) (fac : ℝ) (tool : D → Tab × Tab) (st : St D S) (h : Fitted sp fac tool st) (v0 e0 p0 b0 : ℝ) :
    getMin sp st = some (v0, e0, p0, b0) ↔
      (match st.method with
        | .ev => sp.min (sp.interp (tool st.data).1) = some v0
        | .pv => sp.root (sp.interp (tool st.data).2) = some v0
        | .other => False) ∧
      e0 = sp.ev (sp.interp (tool st.data).1) 0 v0 ∧ p0 = sp.ev (sp.interp (tool st.data).2) 0 v0 ∧ ∃ bv, st.bv = some bv ∧ b0 = sp.ev (sp.interp bv) 0 v0 := by
  obtain ⟨bv, hb, hs, -⟩ := h.bv
  unfold getMin
  simp only [h.splEv, h.splPv, hs, hb, trySpl, Option.some.injEq]
  cases st.method with
  | other => simp
  | ev =>
    simp only [Option.map_eq_some_iff, Prod.mk.injEq]
    constructor
    · rintro ⟨a, h1, rfl, h2, h3, h4⟩
      exact ⟨h1, h2.symm, h3.symm, bv, rfl, h4.symm⟩
    · rintro ⟨h1, h2, h3, b, rfl, h4⟩
      exact ⟨v0, h1, rfl, h2.symm, h3.symm, h4.symm⟩
  | pv =>
    simp only [Option.map_eq_some_iff, Prod.mk.injEq]
    constructor
    · rintro ⟨a, h1, rfl, h2, h3, h4⟩
      exact ⟨h1, h2.symm, h3.symm, bv, rfl, h4.symm⟩
    · rintro ⟨h1, h2, h3, b, rfl, h4⟩
      exact ⟨v0, h1, rfl, h2.symm, h3.symm, h4.symm⟩

/-- **C114** (before `fit`) `get_min` raises. -/
theorem C114_before_fit (sp : Splines S) (data : D) (m : Method) : getMin sp ({ data := data, method := m } : St D S) = none := rfl

/-- **C114** is false for further calls of `fit` (new data, or another method): the splines are those of the first call, whatever the data are
now. -/
theorem C114_again (sp : Splines S) (fac : ℝ) (tool : D → Tab × Tab) (st : St D S) (h : Fitted sp fac tool st) (data' : D) (m' : Method) (st' : St D S)
    (h' : fit sp fac tool { st with data := data', method := m' } = some st') :
    st'.splEv = st.splEv ∧ st'.splPv = st.splPv ∧ st'.splBv = st.splBv ∧ st'.ev = some (tool data').1 ∧ st'.pv = some (tool data').2 := by
  obtain ⟨bv, hb, hs, -⟩ := h.bv
  unfold fit calcBv at h'
  cases m' with
  | other => cases h'
  | ev =>
    simp only [h.splEv, h.splPv, hs, trySpl, Option.some.injEq] at h'
    rw [← h']
    exact ⟨h.splEv.symm, h.splPv.symm, hs.symm, rfl, rfl⟩
  | pv =>
    simp only [h.splEv, h.splPv, hs, trySpl, Option.some.injEq] at h'
    rw [← h']
    exact ⟨h.splEv.symm, h.splPv.symm, hs.symm, rfl, rfl⟩

/-- **C114** counterexample: for any kind of splines which are determined by their points, two sets of data for which the program gives different
energies: after fitting both in turn the object is not fitted to the second one. -/
theorem C114_counterexample (sp : Splines S) (hinj : Function.Injective sp.interp) (fac : ℝ) (tool : D → Tab × Tab) (d1 d2 : D)
    (hd : (tool d1).1 ≠ (tool d2).1) : ∃ st st', fit sp fac tool ({ data := d1, method := .ev } : St D S) = some st ∧
      fit sp fac tool { st with data := d2 } = some st' ∧ ¬ Fitted sp fac tool st' := by
  obtain ⟨st, h1, hdat, hm, hf⟩ := (C114_first_partial sp fac tool d1 .ev).1 (by decide)
  obtain ⟨bv, hb, hs, -⟩ := hf.bv
  have hex : ∃ st', fit sp fac tool { st with data := d2 } = some st' := by
    unfold fit calcBv
    simp only [hm, hf.splEv, trySpl]
    exact ⟨_, rfl⟩
  obtain ⟨st', h2⟩ := hex
  refine ⟨st, st', h1, h2, fun hf' => ?_⟩
  have ha := C114_again sp fac tool st hf d2 st.method st' h2
  have hd' : st'.data = d2 := by
    unfold fit calcBv at h2
    simp only [hm, hf.splEv, trySpl, Option.some.injEq] at h2
    rw [← h2]
  have e1 := hf'.splEv
  rw [ha.1, hf.splEv, hd', hdat] at e1
  exact hd (hinj (Option.some.inj e1))

/-- **C114** is false for `set_bv_method` after `fit`: the minimum is then that of the new method, but the bulk modulus stays that of the old
one, also after a further `fit`. -/
theorem C114_switch (sp : Splines S) (fac : ℝ) (tool : D → Tab × Tab) (st : St D S) (h : Fitted sp fac tool st) (hm : st.method = .ev) :
    (∀ v0, sp.root (sp.interp (tool st.data).2) = some v0 → getMin sp (setBvMethod .pv st) =
      some (v0, sp.ev (sp.interp (tool st.data).1) 0 v0, sp.ev (sp.interp (tool st.data).2) 0 v0,
        sp.ev (sp.interp ((tool st.data).1.map fun r => (r.1, r.1 * sp.ev (sp.interp (tool st.data).1) 2 r.1 * fac))) 0 v0)) ∧
    ∃ st', fit sp fac tool (setBvMethod .pv st) = some st' ∧ getMin sp st' = getMin sp (setBvMethod .pv st) ∧
      st'.bv = some ((tool st.data).2.map fun r => (r.1, -r.1 * sp.ev (sp.interp (tool st.data).2) 1 r.1)) := by
  obtain ⟨bv, hb, hs, hx⟩ := h.bv
  rw [hm] at hx
  constructor
  · intro v0 hv
    unfold getMin setBvMethod
    simp only [h.splEv, h.splPv, hs, trySpl, hv, Option.map_some]
    rw [← hx]
  · unfold fit calcBv setBvMethod getMin
    simp only [h.splEv, h.splPv, hs, trySpl]
    exact ⟨_, rfl, rfl, rfl⟩

/-- **C114** is false for the array of `get_min(behave='old')`: documented as `[v0, e0, b0, p0]`, returned as `[v0, e0, p0, b0]`. -/
theorem C114_old_order (sp : Splines S) (st : St D S) (v0 e0 p0 b0 : ℝ) (h : getMin sp st = some (v0, e0, p0, b0)) :
    getMinOld sp st = some [v0, e0, p0, b0] ∧ (getMinOld sp st = some [v0, e0, b0, p0] ↔ b0 = p0) := by
  unfold getMinOld
  rw [h]
  simp only [Option.map_some, Option.some.injEq, List.cons.injEq, and_true, true_and]
  constructor
  · rintro ⟨h, -⟩
    exact h.symm
  · rintro rfl
    exact ⟨rfl, rfl⟩

/-- **C114** is false for volumes which are not sorted: they are accepted if any two neighbours are in order. -/
theorem C114_sorted_counterexample : accepted [1, 2, 0] ∧ ¬ List.Pairwise (· < ·) ([1, 2, 0] : List ℝ) := by
  constructor
  · exact ⟨1, by norm_num, by norm_num⟩
  · norm_num

/-- **C114** (sorted volumes are accepted.) -/
theorem C114_sorted (a b : ℝ) (vs : List ℝ) (h : List.Pairwise (· < ·) (a :: b :: vs)) : accepted (a :: b :: vs) := by
  refine ⟨b - a, by simp, ?_⟩
  rw [List.pairwise_cons] at h
  have := h.1 b (by simp)
  linarith

/-- **C114** (units and normalisation of `ElkEOSFit`) If `eos.x` gives energy and volume per atom of a curve `E(V)` (atomic units) and its pressure
`P(V)`, at any points, the arrays are `E(V)` and `P(V)` of the whole cell, with volumes and energies in the units of the user. In particular, if
the curve goes through the input data at these points, `ev` is the input. -/
theorem C114_elk (cv ce n : ℝ) (hcv : cv ≠ 0) (hce : ce ≠ 0) (hn : n ≠ 0) (E P : ℝ → ℝ) (vs : List ℝ) :
    elkOutput cv ce n (vs.map fun v => (v / n, E v / n)) (vs.map fun v => (v / n, P v)) =
        (vs.map fun v => (v / cv, E v / ce), vs.map fun v => (v / cv, P v)) ∧
    ∀ data : Tab, vs = (elkInput cv ce data).map Prod.fst → (∀ r ∈ elkInput cv ce data, E r.1 = r.2) →
      (elkOutput cv ce n (vs.map fun v => (v / n, E v / n)) (vs.map fun v => (v / n, P v))).1 = data := by
  have h1 : elkOutput cv ce n (vs.map fun v => (v / n, E v / n)) (vs.map fun v => (v / n, P v)) =
        (vs.map fun v => (v / cv, E v / ce), vs.map fun v => (v / cv, P v)) := by
    unfold elkOutput
    simp only [List.map_map]
    congr 1
    · apply List.map_congr_left
      intro v _
      simp only [Function.comp, Prod.mk.injEq]
      constructor <;> field_simp
    · apply List.map_congr_left
      intro v _
      simp only [Function.comp, Prod.mk.injEq, and_true]
      field_simp
  refine ⟨h1, fun data hv hE => ?_⟩
  rw [h1]
  simp only [hv, elkInput, List.map_map]
  apply List.ext_getElem (by simp)
  intro i h2 h3
  simp only [List.getElem_map, Function.comp]
  have hm : (data[i].1 * cv, data[i].2 * ce) ∈ elkInput cv ce data := by
    unfold elkInput
    exact List.mem_map.2 ⟨_, List.getElem_mem h3, rfl⟩
  have := hE _ hm
  simp only at this
  rw [this]
  ext
  · simp only; field_simp
  · simp only; field_simp

/-- Non-vacuity: splines which remember their points. -/
example : Function.Injective (⟨id, fun _ _ _ => 0, fun _ => some 1, fun _ => some 2⟩ : Splines Tab).interp := fun _ _ h => h

example : ∃ st, fit (⟨id, fun _ _ _ => 0, fun _ => some 1, fun _ => some 2⟩ : Splines Tab) 1 (fun d : Tab => (d, d)) { data := [(1, 2)], method := .ev } = some st ∧
    getMin (⟨id, fun _ _ _ => 0, fun _ => some 1, fun _ => some 2⟩ : Splines Tab) st = some (2, 0, 0, 0) := ⟨_, rfl, rfl⟩

end Pwtools.Eos2
