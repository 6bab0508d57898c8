import Verif.Props.Traj2
import Mathlib.Data.String.Basic
/-!
# C53, C47: species bookkeeping and units
-/
namespace Pwtools.Tr
open Pwtools.Nd Pwtools.Spec

/-! ## C53 -/

section Species
variable {S : Type} [LinearOrder S]

theorem adjUnique_mem (l : List S) (x : S) : x ∈ adjUnique l ↔ x ∈ l := by
  induction l with
  | nil => rfl
  | cons a as ih =>
    cases as with
    | nil => rfl
    | cons b bs =>
      simp only [adjUnique]
      split
      · rename_i h
        subst h
        rw [ih]; simp
      · rw [List.mem_cons, ih, List.mem_cons, List.mem_cons, List.mem_cons]

theorem adjUnique_sorted (l : List S) (h : l.Pairwise (· ≤ ·)) : (adjUnique l).Pairwise (· < ·) := by
  induction l with
  | nil => exact List.Pairwise.nil
  | cons a as ih =>
    cases as with
    | nil => simp [adjUnique]
    | cons b bs =>
      simp only [adjUnique]
      have h' := List.pairwise_cons.1 h
      split
      · exact ih h'.2
      · rename_i hab
        refine List.pairwise_cons.2 ⟨?_, ih h'.2⟩
        intro x hx
        rw [adjUnique_mem] at hx
        have hb : a < b := lt_of_le_of_ne (h'.1 b (by simp)) hab
        rcases List.mem_cons.1 hx with hx | hx
        · rw [hx]; exact hb
        · exact lt_of_lt_of_le hb ((List.pairwise_cons.1 h'.2).1 x hx)

/-- C53: `symbols_unique` is sorted, without duplicates, and has exactly the symbols which occur. -/
theorem C53_unique (symbols : List S) :
    (symbolsUnique symbols).Pairwise (· < ·) ∧ ∀ s, s ∈ symbolsUnique symbols ↔ s ∈ symbols := by
  constructor
  · apply adjUnique_sorted
    have := List.pairwise_mergeSort (le := fun a b : S => decide (a ≤ b))
      (by intro a b c h1 h2; simp only [decide_eq_true_eq] at *; exact le_trans h1 h2)
      (by intro a b; simp only [Bool.or_eq_true, decide_eq_true_eq]; exact le_total a b) symbols
    exact this.imp (by intro a b h; simpa using h)
  · intro s
    unfold symbolsUnique
    rw [adjUnique_mem, List.mem_mergeSort]

theorem uniq_nodup (symbols : List S) : (symbolsUnique symbols).Nodup :=
  (C53_unique symbols).1.imp (fun h => ne_of_lt h)

theorem dictGet_zip (u : List S) (hn : u.Nodup) (n : Nat) (s : S) (k : Nat) :
    dictGet ((u.zipIdx n).map (fun p => (p.1, p.2 + 1))) s = some k ↔
      ∃ j, u[j]? = some s ∧ k = n + j + 1 := by
  induction u generalizing n with
  | nil => simp [dictGet]
  | cons a as ih =>
    rw [List.nodup_cons] at hn
    have ih' := ih hn.2 (n + 1)
    unfold dictGet at ih' ⊢
    simp only [List.zipIdx_cons, List.map_cons, List.find?_cons]
    by_cases has : a = s
    · subst has
      simp only [decide_true, Option.map_some, Option.some.injEq]
      constructor
      · rintro rfl; exact ⟨0, rfl, by omega⟩
      · rintro ⟨j, hj, rfl⟩
        cases j with
        | zero => rfl
        | succ j =>
          exact absurd (List.mem_of_getElem? (by simpa using hj)) hn.1
    · simp only [has, decide_false, ih']
      constructor
      · rintro ⟨j, hj, rfl⟩; exact ⟨j + 1, by simpa using hj, by omega⟩
      · rintro ⟨j, hj, rfl⟩
        cases j with
        | zero => simp at hj; exact absurd hj has
        | succ j => exact ⟨j, by simpa using hj, by omega⟩

/-- C53: `order` numbers the unique symbols `1, 2, …` in their sorted order. -/
theorem C53_order (symbols : List S) (s : S) (k : Nat) :
    dictGet (orderDict (symbolsUnique symbols)) s = some k ↔
      1 ≤ k ∧ (symbolsUnique symbols)[k - 1]? = some s := by
  unfold orderDict
  rw [dictGet_zip _ (uniq_nodup symbols) 0]
  constructor
  · rintro ⟨j, hj, rfl⟩; exact ⟨by omega, by simpa using hj⟩
  · rintro ⟨h1, h2⟩; exact ⟨k - 1, h2, by omega⟩

theorem dictMap_spec {T V : Type} [DecidableEq T] (d : T → Option V) (l : List T)
    (h : ∀ s ∈ l, (d s).isSome) :
    ∃ t, dictMap d l = some t ∧ t.length = l.length ∧
      ∀ (i : Nat) (s : T), l[i]? = some s → t[i]? = d s := by
  induction l with
  | nil => exact ⟨[], rfl, rfl, fun i s h => by simp at h⟩
  | cons a as ih =>
    obtain ⟨t, h1, h2, h3⟩ := ih (fun s hs => h s (by simp [hs]))
    obtain ⟨v, hv⟩ := Option.isSome_iff_exists.1 (h a (by simp))
    refine ⟨v :: t, by simp [dictMap, hv, h1], by simp [h2], ?_⟩
    intro i s hi
    cases i with
    | zero => simp at hi; subst hi; simp [hv]
    | succ i => simpa using h3 i s (by simpa using hi)

theorem dictMap_none {T V : Type} [DecidableEq T] (d : T → Option V) (l : List T) (s : T)
    (hs : s ∈ l) (h : d s = none) : dictMap d l = none := by
  induction l with
  | nil => cases hs
  | cons a as ih =>
    simp only [dictMap]
    rcases List.mem_cons.1 hs with hs | hs
    · subst hs; rw [h]
    · cases d a with
      | none => rfl
      | some v => rw [ih hs]; rfl

/-- C53: `typat[i]` is the number (from 1 to `ntypat`) of `symbols[i]` in `symbols_unique`. -/
theorem C53_typat (symbols : List S) :
    ∃ t, typat symbols = some t ∧ t.length = symbols.length ∧
      ∀ (i : Nat) (s : S), symbols[i]? = some s →
        ∃ k, t[i]? = some k ∧ 1 ≤ k ∧ k ≤ ntypat symbols ∧ (symbolsUnique symbols)[k - 1]? = some s := by
  have hex : ∀ s ∈ symbols, ∃ k, dictGet (orderDict (symbolsUnique symbols)) s = some k := by
    intro s hs
    have := (C53_unique symbols).2 s |>.2 hs
    obtain ⟨j, hj, hs'⟩ := List.getElem_of_mem this
    refine ⟨j + 1, (C53_order symbols s _).2 ⟨by omega, ?_⟩⟩
    rw [Nat.add_sub_cancel, List.getElem?_eq_getElem hj, hs']
  obtain ⟨t, h1, h2, h3⟩ := dictMap_spec (dictGet (orderDict (symbolsUnique symbols))) symbols
    (fun s hs => by obtain ⟨k, hk⟩ := hex s hs; rw [hk]; rfl)
  refine ⟨t, h1, h2, ?_⟩
  intro i s hi
  obtain ⟨k, hk⟩ := hex s (List.mem_of_getElem? hi)
  obtain ⟨a, b⟩ := (C53_order symbols s k).1 hk
  refine ⟨k, by rw [h3 i s hi, hk], a, ?_, b⟩
  have : k - 1 < (symbolsUnique symbols).length := by
    by_contra hc
    rw [List.getElem?_eq_none (by omega)] at b
    cases b
  unfold ntypat
  omega

theorem sum_count_cons (c : S) (cs : List S) (l : List S) (hl : l.Nodup) :
    (l.map (fun s => (c :: cs).count s)).sum
      = (l.map (fun s => cs.count s)).sum + (if c ∈ l then 1 else 0) := by
  induction l with
  | nil => rfl
  | cons b bs ih =>
    rw [List.nodup_cons] at hl
    rw [List.map_cons, List.sum_cons, ih hl.2, List.map_cons, List.sum_cons, List.count_cons]
    by_cases hab : c = b
    · subst hab; simp [hl.1]; omega
    · simp [hab]; omega

theorem sum_count (symbols : List S) (u : List S) (hu : u.Nodup) (hm : ∀ s ∈ symbols, s ∈ u) :
    (u.map (fun s => symbols.count s)).sum = symbols.length := by
  induction symbols with
  | nil => simp
  | cons c cs ih =>
    rw [sum_count_cons c cs u hu, ih (fun s hs => hm s (by simp [hs])), if_pos (hm c (by simp))]
    rfl

/-- C53: `nspecies` has one entry per unique symbol, in this order, which is the number of times
the symbol occurs; the entries add up to the number of atoms. -/
theorem C53_nspecies (symbols : List S) :
    ∃ d, nspecies symbols = some d ∧
      d = (symbolsUnique symbols).map (fun s => (s, symbols.count s)) ∧
      (d.map Prod.snd).sum = symbols.length := by
  obtain ⟨t, h1, h2, h3⟩ := C53_typat symbols
  have hcount : ∀ (k : Nat) (s : S), (symbolsUnique symbols)[k]? = some s →
      t.count (k + 1) = symbols.count s := by
    intro k s hk
    have gen : ∀ (l : List S) (t : List Nat), t.length = l.length →
        (∀ (i : Nat) (s : S), l[i]? = some s → ∃ k, t[i]? = some k ∧ 1 ≤ k ∧
          (symbolsUnique symbols)[k - 1]? = some s) →
        t.count (k + 1) = l.count s := by
      intro l
      induction l with
      | nil => intro t ht _; rw [List.length_eq_zero_iff.1 ht]; rfl
      | cons a as ih =>
        intro t ht hh
        cases t with
        | nil => simp at ht
        | cons x xs =>
          have i1 := ih xs (by simpa using ht) (fun i s hi => by
            simpa using hh (i + 1) s (by simpa using hi))
          obtain ⟨k', hk1, hk2, hk3⟩ := hh 0 a rfl
          simp only [List.getElem?_cons_zero, Option.some.injEq] at hk1
          subst hk1
          rw [List.count_cons, List.count_cons, i1]
          congr 1
          have : (x = k + 1) ↔ (a = s) := by
            constructor
            · rintro rfl
              have hk3' : (symbolsUnique symbols)[k]? = some a := by simpa using hk3
              rw [hk] at hk3'
              simpa using hk3'.symm
            · rintro rfl
              have hinj := (List.getElem?_inj (i := k) (j := x - 1) (by
                by_contra hc
                rw [List.getElem?_eq_none (by omega)] at hk
                cases hk) (uniq_nodup symbols)).1 (by rw [hk, hk3])
              omega
          by_cases ha : a = s
          · simp [ha, this.2 ha]
          · have hx : ¬ x = k + 1 := fun h => ha (this.1 h)
            simp [ha, hx]
    exact gen symbols t h2 (fun i s hi => by
      obtain ⟨k, a, b, -, c⟩ := h3 i s hi; exact ⟨k, a, b, c⟩)
  have hd : (orderDict (symbolsUnique symbols)).map (fun p => (p.1, t.count p.2))
      = (symbolsUnique symbols).map (fun s => (s, symbols.count s)) := by
    apply List.ext_getElem?
    intro k
    simp only [orderDict, List.getElem?_map, List.getElem?_zipIdx, Option.map_map]
    cases hk : (symbolsUnique symbols)[k]? with
    | none => rfl
    | some s => simp [hcount k s hk]
  refine ⟨_, by simp only [nspecies, h1]; rfl, hd, ?_⟩
  rw [hd, List.map_map]
  have hsum := sum_count symbols
  have hfun : (Prod.snd ∘ fun s => (s, symbols.count s)) = fun s => symbols.count s := rfl
  rw [hfun]
  exact hsum _ (uniq_nodup symbols) (fun s hs => ((C53_unique symbols).2 s).2 hs)

/-- C53: `znucl[i]` and `mass[i]` are number and mass of `symbols[i]`. -/
theorem C53_znucl_mass {M : Type} (numbers : S → Option Nat) (masses : List M) (symbols : List S)
    (h : ∀ s ∈ symbols, ∃ z, numbers s = some z ∧ z < masses.length) :
    ∃ zs ms, znucl numbers symbols = some zs ∧ massOf numbers masses symbols = some ms ∧
      zs.length = symbols.length ∧ ms.length = symbols.length ∧
      ∀ (i : Nat) (s : S), symbols[i]? = some s →
        ∃ z, numbers s = some z ∧ zs[i]? = some z ∧ ms[i]? = masses[z]? := by
  obtain ⟨zs, a1, a2, a3⟩ := dictMap_spec numbers symbols
    (fun s hs => by obtain ⟨z, hz, -⟩ := h s hs; rw [hz]; rfl)
  obtain ⟨ms, b1, b2, b3⟩ := dictMap_spec (fun s => (numbers s).bind (fun z => masses[z]?)) symbols
    (fun s hs => by
      obtain ⟨z, hz, hl⟩ := h s hs
      simp [hz, List.getElem?_eq_getElem hl])
  refine ⟨zs, ms, a1, b1, a2, b2, ?_⟩
  intro i s hi
  obtain ⟨z, hz, hl⟩ := h s (List.mem_of_getElem? hi)
  refine ⟨z, hz, by rw [a3 i s hi, hz], by rw [b3 i s hi, hz]; rfl⟩

/-- C53: the same for `znucl_unique` and `mass_unique` with the unique symbols. -/
theorem C53_mass_unique {M : Type} (numbers : S → Option Nat) (masses : List M) (symbols : List S)
    (h : ∀ s ∈ symbols, ∃ z, numbers s = some z ∧ z < masses.length) :
    massUnique numbers masses symbols = massOf numbers masses (symbolsUnique symbols) ∧
    ∃ ms, massUnique numbers masses symbols = some ms ∧ ms.length = ntypat symbols := by
  have h' : ∀ s ∈ symbolsUnique symbols, ∃ z, numbers s = some z ∧ z < masses.length :=
    fun s hs => h s (((C53_unique symbols).2 s).1 hs)
  have gen : ∀ (u : List S), (∀ s ∈ u, ∃ z, numbers s = some z ∧ z < masses.length) →
      ∃ zs, dictMap numbers u = some zs ∧ dictMap (fun z => masses[z]?) zs
        = dictMap (fun s => (numbers s).bind (fun z => masses[z]?)) u := by
    intro u
    induction u with
    | nil => intro _; exact ⟨[], rfl, rfl⟩
    | cons a as ih =>
      intro hu
      obtain ⟨zs, h1, h2⟩ := ih (fun s hs => hu s (by simp [hs]))
      obtain ⟨z, hz, hl⟩ := hu a (by simp)
      refine ⟨z :: zs, by simp [dictMap, hz, h1], ?_⟩
      simp only [dictMap, hz, Option.bind_some, List.getElem?_eq_getElem hl, h2]
  obtain ⟨zs, h1, h2⟩ := gen _ h'
  have e : massUnique numbers masses symbols = massOf numbers masses (symbolsUnique symbols) := by
    simp only [massUnique, znucl, h1, h2, massOf]
  refine ⟨e, ?_⟩
  obtain ⟨_, ms, _, b, _, c, _⟩ := C53_znucl_mass numbers masses _ h'
  exact ⟨ms, by rw [e, b], c⟩

/-- C53: a symbol which is not in the periodic table raises (`KeyError`). -/
theorem C53_unknown_symbol {M : Type} (numbers : S → Option Nat) (masses : List M) (symbols : List S)
    (s : S) (hs : s ∈ symbols) (h : numbers s = none) :
    znucl numbers symbols = none ∧ massOf numbers masses symbols = none :=
  ⟨dictMap_none _ _ s hs h, dictMap_none _ _ s hs (by rw [h]; rfl)⟩

end Species

example : ∃ zs ms, znucl (fun s : Nat => if s < 3 then some (s + 1) else none) [2, 0, 2] = some zs ∧
    massOf (fun s : Nat => if s < 3 then some (s + 1) else none) [-1, 10, 20, 30] [2, 0, 2] = some ms ∧
    zs = [3, 1, 3] ∧ ms = [30, 10, 30] := ⟨_, _, rfl, rfl, by decide, by decide⟩

/-! ## C47 -/

section Units
variable {K V : Type} [Field K] [DecidableEq K] [AddCommGroup V] [Module K V]

theorem scaleRow_spec (fac : K) (row : List K) : ScaledRow fac row (scaleRow fac row) := by
  constructor
  · simp only [scaleRow, List.length_append, List.length_map, List.length_take, List.length_drop]
    omega
  · intro i x hx
    simp only [scaleRow]
    have hi : i < row.length := by
      by_contra hc
      rw [List.getElem?_eq_none (by omega)] at hx
      cases hx
    by_cases h3 : i < 3
    · rw [List.getElem?_append_left (by simp; omega), List.getElem?_map, List.getElem?_take,
        if_pos h3, hx]
      simp [h3]
    · rw [List.getElem?_append_right (by simp; omega), List.getElem?_drop]
      simp only [List.length_map, List.length_take]
      rw [show 3 + (i - min 3 row.length) = i by omega, hx]
      simp [h3]

theorem scaleCC_spec (fac : K) (cc : Option (CC K)) (h : cc ≠ some .bad) :
    ∃ cc', scaleCC fac cc = .ok cc' ∧
      ∀ c, cc = some c → ∃ c', cc' = some c' ∧ ScaledCC fac c c' := by
  cases cc with
  | none => exact ⟨none, rfl, fun c hc => by cases hc⟩
  | some c =>
    cases c with
    | one row =>
      refine ⟨_, rfl, ?_⟩
      rintro c hc; cases hc
      exact ⟨_, rfl, scaleRow_spec fac row⟩
    | many rows =>
      refine ⟨_, rfl, ?_⟩
      rintro c hc; cases hc
      refine ⟨_, rfl, ?_⟩
      show List.Forall₂ (ScaledRow fac) rows (rows.map (scaleRow fac))
      induction rows with
      | nil => exact .nil
      | cons r rs ih => exact .cons (scaleRow_spec fac r) (ih (by simp))
    | bad => exact absurd rfl h

theorem scale_all (units : Qty → K) (attr : UAttr → Option V) (a : UAttr) :
    scaleUnits units unitsMap attr a = (attr a).map (unitFactor units a • ·) := by
  have hone : ∀ (q : Qty) (o : Option V), units q = 1 → o = o.map (units q • ·) := by
    intro q o h
    cases o with
    | none => rfl
    | some v => simp [h]
  simp only [unitsMap, scaleUnits]
  cases a <;> simp only [unitFactor]
  all_goals
    by_cases h1 : units .length = 1 <;> by_cases h2 : units .energy = 1 <;>
    by_cases h3 : units .stress = 1 <;> by_cases h4 : units .forces = 1 <;>
    by_cases h5 : units .temperature = 1 <;> by_cases h6 : units .velocity = 1 <;>
    by_cases h7 : units .time = 1 <;>
    simp [h1, h2, h3, h4, h5, h6, h7, scaleAttrs]

/-- `apply_units` on an object without applied units. -/
theorem applyUnits_first (o : UObj K V) (ha : o.applied = false) (hc : o.cc ≠ some .bad) :
    ∃ o', applyUnits o = .ok o' ∧ o'.applied = true ∧ ScaledOnce o.units o.attr o.cc o' := by
  obtain ⟨cc', h1, h2⟩ := scaleCC_spec (o.units .length) o.cc hc
  refine ⟨{ o with cc := cc', attr := scaleUnits o.units unitsMap o.attr, applied := true }, ?_, rfl,
    ?_, ?_⟩
  · simp only [applyUnits, applyUnitsRaw, ha, Bool.false_eq_true, if_false, h1]
  · intro a v hv
    show scaleUnits o.units unitsMap o.attr a = _
    rw [scale_all, hv]; rfl
  · intro c hcc; exact h2 c hcc

/-- The first applying call. -/
theorem ustep_first (o : UObj K V) (ha : o.applied = false) (hc : o.cc ≠ some .bad)
    (c : UCall K V) (h : Applies c) :
    ∃ o', ustep o c = .ok o' ∧ o'.applied = true ∧ ScaledOnce o.units o.attr o.cc o' := by
  obtain ⟨o', h1, h2, h3, h4⟩ := applyUnits_first o ha hc
  rcases h with rfl | ⟨g, rfl⟩
  · exact ⟨o', h1, h2, h3, h4⟩
  · refine ⟨{ o' with attr := fun a => (o'.attr a).or (g.attr o' a), cc := o'.cc.or (g.cc o') },
      by simp only [ustep, setAll, h1], h2, ?_, ?_⟩
    · intro a v hv
      simp only [h3 a v hv, Option.some_or]
    · intro cc hcc
      obtain ⟨c', e, s⟩ := h4 cc hcc
      exact ⟨c', by simp only [e, Option.some_or], s⟩

/-- Later calls do not change what is set. -/
theorem urun_later (o : UObj K V) (ha : o.applied = true) (cs : List (UCall K V)) :
    ∃ o', urun o cs = .ok o' ∧ o'.applied = true ∧
      (∀ a v, o.attr a = some v → o'.attr a = some v) ∧ (∀ c, o.cc = some c → o'.cc = some c) := by
  induction cs generalizing o with
  | nil => exact ⟨o, rfl, ha, fun _ _ h => h, fun _ h => h⟩
  | cons c cs ih =>
    have step : ∃ o1, ustep o c = .ok o1 ∧ o1.applied = true ∧
        (∀ a v, o.attr a = some v → o1.attr a = some v) ∧
        (∀ c, o.cc = some c → o1.cc = some c) := by
      cases c with
      | apply => exact ⟨o, by simp [ustep, applyUnits, ha], ha, fun _ _ h => h, fun _ h => h⟩
      | setAll g =>
        refine ⟨{ o with attr := fun a => (o.attr a).or (g.attr o a), cc := o.cc.or (g.cc o) },
          by simp only [ustep, setAll, applyUnits, ha, if_true], ha, ?_, ?_⟩
        · intro a v h; simp only [h, Option.some_or]
        · intro c h; simp only [h, Option.some_or]
      | update u => exact ⟨_, rfl, ha, fun _ _ h => h, fun _ h => h⟩
    obtain ⟨o1, h1, h2, h3, h4⟩ := step
    obtain ⟨o', g1, g2, g3, g4⟩ := ih o1 h2
    refine ⟨o', by simp only [urun, h1, g1], g2, fun a v h => g3 a v (h3 a v h),
      fun c h => g4 c (h4 c h)⟩

/-- C47: in every history of calls of `update_units`, `apply_units` and `set_all` on a container,
each quantity is scaled by its unit factor exactly once, with the factors in use at the first call
of `apply_units`/`set_all`: `ups` are the calls before that one, `cs` all later calls. -/
theorem C47_once (o : UObj K V) (ha : o.applied = false) (hc : o.cc ≠ some .bad)
    (ups cs : List (UCall K V)) (c : UCall K V) (hu : OnlyUpdates ups) (hap : Applies c) :
    ∃ o', urun o (ups ++ c :: cs) = .ok o' ∧ o'.applied = true ∧
      ScaledOnce (unitsAfter o.units ups) o.attr o.cc o' := by
  induction ups generalizing o with
  | nil =>
    obtain ⟨o1, h1, h2, h3, h4⟩ := ustep_first o ha hc c hap
    obtain ⟨o', g1, g2, g3, g4⟩ := urun_later o1 h2 cs
    refine ⟨o', by simp only [List.nil_append, urun, h1, g1], g2, ?_, ?_⟩
    · intro a v h; exact g3 _ _ (h3 a v h)
    · intro cc h
      obtain ⟨c', e, s⟩ := h4 cc h
      exact ⟨c', g4 _ e, s⟩
  | cons x xs ih =>
    obtain ⟨u, rfl⟩ := hu x (by simp)
    obtain ⟨o', h1, h2, h3⟩ := ih (updateUnits u o) ha hc (fun y hy => hu y (by simp [hy]))
    exact ⟨o', by simpa [urun, ustep] using h1, h2, h3⟩

/-- C47: calls of `update_units` alone do not scale anything. -/
theorem C47_not_applied (o : UObj K V) (ups : List (UCall K V)) (hu : OnlyUpdates ups) :
    ∃ o', urun o ups = .ok o' ∧ o'.attr = o.attr ∧ o'.cc = o.cc ∧ o'.applied = o.applied ∧
      o'.units = unitsAfter o.units ups := by
  induction ups generalizing o with
  | nil => exact ⟨o, rfl, rfl, rfl, rfl, rfl⟩
  | cons x xs ih =>
    obtain ⟨u, rfl⟩ := hu x (by simp)
    obtain ⟨o', h1, h2, h3, h4, h5⟩ := ih (updateUnits u o) (fun y hy => hu y (by simp [hy]))
    exact ⟨o', by simpa [urun, ustep] using h1, h2, h3, h4, h5⟩

/-- C47: crystal constants of any other dimension are refused. -/
theorem C47_bad_cryst_const (o : UObj K V) (ha : o.applied = false) (hc : o.cc = some .bad) :
    applyUnits o = .error .typeError := by
  simp [applyUnits, applyUnitsRaw, ha, hc, scaleCC]

/-- C47 for parsers, the part which holds: the *first* call of `get_struct()`/`get_traj()` returns
an object with the units applied exactly once. Missing: later calls, for which the property is
false, see `C47_parser_again`. -/
theorem C47_parser_first_partial (g : Getters K V) (raw : UAttr → Option V) (cc : Option (CC K))
    (units : Qty → K) (hc : cc ≠ some .bad) :
    ∃ o p', (Parser.init raw cc units).getCont g = .ok (o, p') ∧ o.applied = true ∧
      ScaledOnce units raw cc o := by
  obtain ⟨o', h1, h2, h3⟩ := ustep_first
    (o := { attr := raw, cc := cc, units := units, applied := false }) rfl hc (.setAll g)
    (Or.inr ⟨g, rfl⟩)
  simp only [ustep] at h1
  exact ⟨o', _, by simp only [Parser.getCont, Parser.init, h1]; rfl, h2, h3⟩

/-- C47 for parsers: what really happens in every later call: the parsed quantities are returned
without any unit conversion. -/
theorem C47_parser_again (g g' : Getters K V) (p p' : Parser K V) (o : UObj K V)
    (h : p.getCont g = .ok (o, p')) :
    ∃ o' p'', p'.getCont g' = .ok (o', p'') ∧ ∀ a v, p.rawAttr a = some v → o'.attr a = some v := by
  have hap : ∀ (x y : UObj K V), setAll g x = .ok y → y.applied = true := by
    intro x y hxy
    unfold setAll at hxy
    cases hx : applyUnits x with
    | error e => rw [hx] at hxy; cases hxy
    | ok z =>
      rw [hx] at hxy
      cases hxy
      show z.applied = true
      unfold applyUnits at hx
      split at hx
      · cases hx; assumption
      · unfold applyUnitsRaw at hx
        split at hx
        · cases hx
        · cases hs : scaleCC (x.units .length) x.cc with
          | error e => rw [hs] at hx; cases hx
          | ok cc => rw [hs] at hx; cases hx; rfl
  unfold Parser.getCont at h
  simp only at h
  cases hs : setAll g { p.cont with attr := p.rawAttr, cc := p.rawCC } with
  | error e => rw [hs] at h; cases h
  | ok c' =>
    rw [hs] at h
    simp only [Except.ok.injEq, Prod.mk.injEq] at h
    obtain ⟨rfl, rfl⟩ := h
    have hc' := hap _ _ hs
    let q : UObj K V := { attr := p.rawAttr, cc := p.rawCC, units := c'.units, applied := true }
    refine ⟨{ q with attr := fun a => (q.attr a).or (g'.attr q a), cc := q.cc.or (g'.cc q) }, _,
      by simp only [Parser.getCont, setAll, applyUnits, hc', if_true]; rfl, ?_⟩
    intro a v hv
    simp only [q, hv, Option.some_or]

end Units

/-- C47 is false for parsers: energy 3 with the unit factor 2 is 6 after the first call of
`get_struct()` and 3 after the second one. -/
theorem C47_counterexample :
    ∃ (o1 o2 : UObj ℚ ℚ) (p1 p2 : Parser ℚ ℚ),
      (Parser.init (fun a => if a = .etot then some 3 else none) none (fun _ => 2)).getCont
        ⟨fun _ _ => none, fun _ => none⟩ = .ok (o1, p1) ∧
      p1.getCont ⟨fun _ _ => none, fun _ => none⟩ = .ok (o2, p2) ∧
      o1.attr .etot = some 6 ∧ o2.attr .etot = some 3 := by
  obtain ⟨o1, p1, h1, -, h3, -⟩ := C47_parser_first_partial (K := ℚ) (V := ℚ)
    ⟨fun _ _ => none, fun _ => none⟩ (fun a => if a = .etot then some 3 else none) none (fun _ => 2)
    (by simp)
  obtain ⟨o2, p2, g1, g2⟩ := C47_parser_again _ ⟨fun _ _ => none, fun _ => none⟩ _ _ _ h1
  refine ⟨o1, o2, p1, p2, h1, g1, ?_, ?_⟩
  · rw [h3 .etot 3 (by simp)]
    norm_num [unitFactor]
  · exact g2 .etot 3 (by simp [Parser.init])

example : ∃ o' : UObj ℚ ℚ, urun (K := ℚ) (V := ℚ)
    { attr := fun a => if a = .coords then some 5 else none, cc := some (.one [1, 2, 3, 90, 90, 90]),
      units := fun _ => 1, applied := false }
    [.update (fun q => if q = .length then some 2 else none), .apply, .apply,
     .setAll ⟨fun _ _ => some 7, fun _ => none⟩] = .ok o' ∧ o'.attr .coords = some 10 := by
  obtain ⟨o', h1, -, h3, -⟩ := C47_once (K := ℚ) (V := ℚ)
    { attr := fun a => if a = .coords then some 5 else none, cc := some (.one [1, 2, 3, 90, 90, 90]),
      units := fun _ => 1, applied := false } rfl (by simp)
    [.update (fun q => if q = .length then some 2 else none)]
    [.apply, .setAll ⟨fun _ _ => some 7, fun _ => none⟩] .apply
    (by intro c hc; simp at hc; exact ⟨_, hc⟩) (Or.inl rfl)
  refine ⟨o', h1, ?_⟩
  rw [h3 .coords 5 rfl]
  norm_num [unitFactor, unitsAfter]

end Pwtools.Tr
