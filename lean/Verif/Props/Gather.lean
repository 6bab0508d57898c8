import Verif.Spec.Gather
import Verif.Props.StudyDirs
/-!
# C143: results of a parameter study in its database
-/
namespace Pwtools.Gather
open Spec
variable {R D : Type} (conv : Text → SqlVal R → SqlVal R)

theorem grun_append_ok : ∀ (a b : List (GEff R)) (w w' : World R),
    grun conv w (a ++ b) = (w', none) ↔ ∃ w1, grun conv w a = (w1, none) ∧ grun conv w1 b = (w', none)
  | [], b, w, w' => by simp [grun]
  | e :: a, b, w, w' => by
    have hd : ∀ l, grun conv w (e :: l) = match gstep conv w e with
        | .ok w' => grun conv w' l
        | .error er => (w, some er) := fun l => rfl
    rw [List.cons_append, hd, hd]
    cases gstep conv w e with
    | error er => simp
    | ok w1 => exact grun_append_ok a b w1 w'

/-- A run without an exception has no step which raises. -/
theorem no_fail : ∀ (l : List (GEff R)) (w w' : World R), grun conv w l = (w', none) → ∀ er, GEff.base (.fail er) ∉ l
  | [], _, _, _, _ => by simp
  | e :: l, w, w', h, er => by
    unfold grun at h
    cases he : gstep conv w e with
    | error er => rw [he] at h; simp at h
    | ok w1 =>
      rw [he] at h
      rintro hm
      rcases List.mem_cons.1 hm with rfl | hm
      · simp [gstep, step] at he
      · exact no_fail l w1 w' h er hm

/-- The columns. -/
theorem run_cols (T : Text) : ∀ (l : List (Text × Text)) (w w' : World R) (t : Table R), w.cur T = some t → w.saved = some w.cur →
    grun conv w (l.map fun h => .base (.ensureCol T h.1 h.2)) = (w', none) →
    ∃ t', w'.cur T = some t' ∧ w'.saved = some w'.cur ∧ Extends t t' ∧ (∀ h ∈ l, h.1 ∈ t'.header.map Prod.fst) ∧
      ∀ x ∈ t'.header, x ∈ t.header ∨ ∃ h ∈ l, x = (h.1, fixSqltype h.2)
  | [], w, w', t, hc, hs, h => by
    cases h
    exact ⟨t, hc, hs, Extends.refl t, by simp, fun x hx => .inl hx⟩
  | e :: l, w, w', t, hc, hs, h => by
    rw [List.map_cons] at h
    unfold grun at h
    simp only [gstep, step, hc] at h
    cases ha : addColumn t e.1 e.2 with
    | error er => rw [ha] at h; simp at h
    | ok t1 =>
      rw [ha] at h
      obtain ⟨x1, x2, x3⟩ := addColumn_extends ha
      obtain ⟨t', h1, h2, h3, h4, h5⟩ := run_cols T l _ w' t1 (setAt_self _ _ _) rfl h
      refine ⟨t', h1, h2, x1.trans h3, fun h hh => ?_, fun x hx => ?_⟩
      · rcases List.mem_cons.1 hh with rfl | hh
        · obtain ⟨y, hy, e⟩ := List.mem_map.1 x2
          exact List.mem_map.2 ⟨y, h3.sub y hy, e⟩
        · exact h4 h hh
      · rcases h5 x hx with h6 | ⟨h, hh, h6⟩
        · rcases x3 x h6 with h7 | h7
          · exact .inl h7
          · exact .inr ⟨e, List.mem_cons_self, h7⟩
        · exact .inr ⟨h, List.mem_cons_of_mem _ hh, h6⟩

theorem rowsGood_extends {T : Text} {rows : List (Planned R)} {t t' : Table R} (hg : RowsGood conv T rows t) (hx : Extends t t') : RowsGood conv T rows t' := by
  refine ⟨hx.good hg.good, fun c hc => hx.sub c (hg.admin c hc), hx.len.trans hg.len, ?_⟩
  intro k r' pl hr' hpl
  obtain ⟨r, hr, _, _⟩ := hx.old k r' hr'
  exact rowIs_extends conv hx (hx.good hg.good) hg.admin hr' hr (hg.row k r pl hr hpl)

/-- Folded names of different columns differ. -/
theorem fold_ne {t : Table R} (hg : GoodHeader t) {a b : Text × Text} (ha : a ∈ t.header) (hb : b ∈ t.header) (h : a.1 ≠ b.1) : fold a.1 ≠ fold b.1 := by
  intro e
  exact h (by rw [List.inj_on_of_nodup_map hg ha hb e])

theorem withResults_len (rows : List (Planned R)) (us : List (Nat × Entry R)) : (withResults rows us).length = rows.length := by simp [withResults]

theorem withResults_get (rows : List (Planned R)) (us : List (Nat × Entry R)) (k : Nat) : (withResults rows us)[k]? =
    rows[k]?.map fun pl => { pl with params := pl.params ++ (us.filter fun u => u.1 = k).map fun u => .leaf u.2 } := by
  simp [withResults]

theorem withResults_nil (rows : List (Planned R)) : withResults rows [] = rows := by
  refine List.ext_getElem? fun k => ?_
  rw [withResults_get]
  cases rows[k]? <;> simp

theorem withResults_append (rows : List (Planned R)) (a b : List (Nat × Entry R)) : withResults (withResults rows a) b = withResults rows (a ++ b) := by
  refine List.ext_getElem? fun k => ?_
  simp only [withResults_get]
  cases rows[k]? <;> simp

theorem lastWith_snoc (l : List (Entry R)) (e : Entry R) (key : Text) : lastWith (l ++ [e]) key = if e.key = key then some e else lastWith l key := by
  unfold lastWith
  rw [List.filter_append]
  by_cases h : e.key = key
  · simp [h]
  · simp [h]

theorem flatten_snoc (p : List (Tree (Entry R))) (e : Entry R) : flatten (p ++ [.leaf e]) = flatten p ++ [e] := by
  induction p with
  | nil => rfl
  | cons x p ih => cases x <;> simp [flatten, ih]

/-- One update. -/
theorem update_good {T : Text} {rows : List (Planned R)} {t : Table R} (hg : RowsGood conv T rows t) (i : Nat) (e : Entry R) (he : e.key ∉ adminKeys) (ty : Text)
    (hty : (e.key, ty) ∈ t.header) (v : SqlVal R) (hv : bindVal e.sqlval = some v) :
    RowsGood conv T (withResults rows [(i, e)]) (updateIdx conv t i e.key v) := by
  have hf : t.findCol e.key = some (e.key, ty) := findCol_of_mem hg.good hty
  refine ⟨hg.good, hg.admin, ?_, ?_⟩
  · simp [updateIdx, withResults_len, hg.len]
  · intro k r' pl' hr' hpl'
    rw [withResults_get] at hpl'
    cases hp : rows[k]? with
    | none => rw [hp] at hpl'; cases hpl'
    | some pl =>
      rw [hp] at hpl'
      cases hq : t.rows[k]? with
      | none => simp [updateIdx, hq] at hr'
      | some r =>
        have hR := hg.row k r pl hq hp
        have e1 : r.cell (fold ['i', 'd', 'x']) = .int (k : Int) := by
          have : fold ['i', 'd', 'x'] = "idx".toList := by decide
          rw [this]; exact hR.idx
        have hr : (if idxIs (i : Int) (SqlVal.int (k : Int) : SqlVal R) = true then r.set (fold e.key) (store conv ty v) else r) = r' := by
          simpa [updateIdx, hq, hf, e1] using hr'
        have hp2 : ({ pl with params := pl.params ++ ([(i, e)].filter fun u => u.1 = k).map fun u => .leaf u.2 } : Planned R) = pl' := by simpa using hpl'
        subst hp2
        show RowIs conv t.header k _ r'
        by_cases hik : i = k
        · subst hik
          simp only [idxIs, decide_true, if_true] at hr
          subst hr
          have hadm : ∀ c ∈ adminCols, (r.set (fold e.key) (store conv ty v)).cell (fold c.1) = r.cell (fold c.1) := by
            intro c hc
            have hne : c.1 ≠ e.key := by
              rintro h
              apply he
              rw [← h]
              revert c
              unfold adminCols adminKeys
              simp
            have := fold_ne hg.good (hg.admin c hc) hty hne
            simp only [Row.set]
            rw [if_neg this]
          have hoth : ∀ h ∈ t.header, h.1 ≠ e.key → (r.set (fold e.key) (store conv ty v)).cell (fold h.1) = r.cell (fold h.1) := by
            intro h hh hne
            have := fold_ne hg.good hh hty hne
            simp only [Row.set]
            rw [if_neg this]
          have hs : ([(i, e)].filter fun u : Nat × Entry R => u.1 = i).map (fun u => Tree.leaf u.2) = [.leaf e] := by simp
          rw [hs]
          refine ⟨?_, ?_, ?_, ?_, ?_, ?_, ?_⟩
          · exact (hadm ("idx".toList, "INTEGER".toList) (by simp [adminCols])).trans hR.idx
          · exact (hadm ("revision".toList, "INTEGER".toList) (by simp [adminCols])).trans hR.revision
          · exact (hadm ("study_name".toList, "TEXT".toList) (by simp [adminCols])).trans hR.study
          · exact (hadm ("calc_name".toList, "TEXT".toList) (by simp [adminCols])).trans hR.calcName
          · exact (hadm ("hostname".toList, "TEXT".toList) (by simp [adminCols])).trans hR.hostname
          · intro key e' hk hl
            rw [flatten_snoc, lastWith_snoc] at hl
            by_cases hek : e.key = key
            · rw [if_pos hek] at hl
              cases hl
              subst hek
              exact ⟨ty, v, hty, hv, by simp [Row.set]⟩
            · rw [if_neg hek] at hl
              obtain ⟨ty', v', h1, h2, h3⟩ := hR.param key e' hk hl
              exact ⟨ty', v', h1, h2, (hoth (key, ty') h1 (fun h => hek h.symm)).trans h3⟩
          · intro h hh hk hl
            rw [flatten_snoc, lastWith_snoc] at hl
            by_cases hek : e.key = h.1
            · rw [if_pos hek] at hl; cases hl
            · rw [if_neg hek] at hl
              exact (hoth h hh (fun h => hek h.symm)).trans (hR.other h hh hk hl)
        · have hki : ¬ ((k : Int) = (i : Int)) := fun h => hik (by exact_mod_cast h.symm)
          simp only [idxIs, hki, decide_false, Bool.false_eq_true, if_false] at hr
          subst hr
          have hs : ([(i, e)].filter fun u : Nat × Entry R => u.1 = k).map (fun u => Tree.leaf u.2) = [] := by simp [hik]
          rw [hs, List.append_nil]
          exact hR

/-- The effect of one result. -/
def toEff (T : Text) (u : Nat × Entry R) : GEff R := .update T u.1 u.2.key u.2.sqlval

/-- Updates in a row. -/
theorem run_updates (T : Text) : ∀ (us : List (Nat × Entry R)) (rows : List (Planned R)) (w w' : World R) (t : Table R), w.cur T = some t → RowsGood conv T rows t →
    (∀ u ∈ us, u.2.key ∉ adminKeys ∧ u.2.key ∈ t.header.map Prod.fst) → grun conv w (us.map (toEff T)) = (w', none) →
    ∃ t', w'.cur T = some t' ∧ w'.saved = w.saved ∧ t'.header = t.header ∧ RowsGood conv T (withResults rows us) t' ∧
      ∀ (k : Nat) r', t'.rows[k]? = some r' → ∃ r, t.rows[k]? = some r ∧ r'.rowid = r.rowid ∧ ∀ c, (∀ u ∈ us, u.1 = k → fold u.2.key ≠ c) → r'.cell c = r.cell c
  | [], rows, w, w', t, hc, hg, _, h => by
    cases h
    refine ⟨t, hc, rfl, rfl, by rw [withResults_nil]; exact hg, fun k r' hr => ⟨r', hr, rfl, fun _ _ => rfl⟩⟩
  | u :: us, rows, w, w', t, hc, hg, hu, h => by
    rw [List.map_cons] at h
    unfold grun at h
    simp only [toEff, gstep, hc] at h
    cases hv : bindVal u.2.sqlval with
    | none => rw [hv] at h; simp at h
    | some v =>
      rw [hv] at h
      simp only at h
      split at h
      · rename_i w1 hw1
        split at hw1
        · cases hw1
          obtain ⟨hu1, hu2⟩ := hu u List.mem_cons_self
          obtain ⟨⟨ky, ty⟩, hty, hky⟩ := List.mem_map.1 hu2
          simp only at hky
          subst hky
          have hg1 := update_good conv hg u.1 u.2 hu1 ty hty v hv
          obtain ⟨t', h1, h2, h3, h4, h5⟩ := run_updates T us _ _ w' (updateIdx conv t u.1 u.2.key v) (setAt_self _ _ _) hg1
            (fun x hx => hu x (List.mem_cons_of_mem _ hx)) h
          rw [withResults_append] at h4
          refine ⟨t', h1, h2, h3, h4, fun k r' hr' => ?_⟩
          obtain ⟨r1, k1, k2, k3⟩ := h5 k r' hr'
          simp only [updateIdx, List.getElem?_map, Option.map_eq_some_iff] at k1
          obtain ⟨r, k4, k5⟩ := k1
          refine ⟨r, k4, ?_, fun c hcu => ?_⟩
          · rw [k2, ← k5]
            split <;> rfl
          · rw [k3 c fun x hx => hcu x (List.mem_cons_of_mem _ hx), ← k5]
            split
            · rename_i hi
              have hk : k < rows.length := by
                rw [← hg.len]
                exact (List.getElem?_eq_some_iff.1 k4).1
              have hidx : r.cell (fold "idx".toList) = .int (k : Int) := (hg.row k r _ k4 (List.getElem?_eq_getElem hk)).idx
              rw [hidx] at hi
              have hn := hcu u List.mem_cons_self (by simpa [idxIs, eq_comm] using hi)
              simp only [Row.set]
              rw [if_neg (Ne.symm hn)]
            · rfl
        · cases hw1
      · simp at h

/-- What the loop does for the numbers `l`. -/
theorem body_take (s : Script R D) : ∀ (l : List Nat) (k : Nat), (∀ er, GEff.base (.fail er) ∉ (l.flatMap fun i : Nat => body s (.int (i : Int))).take k) →
    (l.flatMap fun i : Nat => body s (.int (i : Int))).take k =
      ((l.flatMap fun i : Nat => match s.results (i : Int) with | none => [] | some d => s.cols.map fun c => (i, resultEntry c d)).take k).map (toEff s.table)
  | [], k, _ => by simp
  | i :: l, k, h => by
    rw [List.flatMap_cons, List.flatMap_cons]
    rw [List.flatMap_cons] at h
    cases hr : s.results (i : Int) with
    | none =>
      have hb : body s (.int (i : Int)) = [.base (.fail .noDir)] := by simp [body, hr]
      cases k with
      | zero => simp
      | succ k => exact absurd (by rw [hb]; simp) (h .noDir)
    | some d =>
      have hb : body s (.int (i : Int)) = (s.cols.map fun c => (i, resultEntry c d)).map (toEff s.table) := by simp [body, hr, toEff, resultEntry]
      rw [hb] at h ⊢
      rw [List.take_append, List.length_map] at h
      simp only
      rw [List.take_append, List.take_append, List.length_map, List.map_append, List.map_take]
      congr 1
      exact body_take s l _ fun er hm => h er (List.mem_append_right _ hm)

/-- There are at least as many effects. -/
theorem body_len (s : Script R D) : ∀ (l : List Nat),
    (l.flatMap fun i : Nat => match s.results (i : Int) with | none => [] | some d => s.cols.map fun c => (i, resultEntry c d)).length ≤
      (l.flatMap fun i : Nat => body s (.int (i : Int))).length
  | [] => by simp
  | i :: l => by
    have := body_len s l
    rw [List.flatMap_cons, List.flatMap_cons, List.length_append, List.length_append]
    cases hr : s.results (i : Int) with
    | none => simp only [List.length_nil]; omega
    | some d =>
      have hb : (body s (.int (i : Int))).length = s.cols.length := by simp [body, hr]
      rw [hb]
      simp only [List.length_map]
      omega

/-- The plan of a script for a good table. -/
theorem gplan_eq {rows : List (Planned R)} {w : World R} (s : Script R D) {tabs : Text → Option (Table R)} {t : Table R} (hs : w.saved = some tabs) (ht : tabs s.table = some t)
    (hg : RowsGood conv s.table rows t) :
    gplan s w = (fixSqlHeader (s.cols.map fun c => (c.name, c.typ))).map (fun h => .base (.ensureCol s.table h.1 h.2)) ++
      (List.range rows.length).flatMap (fun i : Nat => body s (.int (i : Int))) ++ [.base .commit] := by
  have hidx : (t.findCol "idx".toList).isSome = true := by
    rw [findCol_of_mem hg.good (hg.admin ("idx".toList, "INTEGER".toList) (by simp [adminCols]))]
    rfl
  have hsel : selectCols t ["idx".toList] = some (t.rows.map fun r => [r.cell (fold "idx".toList)]) := by
    unfold selectCols
    rw [if_pos (by simpa using hidx)]
    rfl
  have hl : SqlQ.getList1d (t.rows.map fun r => [r.cell (fold "idx".toList)]) = (List.range rows.length).map fun i : Nat => PyV.int (i : Int) := by
    have e : (t.rows.map fun r => [r.cell (fold "idx".toList)]) = (List.range rows.length).map fun i : Nat => [SqlVal.int (i : Int)] := by
      apply List.ext_getElem
      · simp [hg.len]
      · intro i a b
        simp only [List.length_map, hg.len] at a
        have hr := List.getElem?_eq_getElem (l := t.rows) (i := i) (by rw [hg.len]; exact a)
        simp only [List.getElem_map, List.getElem_range]
        exact congrArg (fun x => [x]) (hg.row i _ _ hr (List.getElem?_eq_getElem a)).idx
    rw [e]
    induction List.range rows.length with
    | nil => rfl
    | cons i l ih =>
      simp only [List.map_cons]
      exact congrArg (PyV.int (i : Int) :: ·) ih
  unfold gplan
  simp only [hs, Option.getD_some, ht, hsel, hl, List.flatMap_map]

theorem fixSqltype_idem (ty : Text) : fixSqltype (fixSqltype ty) = fixSqltype ty := by
  have hup : upper (upper ty) = upper ty := by simp [upper, upperChar_idem]
  unfold fixSqltype
  simp only
  split
  · decide
  · rename_i h
    rw [hup, if_neg h]

/-- The state after the first `n` effects of a script. -/
theorem after_good {rows : List (Planned R)} {w w' : World R} (s : Script R D) {tabs : Text → Option (Table R)} {t : Table R} (hs : w.saved = some tabs) (ht : tabs s.table = some t)
    (hg : RowsGood conv s.table rows t) (hc : ∀ c ∈ s.cols, c.name ∉ adminKeys) (n : Nat) (h : after conv s w n = (w', none)) :
    ∃ t1 t', w'.cur s.table = some t' ∧ Extends t t1 ∧ t'.header = t1.header ∧ RowsGood conv s.table (withResults rows ((resultsOf s rows.length).take (n - s.cols.length))) t' ∧
      (∀ (k : Nat) r', t'.rows[k]? = some r' → ∃ r, t1.rows[k]? = some r ∧ r'.rowid = r.rowid ∧ ∀ c, (∀ u ∈ (resultsOf s rows.length).take (n - s.cols.length), u.1 = k → fold u.2.key ≠ c) → r'.cell c = r.cell c) ∧
      (∀ x ∈ t'.header, x ∈ t.header ∨ ∃ c ∈ s.cols, x = (c.name, fixSqltype c.typ)) ∧
      (n ≤ s.cols.length + (resultsOf s rows.length).length → ∃ tabs1, w'.saved = some tabs1 ∧ tabs1 s.table = some t1) ∧ w'.saved ≠ none ∧
      ((gplan s w).length ≤ n → w'.saved = some w'.cur) ∧
      (∀ u ∈ (resultsOf s rows.length).take (n - s.cols.length), u.2.key ∈ t'.header.map Prod.fst) := by
  have hp := gplan_eq conv s hs ht hg
  set A : List (GEff R) := (fixSqlHeader (s.cols.map fun c => (c.name, c.typ))).map (fun h => .base (.ensureCol s.table h.1 h.2)) with hA
  set L : List (GEff R) := (List.range rows.length).flatMap (fun i : Nat => body s (.int (i : Int))) with hL
  have hAl : A.length = s.cols.length := by simp [hA, fixSqlHeader]
  have hstart : w.start.cur s.table = some t ∧ w.start.saved = some w.start.cur := by
    simp [World.start, hs, ht]
  unfold after at h
  rw [hp, List.take_append, List.take_append, List.length_append, hAl, grun_append_ok] at h
  obtain ⟨w2, h, h3⟩ := h
  rw [grun_append_ok] at h
  obtain ⟨w1, h1, h2⟩ := h
  rw [hA, ← List.map_take] at h1
  obtain ⟨t1, a1, a2, a3, a4, a5⟩ := run_cols conv s.table _ _ w1 t hstart.1 hstart.2 h1
  have hg1 := rowsGood_extends conv hg a3
  have hb : L.take (n - s.cols.length) = ((resultsOf s rows.length).take (n - s.cols.length)).map (toEff s.table) := body_take s _ _ (no_fail conv _ _ _ h2)
  rw [hb] at h2
  have hkey : ∀ u ∈ resultsOf s rows.length, ∃ c ∈ s.cols, u.2.key = c.name := by
    intro u hu
    unfold resultsOf at hu
    obtain ⟨i, -, hu⟩ := List.mem_flatMap.1 hu
    cases hr : s.results (i : Int) with
    | none => rw [hr] at hu; cases hu
    | some d =>
      rw [hr] at hu
      obtain ⟨c, hc, rfl⟩ := List.mem_map.1 hu
      exact ⟨c, hc, rfl⟩
  have hin : ∀ u ∈ (resultsOf s rows.length).take (n - s.cols.length), u.2.key ∉ adminKeys ∧ u.2.key ∈ t1.header.map Prod.fst := by
    intro u hu
    obtain ⟨c, hcm, hcn⟩ := hkey u (List.mem_of_mem_take hu)
    refine ⟨by rw [hcn]; exact hc c hcm, ?_⟩
    have hk : s.cols.length ≤ n := by
      by_contra hk
      have : n - s.cols.length = 0 := by omega
      rw [this] at hu
      cases hu
    rw [hcn]
    refine a4 (c.name, fixSqltype c.typ) ?_
    rw [List.take_of_length_le (by simpa [fixSqlHeader] using hk)]
    exact List.mem_map.2 ⟨(c.name, c.typ), List.mem_map.2 ⟨c, hcm, rfl⟩, rfl⟩
  obtain ⟨t', b1, b2, b3, b4, b5⟩ := run_updates conv s.table _ rows w1 w2 t1 a1 hg1 hin h2
  have hw' : w'.cur = w2.cur ∧ (w'.saved = w2.saved ∧ n - (s.cols.length + L.length) = 0 ∨ w'.saved = some w2.cur ∧ n - (s.cols.length + L.length) ≠ 0) := by
    cases hk : n - (s.cols.length + L.length) with
    | zero => rw [hk] at h3; cases h3; exact ⟨rfl, .inl ⟨rfl, rfl⟩⟩
    | succ m => rw [hk, List.take_of_length_le (by simp)] at h3; cases h3; exact ⟨rfl, .inr ⟨rfl, by simp⟩⟩
  have hlen : (resultsOf s rows.length).length ≤ L.length := body_len s _
  refine ⟨t1, t', by rw [hw'.1]; exact b1, a3, b3, b4, ?_, ?_, ?_, ?_, ?_, fun u hu => by rw [b3]; exact (hin u hu).2⟩
  · intro i r' hr'
    obtain ⟨r, c1, c2, c3⟩ := b5 i r' hr'
    exact ⟨r, c1, c2, c3⟩
  · intro x hx
    rw [b3] at hx
    rcases a5 x hx with h4 | ⟨h4, h5, h6⟩
    · exact .inl h4
    · right
      obtain ⟨y, hy, rfl⟩ := List.mem_map.1 (List.mem_of_mem_take h5)
      obtain ⟨c, hcm, rfl⟩ := List.mem_map.1 hy
      exact ⟨c, hcm, by rw [h6]; simp only [fixSqltype_idem]⟩
  · intro hk
    rcases hw'.2 with ⟨h4, -⟩ | ⟨-, h4⟩
    · exact ⟨w1.cur, by rw [h4, b2, a2], a1⟩
    · omega
  · rcases hw'.2 with ⟨h4, -⟩ | ⟨h4, -⟩ <;> rw [h4]
    · rw [b2, a2]; simp
    · simp
  · intro hk
    rw [hp, List.length_append, List.length_append, hAl, List.length_singleton] at hk
    rcases hw'.2 with ⟨-, h4⟩ | ⟨h4, -⟩
    · omega
    · rw [h4, hw'.1]

theorem mono_withResults {rows : List (Planned R)} (h : Mono rows) (us : List (Nat × Entry R)) : Mono (withResults rows us) := by
  unfold Mono at h ⊢
  rw [List.pairwise_iff_getElem] at h ⊢
  intro i j hi hj hij
  rw [withResults_len] at hi hj
  simpa [withResults] using h i j hi hj hij

theorem gather_after {w w' : World R} (s : Script R D) (h : gather conv s w = (w', none)) : after conv s w (gplan s w).length = (w', none) := by
  unfold after
  rw [List.take_length]
  exact h

/-- A study at any time of its life. -/
theorem life_good (T : Text) (rows : List (Planned R)) (w : World R) (h : Life conv D T rows w) :
    Mono rows ∧ ((w.saved = none ∧ rows = []) ∨ DbGood conv T rows w) := by
  induction h with
  | start w hw => exact ⟨by simp [Mono], .inl ⟨hw, rfl⟩⟩
  | call rows w c w' _ hT hM hr ih => exact ⟨mono_planned ih.1 c, .inr (call_good conv T rows ih.1 c hT hM w w' ih.2 hr)⟩
  | gathered rows w s w' _ hT hc hr ih =>
    subst hT
    refine ⟨mono_withResults ih.1 _, ?_⟩
    rcases ih.2 with ⟨hn, -⟩ | ⟨tabs, t, h1, h2, h3, h4⟩
    · simp [gather, gplan, hn, grun, gstep, step] at hr
    · right
      obtain ⟨t1, t', b1, b2, b3, b4, b5, b6, b7, b8, b9, b10⟩ := after_good conv s h1 h2 h3 hc _ (gather_after conv s hr)
      have hp := gplan_eq conv s h1 h2 h3
      have hlen : (resultsOf s rows.length).length ≤ ((List.range rows.length).flatMap fun i : Nat => body s (.int (i : Int))).length := body_len s (List.range rows.length)
      have : (resultsOf s rows.length).length ≤ (gplan s w).length - s.cols.length := by
        rw [hp]
        simp only [List.length_append, List.length_map, fixSqlHeader, List.length_singleton]
        omega
      rw [List.take_of_length_le this] at b4
      exact ⟨w'.cur, t', b9 le_rfl, b1, b4, fun e => h4 (List.length_eq_zero_iff.1 (by rw [← withResults_len rows, e]; rfl))⟩
  | raised rows w s k w' _ hw hT hc hr ih =>
    subst hT
    refine ⟨mono_withResults ih.1 _, ?_⟩
    rcases ih.2 with ⟨hn, -⟩ | ⟨tabs, t, h1, h2, h3, h4⟩
    · exact absurd hn hw
    · right
      obtain ⟨t1, t', b1, b2, b3, b4, b5, b6, b7, b8, b9, b10⟩ := after_good conv s h1 h2 h3 hc k hr
      refine ⟨w'.cur, t', ?_, b1, b4, fun e => h4 (List.length_eq_zero_iff.1 (by rw [← withResults_len rows, e]; rfl))⟩
      unfold closed
      cases hs : w'.saved with
      | none => exact absurd hs b8
      | some x => rfl
  | killed rows w s k w' _ hw hT hc hk hr ih =>
    subst hT
    refine ⟨ih.1, ?_⟩
    rcases ih.2 with ⟨hn, -⟩ | ⟨tabs, t, h1, h2, h3, h4⟩
    · exact absurd hn hw
    · right
      obtain ⟨t1, t', b1, b2, b3, b4, b5, b6, b7, b8, b9, b10⟩ := after_good conv s h1 h2 h3 hc k hr
      obtain ⟨tabs1, c1, c2⟩ := b7 hk
      exact ⟨tabs1, t1, c1, c2, rowsGood_extends conv h3 b2, h4⟩

/-- **C143** At any time in the life of a study, the committed table has exactly the expected rows, in their order, with their numbers, names and parameters; under the name of a result a row has the
value which was written last for its own number. -/
theorem C143_history (T : Text) (rows : List (Planned R)) (w : World R) (h : Life conv D T rows w) (hw : w.saved ≠ none) :
    ∃ tabs t, w.saved = some tabs ∧ tabs T = some t ∧ t.rows.length = rows.length ∧
      ∀ (k : Nat) r pl, t.rows[k]? = some r → rows[k]? = some pl → RowIs conv t.header k pl r := by
  rcases (life_good conv T rows w h).2 with ⟨hn, -⟩ | ⟨tabs, t, h1, h2, h3, -⟩
  · exact absurd hn hw
  · exact ⟨tabs, t, h1, h2, h3.len, h3.row⟩

theorem flatten_leaves (p : List (Tree (Entry R))) (l : List (Entry R)) : flatten (p ++ l.map .leaf) = flatten p ++ l := by
  induction l generalizing p with
  | nil => simp
  | cons e l ih =>
    rw [List.map_cons, List.append_cons, ih, flatten_snoc, List.append_assoc]
    rfl

theorem resultsOf_mem (s : Script R D) (n : Nat) (u : Nat × Entry R) (hu : u ∈ resultsOf s n) : ∃ d, s.results (u.1 : Int) = some d ∧ ∃ c ∈ s.cols, u.2 = resultEntry c d := by
  unfold resultsOf at hu
  obtain ⟨i, -, hu⟩ := List.mem_flatMap.1 hu
  cases hr : s.results (i : Int) with
  | none => rw [hr] at hu; cases hu
  | some d =>
    rw [hr] at hu
    obtain ⟨c, hc, rfl⟩ := List.mem_map.1 hu
    exact ⟨d, hr, c, hc, rfl⟩

/-- **C143** An interrupted script, after any number of its effects: the table still has the same rows. Under the name of each quantity of the script a row has the result of its own calculation, or
what it had before (NULL if the column is new); all other columns are unchanged. This holds for the open connection, so for what an exception leaves (`closed`). -/
theorem C143_interrupted (T : Text) (rows : List (Planned R)) (w w' : World R) (h : Life conv D T rows w) (hw : w.saved ≠ none) (s : Script R D) (hT : s.table = T)
    (hc : ∀ c ∈ s.cols, c.name ∉ adminKeys) (n : Nat) (hr : after conv s w n = (w', none)) :
    ∃ tabs t t', w.saved = some tabs ∧ tabs T = some t ∧ w'.cur T = some t' ∧ (closed w').saved = some w'.cur ∧ t'.rows.length = t.rows.length ∧ (∀ x ∈ t.header, x ∈ t'.header) ∧
      ∀ (k : Nat) r r', t.rows[k]? = some r → t'.rows[k]? = some r' → ∀ x ∈ t'.header,
        (r'.cell (fold x.1) = if x ∈ t.header then r.cell (fold x.1) else .null) ∨
        ∃ c ∈ s.cols, c.name = x.1 ∧ ∃ d v, s.results k = some d ∧ bindVal (c.value d) = some v ∧ r'.cell (fold x.1) = store conv x.2 v := by
  subst hT
  rcases (life_good conv _ rows w h).2 with ⟨hn, -⟩ | ⟨tabs, t, h1, h2, h3, h4⟩
  · exact absurd hn hw
  · obtain ⟨t1, t', b1, b2, b3, b4, b5, b6, b7, b8, b9, b10⟩ := after_good conv s h1 h2 h3 hc n hr
    refine ⟨tabs, t, t', h1, h2, b1, ?_, by rw [b4.len, withResults_len, h3.len], fun x hx => by rw [b3]; exact b2.sub x hx, ?_⟩
    · unfold closed
      cases hs : w'.saved with
      | none => exact absurd hs b8
      | some x => rfl
    · intro k r r' hk hk' x hx
      by_cases hex : ∃ u ∈ (resultsOf s rows.length).take (n - s.cols.length), u.1 = k ∧ u.2.key = x.1
      · right
        obtain ⟨u, hu, hu1, hu2⟩ := hex
        have hl : k < rows.length := by
          rw [← h3.len]
          exact (List.getElem?_eq_some_iff.1 hk).1
        have hrow := b4.row k r' _ hk' (by rw [withResults_get, List.getElem?_eq_getElem hl]; rfl)
        set us := (resultsOf s rows.length).take (n - s.cols.length) with hus
        have hfl : flatten (rows[k].params ++ (us.filter fun u => u.1 = k).map fun u => Tree.leaf u.2) = flatten rows[k].params ++ (us.filter fun u => u.1 = k).map Prod.snd := by
          rw [← flatten_leaves, List.map_map]
          rfl
        have hx1 : x.1 ∉ adminKeys := by
          obtain ⟨d, -, c, hcm, he⟩ := resultsOf_mem s _ u (List.mem_of_mem_take hu)
          rw [← hu2, he]
          exact hc c hcm
        have hlast : ∃ e, lastWith (flatten rows[k].params ++ (us.filter fun u => u.1 = k).map Prod.snd) x.1 = some e ∧ e ∈ (us.filter fun u => u.1 = k).map Prod.snd ∧ e.key = x.1 := by
          unfold lastWith
          rw [List.filter_append]
          have hne : (((us.filter fun u => u.1 = k).map Prod.snd).filter fun e => e.key = x.1) ≠ [] := by
            refine List.ne_nil_of_mem (a := u.2) (List.mem_filter.2 ⟨List.mem_map.2 ⟨u, List.mem_filter.2 ⟨hu, by simpa using hu1⟩, rfl⟩, by simpa using hu2⟩)
          rw [List.getLast?_append_of_ne_nil _ hne, List.getLast?_eq_some_getLast hne]
          have hm := List.mem_filter.1 (List.getLast_mem hne)
          exact ⟨_, rfl, hm.1, by simpa using hm.2⟩
        obtain ⟨e, he1, he2, he3⟩ := hlast
        obtain ⟨ty, v, p1, p2, p3⟩ := hrow.param x.1 e hx1 (by rw [hfl]; exact he1)
        obtain ⟨u', hu', rfl⟩ := List.mem_map.1 he2
        obtain ⟨hu', hk2⟩ := List.mem_filter.1 hu'
        obtain ⟨d, hd, c, hcm, hce⟩ := resultsOf_mem s _ u' (List.mem_of_mem_take hu')
        have hk2 : u'.1 = k := by simpa using hk2
        rw [hk2] at hd
        rw [hce] at p2 he3
        have hty : (x.1, ty) = x := by
          have := List.inj_on_of_nodup_map b4.good p1 hx rfl
          exact this
        refine ⟨c, hcm, he3, d, v, hd, p2, ?_⟩
        rw [p3, ← hty]
      · left
        obtain ⟨r1, c1, -, c3⟩ := b5 k r' hk'
        rw [c3 (fold x.1)]
        · obtain ⟨r0, e1, e2, e3⟩ := b2.old k r1 c1
          rw [hk] at e1
          cases e1
          split
          · rename_i hxt
            exact e2 x hxt
          · rename_i hxt
            exact e3 x (by rw [← b3]; exact hx) hxt
        · intro u hu hu1 hf
          obtain ⟨d, -, c, hcm, hce⟩ := resultsOf_mem s _ u (List.mem_of_mem_take hu)
          have hkey : u.2.key ∈ t'.header.map Prod.fst := b10 u hu
          obtain ⟨y, hy, hy1⟩ := List.mem_map.1 hkey
          rw [← hy1] at hf
          have := List.inj_on_of_nodup_map b4.good hy hx hf
          exact hex ⟨u, hu, hu1, by rw [← hy1, this]⟩

/-- **C143** A script which returns: for each row there were results, and each quantity of the script is in the row of its own calculation, in a column of that name; the type is the one of the script
if the column is new. All other columns are unchanged, no row is added or lost, and all is committed. The names of the quantities are different. -/
theorem C143_gather (T : Text) (rows : List (Planned R)) (w w' : World R) (h : Life conv D T rows w) (s : Script R D) (hT : s.table = T)
    (hc : ∀ c ∈ s.cols, c.name ∉ adminKeys) (hn : (s.cols.map Col.name).Nodup) (hr : gather conv s w = (w', none)) :
    ∃ tabs t tabs' t', w.saved = some tabs ∧ tabs T = some t ∧ w'.saved = some tabs' ∧ tabs' T = some t' ∧ t'.rows.length = t.rows.length ∧
      (∀ x ∈ t'.header, x ∈ t.header ∨ ∃ c ∈ s.cols, x = (c.name, fixSqltype c.typ)) ∧
      ∀ (k : Nat) r r', t.rows[k]? = some r → t'.rows[k]? = some r' → r'.cell "idx".toList = .int k ∧
        (∃ d, s.results k = some d ∧ ∀ c ∈ s.cols, ∃ ty v, (c.name, ty) ∈ t'.header ∧ bindVal (c.value d) = some v ∧ r'.cell (fold c.name) = store conv ty v) ∧
        ∀ x ∈ t.header, x.1 ∉ s.cols.map Col.name → x ∈ t'.header ∧ r'.cell (fold x.1) = r.cell (fold x.1) := by
  subst hT
  rcases (life_good conv _ rows w h).2 with ⟨hw, -⟩ | ⟨tabs, t, h1, h2, h3, h4⟩
  · simp [gather, gplan, hw, grun, gstep, step] at hr
  · have ha := gather_after conv s hr
    obtain ⟨t1, t', b1, b2, b3, b4, b5, b6, b7, b8, b9, b10⟩ := after_good conv s h1 h2 h3 hc _ ha
    obtain ⟨tabs0, t0, t0', i1, i2, i3, -, i5, i6, i7⟩ := C143_interrupted conv _ rows w w' h (by rw [h1]; simp) s rfl hc _ ha
    rw [h1] at i1
    cases i1
    rw [h2] at i2
    cases i2
    rw [b1] at i3
    cases i3
    refine ⟨tabs, t, w'.cur, t', h1, h2, b9 le_rfl, b1, i5, b6, fun k r r' hk hk' => ?_⟩
    have hp := gplan_eq conv s h1 h2 h3
    have hl : k < rows.length := by
      rw [← h3.len]
      exact (List.getElem?_eq_some_iff.1 hk).1
    have hnf := no_fail conv _ _ _ hr
    have hd : ∃ d, s.results (k : Int) = some d := by
      cases hd : s.results (k : Int) with
      | some d => exact ⟨d, rfl⟩
      | none =>
        refine absurd ?_ (hnf .noDir)
        rw [hp]
        refine List.mem_append_left _ (List.mem_append_right _ (List.mem_flatMap.2 ⟨k, List.mem_range.2 hl, ?_⟩))
        simp [body, hd]
    obtain ⟨d, hd⟩ := hd
    have hlen : (resultsOf s rows.length).length ≤ ((List.range rows.length).flatMap fun i : Nat => body s (.int (i : Int))).length := body_len s (List.range rows.length)
    have htake : (resultsOf s rows.length).take ((gplan s w).length - s.cols.length) = resultsOf s rows.length := by
      refine List.take_of_length_le ?_
      rw [hp]
      simp only [List.length_append, List.length_map, fixSqlHeader, List.length_singleton]
      omega
    rw [htake] at b4 b5 b10
    have hmem : ∀ c ∈ s.cols, (k, resultEntry c d) ∈ resultsOf s rows.length := by
      intro c hcm
      refine List.mem_flatMap.2 ⟨k, List.mem_range.2 hl, ?_⟩
      simp only [hd]
      exact List.mem_map.2 ⟨c, hcm, rfl⟩
    have hrow := b4.row k r' _ hk' (by rw [withResults_get, List.getElem?_eq_getElem hl]; rfl)
    refine ⟨hrow.idx, ⟨d, hd, fun c hcm => ?_⟩, fun x hx hxn => ⟨i6 x hx, ?_⟩⟩
    · have hfl : flatten (rows[k].params ++ ((resultsOf s rows.length).filter fun u => u.1 = k).map fun u => Tree.leaf u.2) =
          flatten rows[k].params ++ ((resultsOf s rows.length).filter fun u => u.1 = k).map Prod.snd := by
        rw [← flatten_leaves, List.map_map]
        rfl
      have hlast : lastWith (flatten rows[k].params ++ ((resultsOf s rows.length).filter fun u => u.1 = k).map Prod.snd) c.name = some (resultEntry c d) := by
        unfold lastWith
        rw [List.filter_append]
        have hne : ((((resultsOf s rows.length).filter fun u => u.1 = k).map Prod.snd).filter fun e => e.key = c.name) ≠ [] :=
          List.ne_nil_of_mem (a := resultEntry c d) (List.mem_filter.2 ⟨List.mem_map.2 ⟨_, List.mem_filter.2 ⟨hmem c hcm, by simp⟩, rfl⟩, by simp [resultEntry]⟩)
        rw [List.getLast?_append_of_ne_nil _ hne, List.getLast?_eq_some_getLast hne]
        have hm := List.mem_filter.1 (List.getLast_mem hne)
        obtain ⟨u, hu, hue⟩ := List.mem_map.1 hm.1
        obtain ⟨hu, huk⟩ := List.mem_filter.1 hu
        obtain ⟨d', hd', c', hc', he'⟩ := resultsOf_mem s _ u hu
        have huk : u.1 = k := by simpa using huk
        rw [huk, hd] at hd'
        cases hd'
        have hkey : c'.name = c.name := by
          have := hm.2
          rw [← hue, he'] at this
          exact of_decide_eq_true this
        have : c' = c := List.inj_on_of_nodup_map hn hc' hcm hkey
        rw [← hue, he', this]
      obtain ⟨ty, v, p1, p2, p3⟩ := hrow.param c.name (resultEntry c d) (hc c hcm) (by rw [hfl]; exact hlast)
      exact ⟨ty, v, p1, p2, p3⟩
    · rcases i7 k r r' hk hk' x (i6 x hx) with h5 | ⟨c, hcm, hcn, -⟩
      · rw [h5, if_pos hx]
      · exact absurd (List.mem_map.2 ⟨c, hcm, hcn⟩) hxn

theorem cols_ok (T : Text) : ∀ (l : List (Text × Text)) (w : World R) (t : Table R), w.cur T = some t → (∀ a ∈ l, ∀ h ∈ t.header, fold h.1 = fold a.1 → h.1 = a.1) →
    (∀ a ∈ l, ∀ b ∈ l, fold a.1 = fold b.1 → a.1 = b.1) → ∃ w', grun conv w (l.map fun h => .base (.ensureCol T h.1 h.2)) = (w', none)
  | [], w, _, _, _, _ => ⟨w, rfl⟩
  | a :: l, w, t, hc, h1, h2 => by
    have hadd : ∃ t', addColumn t a.1 a.2 = .ok t' := by
      unfold addColumn
      by_cases hh : hasColumn t a.1 = true
      · exact ⟨t, by rw [if_pos hh]⟩
      · have hf : t.findCol a.1 = none := by
          unfold Table.findCol
          rw [List.find?_eq_none]
          intro x hx hfx
          apply hh
          have := h1 a List.mem_cons_self x hx (by simpa using hfx)
          unfold hasColumn
          rw [List.any_eq_true]
          exact ⟨x, hx, by simpa using this⟩
        rw [if_neg hh]
        simp only [Table.alterAdd, hf, Option.isSome_none, Bool.false_eq_true, if_false]
        exact ⟨_, rfl⟩
    obtain ⟨t', ht'⟩ := hadd
    obtain ⟨-, -, x3⟩ := addColumn_extends ht'
    obtain ⟨w', hw'⟩ := cols_ok T l { w with cur := setAt w.cur T (some t'), saved := some (setAt w.cur T (some t')) } t' (setAt_self _ _ _) (by
      intro b hb h hh hf
      rcases x3 h hh with h3 | h3
      · exact h1 b (List.mem_cons_of_mem _ hb) h h3 hf
      · rw [h3] at hf ⊢
        exact h2 a List.mem_cons_self b (List.mem_cons_of_mem _ hb) hf) (fun x hx y hy => h2 x (List.mem_cons_of_mem _ hx) y (List.mem_cons_of_mem _ hy))
    refine ⟨w', ?_⟩
    rw [List.map_cons]
    unfold grun
    simp only [gstep, step, hc, ht']
    exact hw'

theorem updates_ok (T : Text) : ∀ (us : List (Nat × Entry R)) (w : World R) (t : Table R), w.cur T = some t → (t.findCol "idx".toList).isSome = true →
    (∀ u ∈ us, (t.findCol u.2.key).isSome = true ∧ (bindVal u.2.sqlval).isSome = true) → ∃ w', grun conv w (us.map (toEff T)) = (w', none)
  | [], w, _, _, _, _ => ⟨w, rfl⟩
  | u :: us, w, t, hc, hi, h => by
    obtain ⟨h1, h2⟩ := h u List.mem_cons_self
    obtain ⟨v, hv⟩ := Option.isSome_iff_exists.1 h2
    obtain ⟨w', hw'⟩ := updates_ok T us { w with cur := setAt w.cur T (some (updateIdx conv t u.1 u.2.key v)) } (updateIdx conv t u.1 u.2.key v) (setAt_self _ _ _) hi
      (fun x hx => h x (List.mem_cons_of_mem _ hx))
    refine ⟨w', ?_⟩
    rw [List.map_cons]
    unfold grun
    simp only [toEff, gstep, hc, hv]
    rw [if_pos ⟨h1, hi⟩]
    exact hw'

/-- **C143** A script returns if there are results for each calculation of the study, with values which sqlite can store, and no name of a quantity differs from the one of another quantity or of a
column only by the case of letters. -/
theorem C143_returns (T : Text) (rows : List (Planned R)) (w : World R) (h : Life conv D T rows w) (tabs : Text → Option (Table R)) (t : Table R) (hw : w.saved = some tabs) (ht : tabs T = some t)
    (s : Script R D) (hT : s.table = T) (hf : ∀ a ∈ s.cols, ∀ x ∈ t.header, fold x.1 = fold a.name → x.1 = a.name) (hf2 : ∀ a ∈ s.cols, ∀ b ∈ s.cols, fold a.name = fold b.name → a.name = b.name)
    (hres : ∀ k : Nat, k < rows.length → ∃ d, s.results k = some d ∧ ∀ c ∈ s.cols, (bindVal (c.value d)).isSome = true) : ∃ w', gather conv s w = (w', none) := by
  subst hT
  rcases (life_good conv _ rows w h).2 with ⟨hn, -⟩ | ⟨tabs0, t0, h1, h2, h3, -⟩
  · rw [hw] at hn; cases hn
  · rw [hw] at h1
    cases h1
    rw [ht] at h2
    cases h2
    have hp := gplan_eq conv s hw ht h3
    have hstart : w.start.cur s.table = some t ∧ w.start.saved = some w.start.cur := by
      simp [World.start, hw, ht]
    have hnf : ∀ er, GEff.base (.fail er) ∉ ((List.range rows.length).flatMap fun i : Nat => body s (.int (i : Int))).take
        ((List.range rows.length).flatMap fun i : Nat => body s (.int (i : Int))).length := by
      intro er hm
      rw [List.take_length] at hm
      obtain ⟨i, hi, hm⟩ := List.mem_flatMap.1 hm
      obtain ⟨d, hd, -⟩ := hres i (List.mem_range.1 hi)
      simp [body, hd] at hm
    have hb := body_take s (List.range rows.length) _ hnf
    rw [List.take_length, List.take_of_length_le (body_len s _)] at hb
    have hmemc : ∀ a ∈ fixSqlHeader (s.cols.map fun c => (c.name, c.typ)), ∃ c ∈ s.cols, a = (c.name, fixSqltype c.typ) := by
      intro a ha
      obtain ⟨y, hy, rfl⟩ := List.mem_map.1 ha
      obtain ⟨c, hcm, rfl⟩ := List.mem_map.1 hy
      exact ⟨c, hcm, rfl⟩
    obtain ⟨w1, hw1⟩ := cols_ok conv s.table (fixSqlHeader (s.cols.map fun c => (c.name, c.typ))) w.start t hstart.1 (by
      intro a ha x hx hfx
      obtain ⟨c, hcm, rfl⟩ := hmemc a ha
      exact hf c hcm x hx hfx) (by
      intro a ha b hb hfx
      obtain ⟨c, hcm, rfl⟩ := hmemc a ha
      obtain ⟨c', hcm', rfl⟩ := hmemc b hb
      exact hf2 c hcm c' hcm' hfx)
    obtain ⟨t1, a1, a2, a3, a4, -⟩ := run_cols conv s.table _ _ w1 t hstart.1 hstart.2 hw1
    have hg1 := rowsGood_extends conv h3 a3
    obtain ⟨w2, hw2⟩ := updates_ok conv s.table (resultsOf s rows.length) w1 t1 a1 (by
      rw [findCol_of_mem hg1.good (hg1.admin ("idx".toList, "INTEGER".toList) (by simp [adminCols]))]
      rfl) (by
      intro u hu
      have hu' := hu
      unfold resultsOf at hu'
      obtain ⟨i, hi, hu'⟩ := List.mem_flatMap.1 hu'
      obtain ⟨d, hd, hv⟩ := hres i (List.mem_range.1 hi)
      rw [hd] at hu'
      obtain ⟨c, hcm, rfl⟩ := List.mem_map.1 hu'
      refine ⟨?_, hv c hcm⟩
      obtain ⟨y, hy, hy1⟩ := List.mem_map.1 (a4 (c.name, fixSqltype c.typ) (List.mem_map.2 ⟨(c.name, c.typ), List.mem_map.2 ⟨c, hcm, rfl⟩, rfl⟩))
      simp only at hy1
      show (t1.findCol c.name).isSome = true
      rw [← hy1, findCol_of_mem hg1.good hy]
      rfl)
    refine ⟨{ w2 with saved := some w2.cur }, ?_⟩
    unfold gather
    rw [hp, grun_append_ok]
    refine ⟨w2, ?_, rfl⟩
    rw [grun_append_ok]
    exact ⟨w1, hw1, by rw [hb]; exact hw2⟩

/-- An example: two quantities of three results. -/
def exScript : Script Nat Nat := ⟨"calc".toList, [⟨"etot".toList, "float".toList, .float⟩, ⟨"volume".toList, "float".toList, fun d => .float (d + 1)⟩], fun i => if i < 3 then some (10 * i.toNat) else none⟩

def exG1 : World Nat := (gather (fun _ v => v) exScript exW1).1
def exG2 : World Nat := (exRun exS2 false exG1).1

theorem exG1_ok : gather (fun _ v => v) exScript exW1 = (exG1, none) := by
  have : (gather (fun _ v => v) exScript exW1).2 = none := by decide
  exact Prod.ext rfl this

/-- The hypotheses are met: a study with two calculations, gathered; then it is extended by one more. -/
theorem exLife1 : Life (fun _ v => v) Nat "calc".toList (planned [] ⟨exS1, exOpts false⟩) exW1 :=
  .call [] exWorld ⟨exS1, exOpts false⟩ exW1 (.start _ rfl) rfl (by simp [exS1, exStudy]) (exRun_ok exS1 false exWorld (by decide))

theorem exLife2 : Life (fun _ v => v) Nat "calc".toList (planned (withResults (planned [] ⟨exS1, exOpts false⟩) (resultsOf exScript 2)) ⟨exS2, exOpts false⟩) exG2 :=
  .call _ exG1 ⟨exS2, exOpts false⟩ exG2 (.gathered _ exW1 exScript exG1 exLife1 rfl (by unfold exScript adminKeys; decide) exG1_ok) rfl (by simp [exS2, exStudy])
    (exRun_ok exS2 false exG1 (by decide))

/-- Gathered again, all three rows have their results. -/
example : ∃ tabs t, (gather (fun _ v => v) exScript exG2).1.saved = some tabs ∧ (gather (fun _ v => v) exScript exG2).2 = none ∧ tabs "calc".toList = some t ∧
    t.rows.map (fun r => (r.cell "idx".toList, r.cell "etot".toList, r.cell "volume".toList)) = [(.int 0, .real 0, .real 1), (.int 1, .real 10, .real 11), (.int 2, .real 20, .real 21)] :=
  ⟨_, _, rfl, by decide, rfl, by decide⟩

end Pwtools.Gather
