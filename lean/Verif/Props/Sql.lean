import Verif.Model.Sql
import Verif.Spec.Sql
import Mathlib.Data.List.Basic
import Mathlib.Data.List.Nodup
import Mathlib.Tactic.Linarith
import Mathlib.Tactic.IntervalCases
/-!
# C12, C13, C14, C20
-/
namespace Pwtools
open Spec
variable {R : Type} (conv : Text → SqlVal R → SqlVal R)

/-! ## C14 -/

theorem upperChar_idem (c : Char) : c.toUpper.toUpper = c.toUpper := by
  by_cases h : 97 ≤ c.toNat ∧ c.toNat ≤ 122
  · obtain ⟨h1, h2⟩ := h
    rw [← Char.ofNat_toNat c]
    generalize c.toNat = n at h1 h2
    interval_cases n <;> decide
  · have : c.toUpper = c := by
      rw [Char.toUpper, dif_neg]
      intro hh
      exact h ⟨hh.1, hh.2⟩
    rw [this, this]

theorem C14_fix_sqltype (s : Text) :
    fixSqltype (fixSqltype s) = fixSqltype s ∧
    (fixSqltype s = if s.map Char.toUpper = "FLOAT".toList then "REAL".toList else s.map Char.toUpper) := by
  have hup : upper (upper s) = upper s := by simp [upper, upperChar_idem]
  refine ⟨?_, rfl⟩
  unfold fixSqltype
  by_cases h : upper s = "FLOAT".toList
  · simp only [h, if_true]; decide
  · simp only [h, if_false, hup]


/-- Non-vacuity: mixed spellings. -/
example : fixSqltype "fLoat".toList = "REAL".toList ∧ fixSqltype "text".toList = "TEXT".toList := by
  decide

/-- C14: `find_sqltype` accepts a value iff its Python type is one of the mapped ones; the
names it returns are fixed points of `fix_sqltype`; a bool counts as an int. -/
theorem C14_find_sqltype (v : PyV R) :
    (findSqltype v = none ↔ ∃ n, v.ty = .other n) ∧
    (∀ st, findSqltype v = some st → fixSqltype st = st) ∧
    (∀ st, findSqltype v = some st →
      (st = "INTEGER".toList ↔ v.ty = .int ∨ v.ty = .bool) ∧
      (st = "REAL".toList ↔ v.ty = .float) ∧ (st = "TEXT".toList ↔ v.ty = .str) ∧
      (st = "BLOB".toList ↔ v.ty = .mem) ∧ (st = "NULL".toList ↔ v.ty = .none)) := by
  cases v <;> simp [findSqltype, PyV.ty, fixSqltype, upper] <;> decide

theorem oneKind_iff {α : Type} [DecidableEq α] (l : List α) :
    oneKind l = true ↔ l ≠ [] ∧ ∀ a ∈ l, ∀ b ∈ l, a = b := by
  cases l with
  | nil => simp [oneKind]
  | cons x xs =>
    simp only [oneKind, List.all_eq_true, decide_eq_true_eq, ne_eq, reduceCtorEq,
      not_false_eq_true, true_and, List.mem_cons]
    constructor
    · rintro h a (rfl | ha) b (rfl | hb)
      · rfl
      · exact (h b hb).symm
      · exact h a ha
      · rw [h a ha, h b hb]
    · intro h b hb
      exact h b (Or.inr hb) x (Or.inl rfl)

theorem findSqltype_ty {v w : PyV R} (h : v.ty = w.ty) : findSqltype v = findSqltype w := by
  cases v <;> cases w <;> simp_all [PyV.ty, findSqltype]

theorem fixSqltype_upper (t : Text) : fixSqltype (upper t) = fixSqltype t := by
  have hup : upper (upper t) = upper t := by simp [upper, upperChar_idem]
  simp [fixSqltype, hup]

/-- C14: `sql_column` succeeds exactly when the list is not empty, all values have the same
Python type and (without an explicit type) that type is a known one. Then it gives one entry
per value, in order, all with the same key and type: the normalised given type, or the type
which every single value has on its own. -/
theorem C14_sql_column {A F : Type} (key : Text) (lst : List A) (ty : Option Text)
    (sv : A → PyV R) (fv : A → F) :
    ((∃ es, sqlColumn key lst ty sv fv = .ok es) ↔
      lst ≠ [] ∧ (∀ a ∈ lst, ∀ b ∈ lst, (sv a).ty = (sv b).ty) ∧
      (ty = none → ∀ a ∈ lst, ∀ n, (sv a).ty ≠ .other n)) ∧
    (∀ es, sqlColumn key lst ty sv fv = .ok es →
      es.map SQLEntry.sqlval = lst.map sv ∧ es.map SQLEntry.fileval = lst.map fv ∧
      (∀ e ∈ es, e.key = key) ∧
      (∀ t, ty = some t → ∀ e ∈ es, e.sqltype = fixSqltype t) ∧
      (ty = none → ∀ e ∈ es, findSqltype e.sqlval = some e.sqltype)) := by
  have entries : ∀ st : Text, ∀ es : List (SQLEntry R F),
      es = ((lst.map sv).zip (lst.map fv)).map (fun p => (⟨fixSqltype st, p.1, p.2, key⟩ : SQLEntry R F)) →
      es.map SQLEntry.sqlval = lst.map sv ∧ es.map SQLEntry.fileval = lst.map fv ∧
      (∀ e ∈ es, e.key = key) ∧ (∀ e ∈ es, e.sqltype = fixSqltype st) ∧
      (∀ e ∈ es, ∃ a ∈ lst, e.sqlval = sv a) := by
    rintro st es rfl
    refine ⟨?_, ?_, ?_, ?_, ?_⟩
    · rw [List.map_map]; exact List.map_fst_zip (by simp)
    · rw [List.map_map]; exact List.map_snd_zip (by simp)
    · intro e he; simp only [List.mem_map] at he; obtain ⟨p, _, rfl⟩ := he; rfl
    · intro e he; simp only [List.mem_map] at he; obtain ⟨p, _, rfl⟩ := he; rfl
    · intro e he
      simp only [List.mem_map] at he
      obtain ⟨p, hp, rfl⟩ := he
      obtain ⟨a, ha, h⟩ := List.mem_map.1 (List.of_mem_zip hp).1
      exact ⟨a, ha, h.symm⟩
  have hk : oneKind ((lst.map sv).map PyV.ty) = true ↔
      lst ≠ [] ∧ ∀ a ∈ lst, ∀ b ∈ lst, (sv a).ty = (sv b).ty := by
    rw [oneKind_iff]
    simp
  cases lst with
  | nil => simp [sqlColumn, oneKind]
  | cons x xs =>
    by_cases hone : oneKind (((x :: xs).map sv).map PyV.ty) = true
    · have hty := (hk.1 hone).2
      have hone' : oneKind ((sv x).ty :: (xs.map sv).map PyV.ty) = true := hone
      unfold sqlColumn
      simp only [List.map_cons, hone', if_true]
      cases ty with
      | some t =>
        refine ⟨⟨fun _ => ⟨by simp, hty, by simp⟩, fun _ => ⟨_, rfl⟩⟩, ?_⟩
        intro es hes
        simp only [Except.ok.injEq] at hes
        obtain ⟨h1, h2, h3, h4, _⟩ := entries (upper t) es (by rw [← hes]; simp)
        refine ⟨h1, h2, h3, ?_, by simp⟩
        rintro t' ⟨⟩ e he
        rw [h4 e he, fixSqltype_upper]
      | none =>
        cases hf : findSqltype (sv x) with
        | none =>
          obtain ⟨n, hn⟩ := (C14_find_sqltype (sv x)).1.1 hf
          refine ⟨⟨?_, ?_⟩, ?_⟩
          · rintro ⟨es, h⟩; exact absurd h (by simp)
          · rintro ⟨_, _, h⟩; exact absurd hn (h rfl x (by simp) n)
          · intro es h; exact absurd h (by simp)
        | some st =>
          have hne : ∀ n, (sv x).ty ≠ .other n := by
            intro n hn
            rw [(C14_find_sqltype (sv x)).1.2 ⟨n, hn⟩] at hf
            exact absurd hf (by simp)
          refine ⟨⟨fun _ => ⟨by simp, hty, fun _ a ha n => by rw [hty a ha x (by simp)]; exact hne n⟩,
            fun _ => ⟨_, rfl⟩⟩, ?_⟩
          intro es hes
          simp only [Except.ok.injEq] at hes
          obtain ⟨h1, h2, h3, h4, h5⟩ := entries st es (by rw [← hes]; simp)
          refine ⟨h1, h2, h3, by simp, fun _ e he => ?_⟩
          obtain ⟨a, ha, hea⟩ := h5 e he
          rw [h4 e he, hea, findSqltype_ty (hty a ha x (by simp)), hf,
            (C14_find_sqltype (sv x)).2.1 st hf]
    · have : ¬ (x :: xs ≠ [] ∧ ∀ a ∈ (x :: xs), ∀ b ∈ (x :: xs), (sv a).ty = (sv b).ty) :=
        fun h => hone (hk.2 h)
      unfold sqlColumn
      simp only [hone]
      constructor
      · constructor
        · rintro ⟨es, h⟩; exact absurd h (by simp)
        · rintro ⟨h1, h2, _⟩; exact absurd ⟨h1, h2⟩ this
      · intro es h; exact absurd h (by simp)

/-- Non-vacuity: a column of three ints. -/
example : ∃ es, sqlColumn "k".toList [1, 2, 3] none (fun n => (PyV.int n : PyV Nat)) id = .ok es :=
  ⟨_, rfl⟩

/-! ## C12 -/

theorem hasColumn_iff (t : Table R) (c : Text) : hasColumn t c = true ↔ c ∈ t.header.map Prod.fst := by
  simp only [hasColumn, List.any_eq_true, decide_eq_true_eq, List.mem_map]

theorem findCol_isSome (t : Table R) (c : Text) :
    (t.findCol c).isSome = true ↔ ∃ h ∈ t.header, fold h.1 = fold c := by
  simp [Table.findCol, List.find?_isSome]

theorem get_map (t : Table R) (hd : List (Text × Text)) (f : Row R → Row R)
    (hf : ∀ r, (f r).rowid = r.rowid) (r : Nat) (c : Text) :
    (Table.mk hd (t.rows.map f)).get r c =
      (t.rows.find? (fun x => x.rowid = r)).map (fun x => (f x).cell (fold c)) := by
  simp only [Table.get, List.find?_map]
  have : ((fun r' : Row R => decide (r'.rowid = r)) ∘ f) = fun r' => decide (r'.rowid = r) := by
    funext x; simp [hf]
  rw [this, Option.map_map]
  rfl

theorem get_alter (t : Table R) (c : Text) (hd : List (Text × Text)) (r : Nat) (c' : Text) :
    (Table.mk hd (t.rows.map (fun r => r.set (fold c) .null))).get r c' =
    if fold c' = fold c then (t.get r c').map (fun _ => .null) else t.get r c' := by
  rw [get_map _ _ (fun r => r.set (fold c) .null) (fun _ => rfl)]
  simp only [Table.get]
  split <;> rename_i h <;> cases List.find? (fun r' : Row R => decide (r'.rowid = r)) t.rows <;>
    simp [h, Row.set]

/-- C12: `add_column` either leaves the table alone (the column is there), or refuses (a column
whose name differs only in case is there), or adds the column at the end with NULL in every
row, and all other cells, all rows and the old header stay. Doing it again does nothing. -/
theorem C12_add_column (t : Table R) (c ty : Text) :
    (c ∈ t.header.map Prod.fst → addColumn t c ty = .ok t) ∧
    ((∃ e, addColumn t c ty = .error e) ↔
      c ∉ t.header.map Prod.fst ∧ ∃ h ∈ t.header, fold h.1 = fold c) ∧
    (∀ t', addColumn t c ty = .ok t' → c ∉ t.header.map Prod.fst →
      t'.header = t.header ++ [(c, fixSqltype ty)] ∧
      t'.rows.map Row.rowid = t.rows.map Row.rowid ∧
      (∀ r v, t'.get r c = some v → v = .null) ∧
      (∀ h ∈ t.header, ∀ r, t'.get r h.1 = t.get r h.1)) ∧
    (∀ t' ty', addColumn t c ty = .ok t' → addColumn t' c ty' = .ok t') := by
  have hh := hasColumn_iff t c
  have hf := findCol_isSome t c
  by_cases h1 : c ∈ t.header.map Prod.fst
  · have h2 : hasColumn t c = true := hh.2 h1
    have h3 : ∀ ty, addColumn t c ty = .ok t := by intro ty; simp [addColumn, h2]
    refine ⟨fun _ => h3 ty, ?_, ?_, ?_⟩
    · simp only [h3, reduceCtorEq, exists_false, false_iff, not_and]
      exact fun h => absurd h1 h
    · intro t' _ h; exact absurd h1 h
    · intro t' ty' h
      rw [h3 ty] at h
      cases h
      exact h3 ty'
  · have h2 : hasColumn t c = false := by
      cases hb : hasColumn t c
      · rfl
      · exact absurd (hh.1 hb) h1
    by_cases h4 : (t.findCol c).isSome = true
    · have h5 : ∀ ty, addColumn t c ty = .error .operational := by
        intro ty; simp [addColumn, h2, Table.alterAdd, h4]
      refine ⟨fun h => absurd h h1, ?_, ?_, ?_⟩
      · simp only [h5]
        exact ⟨fun _ => ⟨h1, hf.1 h4⟩, fun _ => ⟨_, rfl⟩⟩
      · intro t' h; rw [h5 ty] at h; cases h
      · intro t' ty' h; rw [h5 ty] at h; cases h
    · have h4' : (t.findCol c).isSome = false := by simpa using h4
      have h5 : ∀ ty, addColumn t c ty = .ok ⟨t.header ++ [(c, fixSqltype ty)],
          t.rows.map (fun r => r.set (fold c) .null)⟩ := by
        intro ty
        have h4'' : t.findCol c = none := by simpa using h4
        simp [addColumn, h2, Table.alterAdd, h4'']
      refine ⟨fun h => absurd h h1, ?_, ?_, ?_⟩
      · simp only [h5, reduceCtorEq, exists_false, false_iff]
        rintro ⟨_, h⟩; exact h4 (hf.2 h)
      · intro t' h _
        rw [h5 ty] at h
        cases h
        refine ⟨rfl, by simp [Row.set], ?_, ?_⟩
        · intro r v hv
          rw [get_alter, if_pos rfl] at hv
          cases hg : t.get r c <;> simp [hg] at hv
          exact hv.symm
        · intro h hh r
          rw [get_alter, if_neg]
          intro e
          exact h4 (hf.2 ⟨h, hh, e⟩)
      · intro t' ty' h
        rw [h5 ty] at h
        cases h
        simp [addColumn, hasColumn]

theorem addColumns_aux : ∀ (hs : List (Text × Text)) (t t' : Table R),
    addColumnsLoop t hs = .ok t' →
    (∃ ext, t'.header = t.header ++ ext ∧ ∀ e ∈ ext, e.1 ∈ hs.map Prod.fst ∧ e.1 ∉ t.header.map Prod.fst) ∧
    (∀ h ∈ hs, h.1 ∈ t'.header.map Prod.fst) ∧
    t'.rows.map Row.rowid = t.rows.map Row.rowid ∧
    (∀ h ∈ t.header, ∀ r, t'.get r h.1 = t.get r h.1) ∧
    (∀ h ∈ t'.header, h.1 ∉ t.header.map Prod.fst → ∀ r v, t'.get r h.1 = some v → v = .null)
  | [], t, t', h => by
    simp only [addColumnsLoop, Except.ok.injEq] at h
    subst h
    exact ⟨⟨[], by simp⟩, by simp, rfl, by simp, fun h hh hn => absurd (List.mem_map_of_mem hh) hn⟩
  | (c, ty) :: hs, t, t', h => by
    simp only [addColumnsLoop] at h
    cases ha : addColumn t c ty with
    | error e => rw [ha] at h; cases h
    | ok t1 =>
      rw [ha] at h
      obtain ⟨⟨ext, e1, e2⟩, h2, h3, h4, h5⟩ := addColumns_aux hs t1 t' h
      by_cases hc : c ∈ t.header.map Prod.fst
      · rw [(C12_add_column t c ty).1 hc] at ha
        cases ha
        refine ⟨⟨ext, e1, fun e he => ⟨List.mem_cons_of_mem _ (e2 e he).1, (e2 e he).2⟩⟩, ?_, h3, h4, h5⟩
        intro h hh
        rcases List.mem_cons.1 hh with rfl | hh
        · rw [e1, List.map_append]; exact List.mem_append_left _ hc
        · exact h2 h hh
      · obtain ⟨g1, g2, g3, g4⟩ := (C12_add_column t c ty).2.2.1 t1 ha hc
        refine ⟨⟨(c, fixSqltype ty) :: ext, by rw [e1, g1]; simp, ?_⟩, ?_, h3.trans g2, ?_, ?_⟩
        · intro e he
          rcases List.mem_cons.1 he with rfl | he
          · exact ⟨by simp, hc⟩
          · refine ⟨List.mem_cons_of_mem _ (e2 e he).1, fun hm => (e2 e he).2 ?_⟩
            rw [g1, List.map_append]; exact List.mem_append_left _ hm
        · intro h hh
          rcases List.mem_cons.1 hh with rfl | hh
          · rw [e1, g1]; simp
          · exact h2 h hh
        · intro h hh r
          rw [h4 h (by rw [g1]; exact List.mem_append_left _ hh) r, g4 h hh r]
        · intro h hh hn r v hv
          by_cases hm : h.1 ∈ t1.header.map Prod.fst
          · have hc' : h.1 = c := by
              rw [g1] at hm
              simp only [List.map_append, List.mem_append, List.map_cons, List.map_nil,
                List.mem_singleton] at hm
              rcases hm with hm | hm
              · exact absurd hm hn
              · exact hm
            have := h4 (c, fixSqltype ty) (by rw [g1]; simp) r
            rw [hc'] at hv
            rw [this] at hv
            exact g3 r v hv
          · exact h5 h hh hm r v hv

theorem addColumnsLoop_noop : ∀ (hs : List (Text × Text)) (t : Table R),
    (∀ h ∈ hs, h.1 ∈ t.header.map Prod.fst) → addColumnsLoop t hs = .ok t
  | [], t, _ => rfl
  | (c, ty) :: hs, t, h => by
    simp only [addColumnsLoop, (C12_add_column t c ty).1 (h (c, ty) (by simp))]
    exact addColumnsLoop_noop hs t (fun x hx => h x (List.mem_cons_of_mem _ hx))

/-- C12: `add_columns` with any header: the old header stays as it is and is extended by names
from the given header that were missing; afterwards all names are there, no row appears or
disappears, all old cells are unchanged, all new cells are NULL, and a second call (with any
types for the same names) changes nothing. -/
theorem C12_add_columns (t t' : Table R) (hs : List (Text × Text)) (h : addColumns t hs = .ok t') :
    (∃ ext, t'.header = t.header ++ ext ∧
      ∀ e ∈ ext, e.1 ∈ hs.map Prod.fst ∧ e.1 ∉ t.header.map Prod.fst) ∧
    (∀ h ∈ hs, h.1 ∈ t'.header.map Prod.fst) ∧
    t'.rows.map Row.rowid = t.rows.map Row.rowid ∧
    (∀ h ∈ t.header, ∀ r, t'.get r h.1 = t.get r h.1) ∧
    (∀ h ∈ t'.header, h.1 ∉ t.header.map Prod.fst → ∀ r v, t'.get r h.1 = some v → v = .null) ∧
    (∀ hs' : List (Text × Text), hs'.map Prod.fst = hs.map Prod.fst → addColumns t' hs' = .ok t') := by
  have hfst : ∀ hs : List (Text × Text), (fixSqlHeader hs).map Prod.fst = hs.map Prod.fst := by
    intro hs; simp [fixSqlHeader]
  obtain ⟨h1, h2, h3, h4, h5⟩ := addColumns_aux _ t t' h
  rw [hfst] at h1
  have h2' : ∀ c ∈ hs.map Prod.fst, c ∈ t'.header.map Prod.fst := by
    intro c hc
    rw [← hfst] at hc
    obtain ⟨x, hx, rfl⟩ := List.mem_map.1 hc
    exact h2 x hx
  refine ⟨h1, fun x hx => h2' _ (List.mem_map_of_mem hx), h3, h4, h5, ?_⟩
  intro hs' he
  refine addColumnsLoop_noop _ _ ?_
  intro x hx
  apply h2'
  rw [← he, ← hfst]
  exact List.mem_map_of_mem hx

/-- Non-vacuity: one new column, one existing. -/
example : ∃ t', addColumns (⟨[("a".toList, "TEXT".toList)], [⟨1, fun _ => .text []⟩]⟩ : Table Nat)
    [("b".toList, "float".toList), ("a".toList, "text".toList)] = .ok t' ∧
    t'.header = [("a".toList, "TEXT".toList), ("b".toList, "REAL".toList)] := ⟨_, rfl, rfl⟩

/-! ## C13 -/

theorem get_update (t : Table R) (rid : Nat) (col : Text) (v : SqlVal R) (r : Nat) (c : Text) :
    (t.update conv rid col v).get r c =
      if r = rid ∧ fold c = fold col then
        (t.get r c).map (fun _ => store conv (((t.findCol col).map Prod.snd).getD []) v)
      else t.get r c := by
  unfold Table.update
  rw [get_map _ _ _ (by intro r; split <;> rfl)]
  simp only [Table.get]
  cases hf : List.find? (fun r' : Row R => decide (r'.rowid = r)) t.rows with
  | none => simp
  | some x =>
    have hx : x.rowid = r := by simpa using List.find?_some hf
    by_cases h1 : r = rid
    · by_cases h2 : fold c = fold col <;> simp [h1, h2, hx, Row.set]
    · simp [h1, hx]

theorem contig_length {t : Table R} {n : Nat} (h : Contig t n) : t.rows.length = n := by
  have := congrArg List.length h
  simpa using this

theorem contig_max {t : Table R} {n : Nat} (h : Contig t n) :
    t.maxRowid = if n = 0 then none else some n := by
  unfold Table.maxRowid
  rw [h]
  split
  · subst_vars; rfl
  · rw [List.max?_eq_some_iff]
    simp only [List.mem_range'_1]
    refine ⟨by omega, fun b hb => by omega⟩

theorem contig_get_isSome {t : Table R} {n : Nat} (h : Contig t n) (r : Nat) (c : Text) :
    (t.get r c).isSome = true ↔ 1 ≤ r ∧ r ≤ n := by
  have : (t.get r c).isSome = true ↔ r ∈ t.rows.map Row.rowid := by
    simp only [Table.get, Option.isSome_map, List.find?_isSome, decide_eq_true_eq, List.mem_map]
  rw [this, h, List.mem_range'_1]
  omega

theorem contig_update {t : Table R} {n : Nat} (h : Contig t n) (rid : Nat) (col : Text)
    (v : SqlVal R) : Contig (t.update conv rid col v) n := by
  unfold Contig Table.update at *
  rw [← h]
  simp only [List.map_map]
  congr 1
  funext r
  simp only [Function.comp]
  split <;> rfl

theorem insert_one {t : Table R} {n : Nat} (h : Contig t n) (col : Text)
    (hc : (t.findCol col).isSome = true) (v : SqlVal R) :
    ∃ t', t.insert conv [col] [v] = some t' ∧ t'.header = t.header ∧ Contig t' (n + 1) ∧
      ∀ r c, t'.get r c = if r = n + 1 then
          some (if fold c = fold col then store conv (((t.findCol col).map Prod.snd).getD []) v else .null)
        else t.get r c := by
  have hm : t.maxRowid.getD 0 = n := by
    rw [contig_max h]; split <;> simp_all
  have hins : t.insert conv [col] [v] = some ⟨t.header, t.rows ++ [t.newRow conv [col] [v]]⟩ := by
    simp only [Table.insert, List.length_singleton, List.mem_singleton, forall_eq, hc, and_self, if_true]
  refine ⟨_, hins, rfl, ?_, ?_⟩
  · unfold Contig at *
    simp only [List.map_append, h, List.map_cons, List.map_nil, Table.newRow, hm]
    rw [List.range'_concat]; simp [Nat.add_comm]
  · intro r c
    simp only [Table.get, List.find?_append]
    have hs := contig_get_isSome h r c
    by_cases hr : r = n + 1
    · subst hr
      have : List.find? (fun r' : Row R => decide (r'.rowid = n + 1)) t.rows = none := by
        by_contra hne
        have : (t.get (n + 1) c).isSome = true := by
          simp only [Table.get, Option.isSome_map]
          exact Option.isSome_iff_ne_none.2 hne
        have := hs.1 this
        omega
      simp only [this, Option.none_or, List.find?_cons, List.find?_nil, Table.newRow, hm,
        decide_true, Option.map_some, if_true, List.zip_cons_cons, List.zip_nil_left]
      by_cases hcc : fold c = fold col
      · simp [hcc]
      · have : ¬ fold col = fold c := fun e => hcc e.symm
        simp [hcc, this]
    · have : decide (n + 1 = r) = false := by simp; omega
      simp only [hr, if_false, List.find?_cons, List.find?_nil, Table.newRow, hm, this]
      simp

theorem forall_getElem?_cons {α : Type} (a : α) (l : List α) (P : Nat → α → Prop) :
    (∀ i v, (a :: l)[i]? = some v → P i v) ↔ P 0 a ∧ ∀ i v, l[i]? = some v → P (i + 1) v := by
  constructor
  · intro h
    exact ⟨h 0 a rfl, fun i v hv => h (i + 1) v (by simpa using hv)⟩
  · rintro ⟨h0, h1⟩ i v hv
    cases i with
    | zero => simp at hv; subst hv; exact h0
    | succ i => exact h1 i v (by simpa using hv)

theorem forall_lt_succ (n : Nat) (P : Nat → Prop) :
    (∀ i, i < n + 1 → P i) ↔ P 0 ∧ ∀ i, i < n → P (i + 1) := by
  constructor
  · intro h; exact ⟨h 0 (by omega), fun i hi => h (i + 1) (by omega)⟩
  · rintro ⟨h0, h1⟩ i hi
    cases i with
    | zero => exact h0
    | succ i => exact h1 i (by omega)

theorem isNull_iff (o : Option (SqlVal R)) : isNull o = true ↔ o = some .null := by
  unfold isNull; split <;> simp_all

/-- What one run of the loop does, see `fill_ok`. -/
theorem fillLoop_ok (col : Text) (extend overwrite : Bool) (m : Nat) :
    ∀ (values : List (PyV R)) (t : Table R) (N s : Nat),
    (t.findCol col).isSome = true → Contig t N → 1 ≤ s →
    ((s ≤ m ∧ N = m) ∨ (m < s ∧ extend = true ∧ s = N + 1) ∨ (m < s ∧ extend = false ∧ N = m)) →
    (extend = true → s ≤ N + 1) →
    ((fillLoop conv col extend overwrite m t s values).2 = none ↔
      (∀ i v, values[i]? = some v → (extend = true ∨ s + i ≤ m) → (bindVal v).isSome = true) ∧
      (overwrite = true ∨ ∀ i, i < values.length → s + i ≤ m → t.get (s + i) col = some .null)) ∧
    ((fillLoop conv col extend overwrite m t s values).2 = none →
      FilledFrom conv t (fillLoop conv col extend overwrite m t s values).1 N
        (if extend then max N (s + values.length - 1) else N) col
        (((t.findCol col).map Prod.snd).getD []) s values)
  | [], t, N, s, hc, ht, hs, hcase, hext => by
    simp only [fillLoop]
    refine ⟨by simp, fun _ => ⟨rfl, ?_, by simp, by simp, ?_⟩⟩
    · have : (if extend = true then max N (s + ([] : List (PyV R)).length - 1) else N) = N := by
        split
        · rename_i h; have := hext h; simp; omega
        · rfl
      rw [this]; exact ht
    · intro r c _ h1 h2
      exfalso
      split at h2
      · rename_i h; have := hext h; simp at h2; omega
      · omega
  | val :: values, t, N, s, hc, ht, hs, hcase, hext => by
    have hnat : ((s : Int) ≤ (m : Int)) ↔ s ≤ m := by omega
    have hneg : ¬ ((s : Int) < 1) := by omega
    have hcast : ((s : Int) + 1) = ((s + 1 : Nat) : Int) := by omega
    rw [forall_getElem?_cons, List.length_cons, forall_lt_succ]
    rcases hcase with ⟨h1, hN⟩ | ⟨h1, hx, hN⟩ | ⟨h1, hx, hN⟩
    · -- update an existing row
      rw [fillLoop, if_pos (hnat.2 h1)]
      simp only [hneg, if_false, Int.toNat_natCast]
      by_cases hov : overwrite = false ∧ ¬ isNull (t.get s col) = true
      · rw [if_pos hov]
        refine ⟨?_, by simp⟩
        simp only [reduceCtorEq, false_iff, not_and, not_or]
        intro _
        refine ⟨by simp [hov.1], fun h _ => hov.2 ((isNull_iff _).2 (h (by omega)))⟩
      rw [if_neg hov]
      cases hb : bindVal val with
      | none =>
        refine ⟨?_, by simp⟩
        simp only [reduceCtorEq, Option.isSome_none, Bool.false_eq_true, false_iff]
        rintro ⟨⟨h, _⟩, _⟩
        exact h (Or.inr (by omega))
      | some v =>
        simp only [hcast]
        have hc1 : ((t.update conv s col v).findCol col).isSome = true := hc
        have ht1 := contig_update conv ht s col v
        obtain ⟨ih1, ih2⟩ := fillLoop_ok col extend overwrite m values (t.update conv s col v) N (s + 1)
          hc1 ht1 (by omega) (by cases extend <;> simp <;> omega) (by intro _; omega)
        have hget : ∀ i, (t.update conv s col v).get (s + 1 + i) col = t.get (s + (i + 1)) col := by
          intro i; rw [get_update, if_neg (by omega), show s + 1 + i = s + (i + 1) by omega]
        refine ⟨?_, ?_⟩
        · rw [ih1]
          simp only [hget, hb, Option.isSome_some, implies_true, true_and]
          have e : ∀ i, (s + 1 + i ≤ m) = (s + (i + 1) ≤ m) := by intro i; apply propext; omega
          simp only [e]
          constructor
          · rintro ⟨h2, h3⟩
            refine ⟨h2, ?_⟩
            rcases h3 with h3 | h3
            · exact Or.inl h3
            · by_cases ho : overwrite = true
              · exact Or.inl ho
              · refine Or.inr ⟨fun _ => ?_, h3⟩
                have : overwrite = false := by simpa using ho
                by_contra hne
                exact hov ⟨this, fun hh => hne ((isNull_iff _).1 hh)⟩
          · rintro ⟨h2, h3⟩
            refine ⟨h2, ?_⟩
            rcases h3 with h3 | h3
            · exact Or.inl h3
            · exact Or.inr h3.2
        · intro hok
          have ih := ih2 hok
          have hN' : (if extend = true then max N (s + 1 + values.length - 1) else N)
              = (if extend = true then max N (s + (values.length + 1) - 1) else N) := by
            rw [show s + 1 + values.length - 1 = s + (values.length + 1) - 1 by omega]
          rw [hN'] at ih
          have hge : N ≤ (if extend = true then max N (s + (values.length + 1) - 1) else N) := by
            split <;> omega
          refine ⟨ih.header, ih.contig, ?_, ?_, ?_⟩
          · rw [forall_getElem?_cons]
            refine ⟨fun _ => ⟨v, hb, ?_⟩, fun i w hw hle => ?_⟩
            · have := ih.other s col (Or.inr (Or.inl (by omega))) (by omega)
              rw [show s + 0 = s from rfl, this, get_update, if_pos ⟨rfl, rfl⟩]
              have := (contig_get_isSome ht s col).2 ⟨hs, by omega⟩
              obtain ⟨z, hz⟩ := Option.isSome_iff_exists.1 this
              rw [hz]; rfl
            · obtain ⟨w', h2, h3⟩ := ih.target i w hw (by omega)
              refine ⟨w', h2, ?_⟩
              rw [show s + (i + 1) = s + 1 + i by omega, h3]
              rfl
          · intro r c hr hrn
            rw [ih.other r c (by
              rcases hr with h | h | h
              · exact Or.inl h
              · right; left; omega
              · right; right; simp only [List.length_cons] at h; omega) hrn, get_update]
            by_cases e : r = s ∧ fold c = fold col
            · exfalso
              rcases hr with h | h | h
              · exact h e.2
              · omega
              · simp at h; omega
            · rw [if_neg e]
          · intro r c hcc hr1 hr2
            exact ih.newRows r c hcc hr1 hr2
    · -- append a row
      rw [fillLoop, if_neg (by omega)]
      simp only [hx, if_true]
      cases hb : bindVal val with
      | none =>
        refine ⟨?_, by simp⟩
        simp
      | some v =>
        obtain ⟨t1, hins, hh1, ht1, hg1⟩ := insert_one conv ht col hc v
        simp only [hcast, hins]
        have hf1 : t1.findCol col = t.findCol col := by unfold Table.findCol; rw [hh1]
        obtain ⟨ih1, ih2⟩ := fillLoop_ok col true overwrite m values t1 (N + 1) (s + 1)
          (by rw [hf1]; exact hc) ht1 (by omega) (Or.inr (Or.inl ⟨by omega, rfl, by omega⟩)) (by intro _; omega)
        subst hx
        refine ⟨?_, ?_⟩
        · rw [ih1]
          simp only [hb, Option.isSome_some, implies_true, true_and, true_or, forall_const]
          constructor
          · rintro ⟨h2, _⟩
            exact ⟨h2, Or.inr ⟨fun h => by omega, fun i _ h => by omega⟩⟩
          · rintro ⟨h2, _⟩
            exact ⟨h2, Or.inr (fun i _ h => by omega)⟩
        · intro hok
          have ih := ih2 hok
          rw [hf1] at ih
          have hN1 : (if true = true then max (N + 1) (s + 1 + values.length - 1) else N + 1)
              = N + (values.length + 1) := by
            rw [if_pos rfl]; omega
          have hN2 : (if true = true then max N (s + (values.length + 1) - 1) else N)
              = N + (values.length + 1) := by
            rw [if_pos rfl]; omega
          rw [hN1] at ih
          rw [if_pos rfl] at hN2
          rw [hN2]
          refine ⟨ih.header.trans hh1, ih.contig, ?_, ?_, ?_⟩
          · rw [forall_getElem?_cons]
            refine ⟨fun _ => ⟨v, hb, ?_⟩, fun i w hw hle => ?_⟩
            · have := ih.other s col (Or.inr (Or.inl (by omega))) (by omega)
              rw [show s + 0 = s from rfl, this, hg1, if_pos hN, if_pos rfl]
            · obtain ⟨w', h2, h3⟩ := ih.target i w hw (by omega)
              refine ⟨w', h2, ?_⟩
              rw [show s + (i + 1) = s + 1 + i by omega, h3]
          · intro r c hr hrn
            rw [ih.other r c (by right; left; omega) (by omega), hg1, if_neg (by omega)]
          · intro r c hcc hr1 hr2
            by_cases e : r = N + 1
            · rw [ih.other r c (Or.inl hcc) (by omega), hg1, if_pos e, if_neg hcc]
            · exact ih.newRows r c hcc (by omega) hr2
    · -- skip
      rw [fillLoop, if_neg (by omega)]
      simp only [hx, Bool.false_eq_true, if_false, hcast]
      obtain ⟨ih1, ih2⟩ := fillLoop_ok col false overwrite m values t N (s + 1)
          hc ht (by omega) (Or.inr (Or.inr ⟨by omega, rfl, by omega⟩)) (by simp)
      subst hx
      refine ⟨?_, ?_⟩
      · rw [ih1]
        constructor
        · rintro _
          exact ⟨⟨fun h => by simp at h; omega, fun i v hv h => by simp at h; omega⟩,
            Or.inr ⟨fun h => by omega, fun i _ h => by omega⟩⟩
        · rintro _
          exact ⟨fun i v hv h => by simp at h; omega, Or.inr (fun i _ h => by omega)⟩
      · intro hok
        have ih := ih2 hok
        simp only [Bool.false_eq_true, if_false] at ih
        refine ⟨ih.header, ih.contig, ?_, ?_, ?_⟩
        · intro i v _ h; omega
        · intro r c hr hrn
          exact ih.other r c (by right; left; omega) hrn
        · intro r c _ h1 h2; omega

/-- C13: what `fill_column` does on a table with at least one row, rows numbered 1..n without
gaps, and a start row between 1 and n+1 (extend) or n (no extend). It succeeds iff the values
can be stored and, without `overwrite`, all target cells in existing rows are NULL; then
exactly the target cells hold the values, nothing else changed, and rows were appended only
as far as the values reach beyond row n with `extend`.

Missing for the full property: all-or-nothing (false, see `C13_not_atomic`), start rows beyond
n+1 and tables with deleted rows (false, see below), empty tables (always raises). -/
theorem C13_fill_column_partial (t : Table R) (n : Nat) (hn : 1 ≤ n) (ht : Contig t n)
    (col : Text) (hcol : col ∈ t.header.map Prod.fst) (values : List (PyV R)) (start : Nat)
    (extend overwrite : Bool) (hs : 1 ≤ start) (hse : start ≤ if extend then n + 1 else n) :
    ((fillColumn conv t col values start extend overwrite).2 = none ↔
      (∀ i v, values[i]? = some v → (extend = true ∨ start + i ≤ n) → (bindVal v).isSome = true) ∧
      (overwrite = true ∨
        ∀ i, i < values.length → start + i ≤ n → t.get (start + i) col = some .null)) ∧
    ((fillColumn conv t col values start extend overwrite).2 = none →
      FilledFrom conv t (fillColumn conv t col values start extend overwrite).1 n
        (if extend then max n (start + values.length - 1) else n) col
        (((t.findCol col).map Prod.snd).getD []) start values) := by
  have hm := contig_max ht
  rw [if_neg (by omega)] at hm
  have hcs : (t.findCol col).isSome = true := by
    rw [findCol_isSome]
    obtain ⟨h, hh, rfl⟩ := List.mem_map.1 hcol
    exact ⟨h, hh, rfl⟩
  have e : fillColumn conv t col values start extend overwrite =
      fillLoop conv col extend overwrite n t start values := by
    simp only [fillColumn, (hasColumn_iff t col).2 hcol, if_true, hm]
    rw [if_neg]
    rintro ⟨rfl, h⟩
    simp at hse
    omega
  rw [e]
  refine fillLoop_ok conv col extend overwrite n values t n start hcs ht hs ?_ ?_
  · cases extend <;> simp at hse ⊢ <;> omega
  · rintro rfl; simpa using hse


theorem get_insert_old {t t' : Table R} {names : List Text} {vals : List (SqlVal R)}
    (h : t.insert conv names vals = some t') (r : Nat) (c : Text) (v : SqlVal R)
    (hv : t.get r c = some v) : t'.get r c = some v := by
  simp only [Table.insert] at h
  split at h
  · cases h
    simp only [Table.get, List.find?_append] at hv ⊢
    cases hf : List.find? (fun x : Row R => decide (x.rowid = r)) t.rows with
    | none => simp [hf] at hv
    | some x => simpa [hf] using hv
  · cases h

theorem fillLoop_safe (col : Text) (extend : Bool) (m : Nat) (r : Nat) (c : Text) (v : SqlVal R)
    (hne : v ≠ .null) : ∀ (values : List (PyV R)) (t : Table R) (s : Int), t.get r c = some v →
    (fillLoop conv col extend false m t s values).1.get r c = some v
  | [], t, s, h => h
  | val :: values, t, s, h => by
    rw [fillLoop]
    split
    · by_cases hs : s < 1
      · simp [hs, isNull, h]
      · simp only [hs, if_false]
        split
        · exact h
        · rename_i hov
          cases hb : bindVal val with
          | none => exact h
          | some w =>
            refine fillLoop_safe col extend m r c v hne values _ (s + 1) ?_
            rw [get_update]
            split
            · rename_i hrc
              exfalso
              apply hov
              refine ⟨trivial, fun hn => hne ?_⟩
              rw [isNull_iff, ← hrc.1] at hn
              have : t.get r c = t.get r col := by simp only [Table.get, hrc.2]
              rw [this, hn] at h
              cases h; rfl
            · exact h
    · split
      · cases hb : bindVal val with
        | none => exact h
        | some w =>
          cases hi : t.insert conv [col] [w] with
          | none => simp only [hi]; exact h
          | some t' =>
            simp only [hi]
            exact fillLoop_safe col extend m r c v hne values _ (s + 1) (get_insert_old conv hi r c v h)
      · exact fillLoop_safe col extend m r c v hne values _ (s + 1) h

/-- C13: without `overwrite`, `fill_column` never changes a cell that is not NULL — on any
table, for any arguments, whether it raises or not. -/
theorem C13_no_overwrite (t : Table R) (col : Text) (values : List (PyV R)) (start : Int)
    (extend : Bool) (r : Nat) (c : Text) (v : SqlVal R) (hne : v ≠ .null) (h : t.get r c = some v) :
    (fillColumn conv t col values start extend false).1.get r c = some v := by
  unfold fillColumn
  split
  · split
    · split <;> exact h
    · split
      · exact h
      · exact fillLoop_safe conv col extend _ r c v hne values t start h
  · exact h

theorem fillLoop_prefix (col : Text) (extend overwrite : Bool) (m : Nat) :
    ∀ (values : List (PyV R)) (t t' : Table R) (s : Int) (e : SqlErr),
    fillLoop conv col extend overwrite m t s values = (t', some e) →
    ∃ k, k < values.length ∧ fillLoop conv col extend overwrite m t s (values.take k) = (t', none)
  | [], t, t', s, e, h => by simp [fillLoop] at h
  | val :: values, t, t', s, e, h => by
    rw [fillLoop] at h
    have zero : t = t' → ∃ k, k < (val :: values).length ∧
        fillLoop conv col extend overwrite m t s ((val :: values).take k) = (t', none) := by
      intro ht; exact ⟨0, by simp, by simp [fillLoop, ht]⟩
    have succ : ∀ t1 : Table R,
        (∀ vs, fillLoop conv col extend overwrite m t s (val :: vs)
          = fillLoop conv col extend overwrite m t1 (s + 1) vs) →
        fillLoop conv col extend overwrite m t1 (s + 1) values = (t', some e) →
        ∃ k, k < (val :: values).length ∧
        fillLoop conv col extend overwrite m t s ((val :: values).take k) = (t', none) := by
      intro t1 h1 h2
      obtain ⟨k, hk, hk2⟩ := fillLoop_prefix col extend overwrite m values t1 t' (s + 1) e h2
      exact ⟨k + 1, by simpa using hk, by rw [List.take_succ_cons, h1, hk2]⟩
    by_cases hsm : s ≤ (m : Int)
    · simp only [hsm, if_true] at h
      by_cases hov : overwrite = false ∧
          ¬ isNull (if s < 1 then none else t.get s.toNat col) = true
      · rw [if_pos hov] at h; cases h; exact zero rfl
      · rw [if_neg hov] at h
        cases hb : bindVal val with
        | none => rw [hb] at h; cases h; exact zero rfl
        | some v =>
          rw [hb] at h
          refine succ _ (fun vs => ?_) h
          rw [fillLoop]
          simp only [hsm, if_true, hb]
          rw [if_neg hov]
    · simp only [hsm, if_false] at h
      split at h
      · rename_i hx
        cases hb : bindVal val with
        | none => rw [hb] at h; cases h; exact zero rfl
        | some v =>
          rw [hb] at h
          cases hi : t.insert conv [col] [v] with
          | none => simp only [hi] at h; cases h; exact zero rfl
          | some t1 =>
            simp only [hi] at h
            refine succ t1 (fun vs => ?_) h
            rw [fillLoop]
            simp only [hsm, if_false, hx, if_true, hb, hi]
      · rename_i hx
        refine succ t (fun vs => ?_) h
        rw [fillLoop]
        simp only [hsm, if_false, hx]
        simp

/-- C13: when `fill_column` raises, the table is what a successful call with a proper prefix of
the values (possibly none) leaves, or it is unchanged. -/
theorem C13_error_leaves_prefix (t t' : Table R) (col : Text) (values : List (PyV R)) (start : Int)
    (extend overwrite : Bool) (e : SqlErr)
    (h : fillColumn conv t col values start extend overwrite = (t', some e)) :
    t' = t ∨ ∃ k, k < values.length ∧
      fillColumn conv t col (values.take k) start extend overwrite = (t', none) := by
  unfold fillColumn at h ⊢
  split at h
  · rename_i hc
    split at h
    · split at h
      · cases h
      · cases h; exact Or.inl rfl
    · rename_i m hm
      split at h
      · cases h; exact Or.inl rfl
      · rename_i hn
        right
        obtain ⟨k, hk, hk2⟩ := fillLoop_prefix conv col extend overwrite m values t t' start e h
        refine ⟨k, hk, ?_⟩
        rw [if_pos hc]
        simp only [if_neg hn]
        exact hk2
  · cases h; exact Or.inl rfl

/-- Test table: column `a` (INTEGER) and `b`, two rows, `a` is NULL in row 1 and 5 in row 2. -/
def exTable : Table Nat :=
  ⟨[("a".toList, "INTEGER".toList), ("b".toList, "INTEGER".toList)],
   [⟨1, fun c => if c = "b".toList then .int 7 else .null⟩,
    ⟨2, fun c => if c = "a".toList then .int 5 else if c = "b".toList then .int 8 else .null⟩]⟩

/-- Non-vacuity of `C13_fill_column_partial`: overwriting and extending by one row. -/
example : Contig exTable 2 ∧
    (fillColumn (fun _ v => v) exTable "a".toList [.int 1, .int 2, .int 3] 1 true true).2 = none ∧
    (fillColumn (fun _ v => v) exTable "a".toList [.int 1, .int 2, .int 3] 1 true true).1.get 3 "a".toList
      = some (.int 3) := by
  refine ⟨rfl, rfl, rfl⟩

/-- C13, all-or-nothing is false: row 2 is not NULL, so the call raises, but row 1 has been
changed from NULL to 1. -/
theorem C13_not_atomic :
    ∃ (t : Table Nat) (col : Text) (values : List (PyV Nat)),
      Contig t 2 ∧ col ∈ t.header.map Prod.fst ∧
      (fillColumn (fun _ v => v) t col values 1 true false).2 = some .assertion ∧
      t.get 1 col = some .null ∧
      (fillColumn (fun _ v => v) t col values 1 true false).1.get 1 col = some (.int 1) :=
  ⟨exTable, "a".toList, [.int 1, .int 2], rfl, by decide, rfl, rfl, rfl⟩

/-- C13, exactness is false for a start row beyond the row after the last: the value for row 9
is put into row 3 and no error is raised. -/
theorem C13_start_beyond_end :
    ∃ (t : Table Nat) (col : Text),
      Contig t 2 ∧ col ∈ t.header.map Prod.fst ∧
      (fillColumn (fun _ v => v) t col [.int 1] 9 true false).2 = none ∧
      (fillColumn (fun _ v => v) t col [.int 1] 9 true false).1.get 9 col = none ∧
      (fillColumn (fun _ v => v) t col [.int 1] 9 true false).1.get 3 col = some (.int 1) :=
  ⟨exTable, "a".toList, rfl, by decide, rfl, rfl, rfl⟩

/-- C13, a row that was deleted from the middle: with `overwrite` its value is dropped without
an error. -/
theorem C13_deleted_row :
    ∃ (t : Table Nat) (col : Text),
      t.rows.map Row.rowid = [1, 3] ∧ col ∈ t.header.map Prod.fst ∧
      (fillColumn (fun _ v => v) t col [.int 1, .int 2, .int 3] 1 true true).2 = none ∧
      (fillColumn (fun _ v => v) t col [.int 1, .int 2, .int 3] 1 true true).1.rows.map
        (fun r => r.cell col) = [.int 1, .int 3] :=
  ⟨⟨[("a".toList, "INTEGER".toList)], [⟨1, fun _ => .null⟩, ⟨3, fun _ => .null⟩]⟩, "a".toList,
    rfl, by decide, rfl, rfl⟩

/-- C13: on an empty table `fill_column` with at least one value always raises a `TypeError`. -/
theorem C13_empty_table (t : Table R) (ht : t.rows = []) (col : Text)
    (hcol : col ∈ t.header.map Prod.fst) (values : List (PyV R)) (hv : values ≠ []) (start : Int)
    (extend overwrite : Bool) :
    fillColumn conv t col values start extend overwrite = (t, some .typeError) := by
  have hm : t.maxRowid = none := by simp [Table.maxRowid, ht]
  simp only [fillColumn, (hasColumn_iff t col).2 hcol, if_true, hm]
  rw [if_neg]
  rintro ⟨_, h⟩
  exact hv (List.isEmpty_iff.1 h)

/-- C13: `attach_column` for a new column on a table with rows 1..n, n ≥ 1: the column appears
at the end of the header with the normalised type, holds the values from `start` on and NULL
elsewhere, all other columns are unchanged. -/
theorem C13_attach_column_partial (t t' : Table R) (n : Nat) (hn : 1 ≤ n) (ht : Contig t n)
    (col ty : Text) (hcol : col ∉ t.header.map Prod.fst) (values : List (PyV R)) (start : Nat)
    (extend overwrite : Bool) (hs : 1 ≤ start) (hse : start ≤ if extend then n + 1 else n)
    (h : attachColumn conv t col values (some ty) start extend overwrite = (t', none)) :
    t'.header = t.header ++ [(col, fixSqltype ty)] ∧
    Contig t' (if extend then max n (start + values.length - 1) else n) ∧
    (∀ i v, values[i]? = some v → start + i ≤ (if extend then max n (start + values.length - 1) else n) →
      ∃ w, bindVal v = some w ∧ t'.get (start + i) col = some (store conv (fixSqltype ty) w)) ∧
    (∀ r, 1 ≤ r → r ≤ n → r < start ∨ start + values.length ≤ r → t'.get r col = some .null) ∧
    (∀ x ∈ t.header, ∀ r, r ≤ n → t'.get r x.1 = t.get r x.1) := by
  have hnc : hasColumn t col = false := by
    cases hb : hasColumn t col
    · rfl
    · exact absurd ((hasColumn_iff t col).1 hb) hcol
  simp only [attachColumn, hnc, Bool.false_eq_true, and_false, if_false] at h
  cases ha : addColumn t col ty with
  | error e => rw [ha] at h; cases h
  | ok t1 =>
    rw [ha] at h
    simp only at h
    obtain ⟨g1, g2, g3, g4⟩ := (C12_add_column t col ty).2.2.1 t1 ha hcol
    have ht1 : Contig t1 n := by unfold Contig at *; rw [g2, ht]
    have hnf : ∀ x ∈ t.header, fold x.1 ≠ fold col := by
      intro x hx e
      obtain ⟨er, her⟩ := (C12_add_column t col ty).2.1.2 ⟨hcol, x, hx, e⟩
      rw [ha] at her; cases her
    have hty : ((t1.findCol col).map Prod.snd).getD [] = fixSqltype ty := by
      have : t1.findCol col = some (col, fixSqltype ty) := by
        simp only [Table.findCol, g1, List.find?_append]
        have : List.find? (fun h : Text × Text => decide (fold h.1 = fold col)) t.header = none := by
          rw [List.find?_eq_none]; intro x hx; simpa using hnf x hx
        rw [this]; simp
      rw [this]; rfl
    have hf := (C13_fill_column_partial conv t1 n hn ht1 col (by rw [g1]; simp) values start extend
      overwrite hs hse).2 (by rw [h])
    rw [h, hty] at hf
    refine ⟨by rw [hf.header, g1], hf.contig, hf.target, ?_, ?_⟩
    · intro r hr1 hr2 hr
      rw [hf.other r col (Or.inr hr) hr2]
      obtain ⟨z, hz⟩ := Option.isSome_iff_exists.1 ((contig_get_isSome ht1 r col).2 ⟨hr1, hr2⟩)
      rw [hz, g3 r z hz]
    · intro x hx r hr
      rw [hf.other r x.1 (Or.inl (hnf x hx)) hr, g4 x hx r]

example : (attachColumn (fun _ v => v) exTable "c".toList [.int 1] (some "integer".toList) 2 true false).2 = none :=
  rfl

/-! ## C20 -/

theorem dictKeys_nodup : ∀ (cols : List Text), cols.Nodup → dictKeys cols = cols
  | [], _ => rfl
  | c :: cs, h => by
    rw [List.nodup_cons] at h
    rw [dictKeys, dictKeys_nodup cs h.2]
    congr 1
    rw [List.filter_eq_self]
    intro d hd
    simp only [ne_eq, decide_not, Bool.not_eq_eq_eq_not, Bool.not_true, decide_eq_false_iff_not]
    rintro rfl
    exact h.1 hd

theorem dictRow_fst {V : Type} : ∀ (cols : List Text) (row : List V) (dct : List (Text × List V)),
    (dictRow dct cols row).map Prod.fst = dct.map Prod.fst
  | [], _, _ => by simp [dictRow]
  | c :: cs, [], _ => by simp [dictRow]
  | c :: cs, v :: vs, dct => by
    rw [dictRow, dictRow_fst cs vs]
    simp only [dictAppend, List.map_map]
    congr 1
    funext e
    simp only [Function.comp]
    split <;> rfl

/-- The entry at a position of the dict after one row: unchanged if its name is not among the
columns, else with the value of that column appended. -/
theorem dictRow_get {V : Type} : ∀ (cols : List Text) (row : List V) (dct : List (Text × List V))
    (k : Nat) (c : Text) (l : List V), cols.Nodup → row.length = cols.length → dct[k]? = some (c, l) →
    (c ∉ cols → (dictRow dct cols row)[k]? = some (c, l)) ∧
    (∀ (j : Nat) (v : V), cols[j]? = some c → row[j]? = some v →
      (dictRow dct cols row)[k]? = some (c, l ++ [v]))
  | [], row, dct, k, c, l, _, _, h => by simp [dictRow, h]
  | d :: cs, [], dct, k, c, l, _, hl, h => by simp at hl
  | d :: cs, v :: vs, dct, k, c, l, hn, hl, h => by
    rw [List.nodup_cons] at hn
    have hl' : vs.length = cs.length := by simpa using hl
    have hk : (dictAppend dct d v)[k]? = some (if c = d then (c, l ++ [v]) else (c, l)) := by
      simp [dictAppend, h]
    rw [dictRow]
    constructor
    · intro hc
      simp only [List.mem_cons, not_or] at hc
      rw [if_neg hc.1] at hk
      exact (dictRow_get cs vs _ k c l hn.2 hl' hk).1 hc.2
    · intro j w hj hw
      cases j with
      | zero =>
        simp only [List.getElem?_cons_zero, Option.some.injEq] at hj hw
        subst hj hw
        rw [if_pos rfl] at hk
        exact (dictRow_get cs vs _ k d _ hn.2 hl' hk).1 hn.1
      | succ j =>
        simp only [List.getElem?_cons_succ] at hj hw
        have hne : c ≠ d := by
          rintro rfl
          exact hn.1 (List.mem_of_getElem? hj)
        rw [if_neg hne] at hk
        exact (dictRow_get cs vs _ k c l hn.2 hl' hk).2 j w hj hw

theorem getDict_aux {V : Type} (cols : List Text) (hn : cols.Nodup) : ∀ (ret : List (List V))
    (dct : List (Text × List V)), (∀ row ∈ ret, row.length = cols.length) →
    ∀ (k j : Nat) (c : Text) (l : List V), cols[j]? = some c → dct[k]? = some (c, l) →
    ∃ l' : List V, (ret.foldl (fun dct row => dictRow dct cols row) dct)[k]? = some (c, l') ∧
      l'.map some = l.map some ++ ret.map (fun row => row[j]?)
  | [], dct, _, k, j, c, l, _, h => ⟨l, h, by simp⟩
  | row :: ret, dct, hl, k, j, c, l, hj, h => by
    have hlen := hl row (by simp)
    have hjlt : j < row.length := by
      rw [hlen]
      exact (List.getElem?_eq_some_iff.1 hj).1
    have h1 := (dictRow_get cols row dct k c l hn hlen h).2 j row[j] hj (List.getElem?_eq_getElem hjlt)
    obtain ⟨l', h2, h3⟩ := getDict_aux cols hn ret _ (fun r hr => hl r (List.mem_cons_of_mem _ hr)) k j c _ hj h1
    refine ⟨l', h2, ?_⟩
    rw [h3]
    simp [List.getElem?_eq_getElem hjlt]

/-- C20: `get_dict` of a result with distinct column names: its keys are the column names in
order and the list under the j-th name is the j-th column of the result, all rows in order. -/
theorem C20_get_dict {V : Type} (cols : List Text) (hn : cols.Nodup) (ret : List (List V))
    (hl : ∀ row ∈ ret, row.length = cols.length) :
    (getDict cols ret).map Prod.fst = cols ∧
    ∀ (j : Nat) (c : Text), cols[j]? = some c →
      ∃ l : List V, (getDict cols ret)[j]? = some (c, l) ∧ l.map some = ret.map (fun row => row[j]?) := by
  constructor
  · have : ∀ (ret : List (List V)) (dct : List (Text × List V)),
        (ret.foldl (fun dct row => dictRow dct cols row) dct).map Prod.fst = dct.map Prod.fst := by
      intro ret
      induction ret with
      | nil => intro dct; rfl
      | cons r rs ih => intro dct; rw [List.foldl_cons, ih, dictRow_fst]
    rw [getDict, this, dictKeys_nodup cols hn, List.map_map]
    exact List.map_id' cols
  · intro j c hj
    have h := getDict_aux cols hn ret ((dictKeys cols).map (fun c => (c, []))) hl j j c [] hj
      (by rw [dictKeys_nodup cols hn]; simp [hj])
    simpa [getDict] using h

example : getDict ["a".toList, "b".toList] [[1, 2], [3, 4], [5, 6]]
    = [("a".toList, [1, 3, 5]), ("b".toList, [2, 4, 6])] := by decide

/-- The cells of a new row depend on the header only. -/
def newCells (header : List (Text × Text)) (names : List Text) (vals : List (SqlVal R)) :
    Text → SqlVal R := ((⟨header, []⟩ : Table R).newRow conv names vals).cell

theorem newCells_get (header : List (Text × Text)) : ∀ (names : List Text) (vals : List (SqlVal R))
    (j : Nat) (c : Text) (v : SqlVal R),
    (names.map fold).Nodup → names[j]? = some c → vals[j]? = some v →
    newCells conv header names vals (fold c) =
      store conv ((((⟨header, []⟩ : Table R).findCol c).map Prod.snd).getD []) v := by
  intro names vals j c v hn hj hv
  have key : ∀ (names : List Text) (vals : List (SqlVal R)) (j : Nat), (names.map fold).Nodup →
      names[j]? = some c → vals[j]? = some v →
      (names.zip vals).find? (fun p => fold p.1 = fold c) = some (c, v) := by
    intro names
    induction names with
    | nil => intro vals j _ h; simp at h
    | cons a as ih =>
      intro vals j hn hj hv
      cases vals with
      | nil => simp at hv
      | cons b bs =>
        cases j with
        | zero =>
          simp only [List.getElem?_cons_zero, Option.some.injEq] at hj hv
          subst hj hv
          simp
        | succ j =>
          simp only [List.getElem?_cons_succ] at hj hv
          rw [List.map_cons, List.nodup_cons] at hn
          have : fold a ≠ fold c := by
            intro e
            exact hn.1 (by rw [e]; exact List.mem_map_of_mem (List.mem_of_getElem? hj))
          simp only [List.zip_cons_cons, List.find?_cons, this, decide_false]
          exact ih bs j hn.2 hj hv
  simp only [newCells, Table.newRow, key names vals j hn hj hv]

theorem newCells_null (header : List (Text × Text)) (names : List Text) (vals : List (SqlVal R))
    (c : Text) (h : ∀ n ∈ names, fold n ≠ c) : newCells conv header names vals c = .null := by
  have : (names.zip vals).find? (fun p => fold p.1 = c) = none := by
    rw [List.find?_eq_none]
    intro p hp
    simpa using h p.1 (List.of_mem_zip hp).1
  simp only [newCells, Table.newRow, this]

theorem mapE_bind_asStored : ∀ (row : List (PyV R)), (∀ v ∈ row, (bindVal v).isSome = true) →
    mapE bindVal row = some (asStored row)
  | [], _ => rfl
  | v :: vs, h => by
    obtain ⟨w, hw⟩ := Option.isSome_iff_exists.1 (h v (by simp))
    have := mapE_bind_asStored vs (fun x hx => h x (List.mem_cons_of_mem _ hx))
    simp [mapE, hw, this, asStored]

theorem insertLoop_spec (names : List Text) : ∀ (rows : List (List (PyV R))) (t : Table R),
    (∀ n ∈ names, (t.findCol n).isSome = true) →
    (∀ row ∈ rows, row.length = names.length) →
    (∀ row ∈ rows, ∀ v ∈ row, (bindVal v).isSome = true) →
    ∃ t' new, insertLoop conv t names rows = (t', none) ∧ t'.header = t.header ∧
      t'.rows = t.rows ++ new ∧
      new.map Row.cell = rows.map (fun row => newCells conv t.header names (asStored row))
  | [], t, _, _, _ => ⟨t, [], rfl, rfl, by simp, rfl⟩
  | row :: rows, t, hc, hl, hb => by
    have hins : t.insert conv names (asStored row)
        = some ⟨t.header, t.rows ++ [t.newRow conv names (asStored row)]⟩ := by
      rw [Table.insert, if_pos]
      refine ⟨?_, hc⟩
      simp [asStored, hl row (by simp)]
    obtain ⟨t', new, h1, h2, h3, h4⟩ := insertLoop_spec names rows
      ⟨t.header, t.rows ++ [t.newRow conv names (asStored row)]⟩ hc
      (fun r hr => hl r (List.mem_cons_of_mem _ hr)) (fun r hr => hb r (List.mem_cons_of_mem _ hr))
    refine ⟨t', t.newRow conv names (asStored row) :: new, ?_, h2, by rw [h3]; simp, ?_⟩
    · simp only [insertLoop, mapE_bind_asStored row (hb row (by simp)), hins, h1]
    · simp only [List.map_cons, h4]
      rfl

theorem checkHeader_iff (t : Table R) : ∀ hd : List (Text × Text), checkHeader t hd = true ↔
    ∀ x ∈ hd, ∃ y, t.header.find? (fun h => h.1 = x.1) = some y ∧ x.2 = y.2
  | [] => by simp [checkHeader]
  | (c, ty) :: rest => by
    rw [checkHeader, Bool.and_eq_true, checkHeader_iff t rest]
    simp only [List.mem_cons, forall_eq_or_imp]
    refine and_congr ?_ Iff.rfl
    cases h : t.header.find? (fun h => h.1 = c) <;> simp

theorem store_kind {v : PyV R} {w : PyV R} {ty : Text} (hw : findSqltype w = some ty)
    (h : v = .none ∨ ((findSqltype v).isSome = true ∧ findSqltype v = findSqltype w)) :
    store conv ty ((bindVal v).getD .null) = (bindVal v).getD .null := by
  rcases h with rfl | ⟨_, h⟩
  · rfl
  · rw [hw] at h
    cases v <;> simp_all [findSqltype, bindVal, store]

theorem mapE_isSome {α β : Type} (f : α → Option β) : ∀ (l : List α), (∀ a ∈ l, (f a).isSome = true) →
    ∃ l', mapE f l = some l' ∧ l'.length = l.length ∧
      ∀ (j : Nat) a, l[j]? = some a → ∃ b, f a = some b ∧ l'[j]? = some b
  | [], _ => ⟨[], rfl, rfl, by simp⟩
  | a :: as, h => by
    obtain ⟨b, hb⟩ := Option.isSome_iff_exists.1 (h a (by simp))
    obtain ⟨l', h1, h2, h3⟩ := mapE_isSome f as (fun x hx => h x (List.mem_cons_of_mem _ hx))
    refine ⟨b :: l', by simp [mapE, hb, h1], by simp [h2], ?_⟩
    intro j x hj
    cases j with
    | zero => simp at hj; subst hj; exact ⟨b, hb, rfl⟩
    | succ j => simpa using h3 j x (by simpa using hj)

theorem mapE_matrix (colnames : List Text) : ∀ (lists : List (List (PyV R))),
    (∀ row ∈ lists, row.length = colnames.length) →
    mapE (matrixRow (fun _ v => v) colnames) lists = some lists
  | [], _ => rfl
  | row :: rows, h => by
    have hl := h row (by simp)
    have : matrixRow (fun _ v => v) colnames row = some row := by
      rw [matrixRow, if_pos (by omega)]
      congr 1
      apply List.ext_getElem
      · simp [hl]
      · intro i h1 h2; simp
    rw [mapE, this, mapE_matrix colnames rows (fun r hr => h r (List.mem_cons_of_mem _ hr))]

theorem find?_nodup {α : Type} (f : α → Text) : ∀ (l : List α) (x : α), (l.map f).Nodup → x ∈ l →
    l.find? (fun y => f y = f x) = some x
  | a :: as, x, hn, hx => by
    rw [List.map_cons, List.nodup_cons] at hn
    rcases List.mem_cons.1 hx with rfl | hx
    · simp
    · have : f a ≠ f x := fun e => hn.1 (by rw [e]; exact List.mem_map_of_mem hx)
      simp only [List.find?_cons, this, decide_false]
      exact find?_nodup f as x hn.2 hx

/-- The part of `makedb` behind the header check, for rectangular data. -/
theorem makedb_insert (t : Table R) (hg : GoodHeader t) (colnames : List Text) (first : List (PyV R))
    (rest : List (List (PyV R))) (hr : Rect colnames first (first :: rest))
    (hn : colnames.Nodup)
    (hfold : (colnames.map fold).Nodup)
    (hcol : ∀ (j : Nat) c v, colnames[j]? = some c → first[j]? = some v →
      ∃ ty, (c, ty) ∈ t.header ∧ findSqltype v = some ty) :
    ∃ t' new, insertLoop conv t colnames (first :: rest) = (t', none) ∧ t'.header = t.header ∧
      t'.rows = t.rows ++ new ∧
      new.map (fun r => colnames.map (fun c => r.cell (fold c))) = (first :: rest).map asStored ∧
      ∀ r ∈ new, ∀ c, (∀ n ∈ colnames, fold n ≠ fold c) → r.cell (fold c) = .null := by
  have hfl := hr.length first (by simp)
  have hfirst : ∀ (j : Nat) c, colnames[j]? = some c → ∃ v, first[j]? = some v := by
    intro j c hj
    have : j < first.length := by rw [hfl]; exact (List.getElem?_eq_some_iff.1 hj).1
    exact ⟨_, List.getElem?_eq_getElem this⟩
  have hfc : ∀ n ∈ colnames, (t.findCol n).isSome = true := by
    intro n hn
    obtain ⟨j, hj⟩ := List.mem_iff_getElem?.1 hn
    obtain ⟨v, hv⟩ := hfirst j n hj
    obtain ⟨ty, h1, _⟩ := hcol j n v hj hv
    rw [findCol_isSome]
    exact ⟨_, h1, rfl⟩
  have hbind : ∀ row ∈ first :: rest, ∀ v ∈ row, (bindVal v).isSome = true := by
    intro row hrow v hv
    obtain ⟨j, hj⟩ := List.mem_iff_getElem?.1 hv
    have : j < first.length := by
      rw [hfl, ← hr.length row hrow]; exact (List.getElem?_eq_some_iff.1 hj).1
    rcases hr.kind row hrow j v _ hj (List.getElem?_eq_getElem this) with rfl | ⟨h, _⟩
    · rfl
    · cases v <;> simp_all [findSqltype, bindVal]
  obtain ⟨t', new, h1, h2, h3, h4⟩ := insertLoop_spec conv colnames (first :: rest) t hfc hr.length hbind
  refine ⟨t', new, h1, h2, h3, ?_, ?_⟩
  · have : new.map (fun r => colnames.map (fun c => r.cell (fold c)))
        = (new.map Row.cell).map (fun f => colnames.map (fun c => f (fold c))) := by
      rw [List.map_map]; rfl
    rw [this, h4, List.map_map]
    apply List.map_congr_left
    intro row hrow
    simp only [Function.comp]
    apply List.ext_getElem?
    intro j
    cases hj : colnames[j]? with
    | none =>
      have h5 : colnames.length ≤ j := List.getElem?_eq_none_iff.1 hj
      have h6 : (asStored row)[j]? = none := by
        rw [List.getElem?_eq_none_iff, asStored, List.length_map, hr.length row hrow]
        exact h5
      simp [hj, h6]
    | some c =>
      have hjl : j < colnames.length := (List.getElem?_eq_some_iff.1 hj).1
      have hrl : j < row.length := by rw [hr.length row hrow]; exact hjl
      have hrj : row[j]? = some row[j] := List.getElem?_eq_getElem hrl
      obtain ⟨v, hv⟩ := hfirst j c hj
      obtain ⟨ty, hty, hft⟩ := hcol j c v hj hv
      have hst : (asStored row)[j]? = some ((bindVal row[j]).getD .null) := by
        simp [asStored, hrj]
      rw [List.getElem?_map, hj, hst, Option.map_some]
      congr 1
      rw [newCells_get conv t.header colnames (asStored row) j c _ hfold hj hst]
      have : (⟨t.header, []⟩ : Table R).findCol c = some (c, ty) := by
        simp only [Table.findCol]
        exact find?_nodup (fun h : Text × Text => fold h.1) t.header (c, ty) hg hty
      rw [this]
      exact store_kind conv hft (hr.kind row hrow j _ v hrj hv)
  · intro r hrn c hc
    have : r.cell ∈ new.map Row.cell := List.mem_map_of_mem hrn
    rw [h4] at this
    obtain ⟨row, _, hrow⟩ := List.mem_map.1 this
    rw [← hrow]
    exact newCells_null conv t.header colnames _ _ hc

/-- C20: a new database (`mode='w'`, or no table yet): the table has the given columns in order
and selecting them gives back all rows, in order, value by value. -/
theorem C20_makedb_create (old : Option (Table R)) (w : Bool) (hw : w = true ∨ old = none)
    (colnames : List Text) (first : List (PyV R)) (rest : List (List (PyV R)))
    (hr : Rect colnames first (first :: rest)) (hft : ∀ v ∈ first, (findSqltype v).isSome = true)
    (hne : colnames ≠ []) (hfold : (colnames.map fold).Nodup) :
    ∃ t', makedb conv old w (first :: rest) colnames (fun _ v => v) = (some t', none) ∧
      t'.header.map Prod.fst = colnames ∧
      selectCols t' colnames = some ((first :: rest).map asStored) := by
  have hfl := hr.length first (by simp)
  obtain ⟨types, ht1, ht2, ht3⟩ := mapE_isSome findSqltype first hft
  have hold : (if w = true then none else old) = none := by
    rcases hw with rfl | rfl <;> simp
  have hfst : (colnames.zip types).map Prod.fst = colnames := List.map_fst_zip (by omega)
  have hfix : fixSqlHeader (colnames.zip types) = colnames.zip types := by
    have hty : ∀ ty ∈ types, fixSqltype ty = ty := by
      intro ty hty
      obtain ⟨j, hj⟩ := List.mem_iff_getElem?.1 hty
      have : j < first.length := by rw [← ht2]; exact (List.getElem?_eq_some_iff.1 hj).1
      obtain ⟨b, hb, hb2⟩ := ht3 j _ (List.getElem?_eq_getElem this)
      rw [hj] at hb2; cases hb2
      exact (C14_find_sqltype _).2.1 _ hb
    rw [fixSqlHeader]
    conv_rhs => rw [← List.map_id (colnames.zip types)]
    apply List.map_congr_left
    intro p hp
    simp [hty p.2 (List.of_mem_zip hp).2]
  have hnd : ((colnames.zip types).map (fun h => fold h.1)).Nodup := by
    have : (colnames.zip types).map (fun h => fold h.1) = ((colnames.zip types).map Prod.fst).map fold := by
      rw [List.map_map]; rfl
    rw [this, hfst]; exact hfold
  have hc : (createTable (colnames.zip types) : Except SqlErr (Table R)) = .ok ⟨colnames.zip types, []⟩ := by
    rw [createTable, if_neg, hfix]
    rintro (h | h)
    · rw [h] at hfst; exact hne hfst.symm
    · exact h hnd
  obtain ⟨t', new, h1, h2, h3, h4, _⟩ := makedb_insert conv (⟨colnames.zip types, []⟩ : Table R) hnd
    colnames first rest hr (List.Nodup.of_map _ hfold) hfold (by
      intro j c v hj hv
      obtain ⟨ty, hb, hb2⟩ := ht3 j v hv
      exact ⟨ty, List.mem_iff_getElem?.2 ⟨j, by rw [List.getElem?_zip_eq_some]; exact ⟨hj, hb2⟩⟩, hb⟩)
  refine ⟨t', ?_, by rw [h2, hfst], ?_⟩
  · simp only [makedb, hfl, ne_eq, not_true_eq_false, if_false, rowTypes, ht1, hold, hc,
      mapE_matrix colnames (first :: rest) hr.length, h1]
  · rw [selectCols, if_pos, h3, List.nil_append, h4]
    intro c hcm
    rw [findCol_isSome, h2]
    rw [← hfst] at hcm
    obtain ⟨x, hx, rfl⟩ := List.mem_map.1 hcm
    exact ⟨x, hx, rfl⟩

/-- C20: appending to a table (no two columns with the same name): if every given column is
there with the type of the first row's value, the rows are added at the bottom, old rows and the
header stay as they are, columns not given are NULL; otherwise the call raises and the table is
unchanged. -/
theorem C20_makedb_append (t : Table R) (hg : GoodHeader t)
    (colnames : List Text) (first : List (PyV R)) (rest : List (List (PyV R)))
    (hr : Rect colnames first (first :: rest)) (hft : ∀ v ∈ first, (findSqltype v).isSome = true)
    (hn : colnames.Nodup) :
    ((∀ (j : Nat) c v, colnames[j]? = some c → first[j]? = some v →
        ∃ ty, (c, ty) ∈ t.header ∧ findSqltype v = some ty) →
      ∃ t' new, makedb conv (some t) false (first :: rest) colnames (fun _ v => v) = (some t', none) ∧
        t'.header = t.header ∧ t'.rows = t.rows ++ new ∧
        new.map (fun r => colnames.map (fun c => r.cell (fold c))) = (first :: rest).map asStored ∧
        ∀ r ∈ new, ∀ h ∈ t.header, h.1 ∉ colnames → r.cell (fold h.1) = .null) ∧
    (¬ (∀ (j : Nat) c v, colnames[j]? = some c → first[j]? = some v →
        ∃ ty, (c, ty) ∈ t.header ∧ findSqltype v = some ty) →
      makedb conv (some t) false (first :: rest) colnames (fun _ v => v)
        = (some t, some .assertion)) := by
  have hfl := hr.length first (by simp)
  obtain ⟨types, ht1, ht2, ht3⟩ := mapE_isSome findSqltype first hft
  have hinj : ∀ x ∈ t.header, ∀ y ∈ t.header, fold x.1 = fold y.1 → x = y :=
    List.inj_on_of_nodup_map hg
  have hchk : checkHeader t (colnames.zip types) = true ↔
      (∀ (j : Nat) c v, colnames[j]? = some c → first[j]? = some v →
        ∃ ty, (c, ty) ∈ t.header ∧ findSqltype v = some ty) := by
    rw [checkHeader_iff]
    constructor
    · intro h j c v hj hv
      obtain ⟨ty, hb, hb2⟩ := ht3 j v hv
      obtain ⟨y, hy1, hy2⟩ := h (c, ty)
        (List.mem_iff_getElem?.2 ⟨j, by rw [List.getElem?_zip_eq_some]; exact ⟨hj, hb2⟩⟩)
      have hyc : y.1 = c := by simpa using List.find?_some hy1
      refine ⟨ty, ?_, hb⟩
      have := List.mem_of_find?_eq_some hy1
      simp only at hy2
      rw [hy2, ← hyc]
      exact this
    · intro h x hx
      obtain ⟨j, hj⟩ := List.mem_iff_getElem?.1 hx
      rw [List.getElem?_zip_eq_some] at hj
      have : j < first.length := by rw [← ht2]; exact (List.getElem?_eq_some_iff.1 hj.2).1
      have hv := List.getElem?_eq_getElem this
      obtain ⟨b, hb, hb2⟩ := ht3 j _ hv
      rw [hj.2] at hb2; cases hb2
      obtain ⟨ty, h1, h2⟩ := h j x.1 _ hj.1 hv
      rw [hb] at h2; cases h2
      refine ⟨(x.1, x.2), ?_, rfl⟩
      refine find?_nodup (fun h : Text × Text => h.1) t.header (x.1, x.2) ?_ h1
      exact List.Nodup.of_map fold (by rw [List.map_map]; exact hg)
  constructor
  · intro hcol
    have hcolnames : ∀ n ∈ colnames, ∃ h ∈ t.header, h.1 = n := by
      intro n hn
      obtain ⟨j, hj⟩ := List.mem_iff_getElem?.1 hn
      have : j < first.length := by rw [hfl]; exact (List.getElem?_eq_some_iff.1 hj).1
      obtain ⟨ty, h1, _⟩ := hcol j n _ hj (List.getElem?_eq_getElem this)
      exact ⟨_, h1, rfl⟩
    have hfold : (colnames.map fold).Nodup := by
      rw [List.nodup_map_iff_inj_on hn]
      intro x hx y hy e
      obtain ⟨h1, hh1, rfl⟩ := hcolnames x hx
      obtain ⟨h2, hh2, rfl⟩ := hcolnames y hy
      rw [hinj h1 hh1 h2 hh2 e]
    obtain ⟨t', new, h1, h2, h3, h4, h5⟩ := makedb_insert conv t hg colnames first rest hr hn hfold hcol
    refine ⟨t', new, ?_, h2, h3, h4, ?_⟩
    · simp only [makedb, hfl, ne_eq, not_true_eq_false, if_false, rowTypes, ht1, Bool.false_eq_true,
        hchk.2 hcol, if_true, mapE_matrix colnames (first :: rest) hr.length, h1]
    · intro r hrn h hh hhn
      apply h5 r hrn
      intro n hnn e
      obtain ⟨h', hh', rfl⟩ := hcolnames n hnn
      rw [hinj h' hh' h hh e] at hnn
      exact hhn hnn
  · intro hcol
    have : checkHeader t (colnames.zip types) = false := by
      cases hb : checkHeader t (colnames.zip types)
      · rfl
      · exact absurd (hchk.1 hb) hcol
    simp only [makedb, hfl, ne_eq, not_true_eq_false, if_false, rowTypes, ht1, Bool.false_eq_true, this]

/-- C20: writing rectangular data to a new database and reading it with `get_dict` gives, under
each column name, that column of the data. -/
theorem C20_roundtrip (old : Option (Table R)) (w : Bool) (hw : w = true ∨ old = none)
    (colnames : List Text) (first : List (PyV R)) (rest : List (List (PyV R)))
    (hr : Rect colnames first (first :: rest)) (hft : ∀ v ∈ first, (findSqltype v).isSome = true)
    (hne : colnames ≠ []) (hfold : (colnames.map fold).Nodup) :
    ∃ t' ret, makedb conv old w (first :: rest) colnames (fun _ v => v) = (some t', none) ∧
      selectCols t' colnames = some ret ∧
      (getDict colnames ret).map Prod.fst = colnames ∧
      ∀ (j : Nat) (c : Text), colnames[j]? = some c →
        ∃ l, (getDict colnames ret)[j]? = some (c, l) ∧
          l.map some = (first :: rest).map (fun row => row[j]?.map (fun v => (bindVal v).getD .null)) := by
  obtain ⟨t', h1, h2, h3⟩ := C20_makedb_create conv old w hw colnames first rest hr hft hne hfold
  refine ⟨t', _, h1, h3, ?_⟩
  have hl : ∀ row ∈ (first :: rest).map asStored, row.length = colnames.length := by
    intro row hrow
    obtain ⟨r, hr', rfl⟩ := List.mem_map.1 hrow
    simpa [asStored] using hr.length r hr'
  obtain ⟨g1, g2⟩ := C20_get_dict colnames (List.Nodup.of_map _ hfold) _ hl
  refine ⟨g1, fun j c hj => ?_⟩
  obtain ⟨l, h4, h5⟩ := g2 j c hj
  refine ⟨l, h4, ?_⟩
  rw [h5, List.map_map]
  apply List.map_congr_left
  intro row _
  simp [asStored]

/-- Non-vacuity: two rows, two columns, one NULL. -/
example : Rect (R := Nat) ["a".toList, "b".toList] [.int 1, .str "x".toList]
    [[.int 1, .str "x".toList], [.none, .str "y".toList]] := by
  refine ⟨by simp, ?_⟩
  intro row hrow j v w hv hw
  simp only [List.mem_cons, List.not_mem_nil, or_false] at hrow
  rcases hrow with rfl | rfl <;> rcases j with _ | _ | j <;> simp at hv hw <;> subst hv <;> subst hw <;>
    simp [findSqltype]

/-- C14: what is stored for a Python value; a value of an unknown type cannot be stored. -/
theorem C14_stored_value (v : PyV R) (w : SqlVal R) : bindVal v = some w ↔ SameValue v w := by
  constructor
  · intro h
    cases v with
    | bool b => cases b <;> (simp only [bindVal, Option.some.injEq] at h; subst h; constructor)
    | other n => simp [bindVal] at h
    | _ => simp only [bindVal, Option.some.injEq] at h; subst h; constructor
  · intro h
    cases h <;> rfl

/-- C20: the round trip in terms of values: entry `i` of the list under column `j` stands for the
Python value in row `i`, column `j`. -/
theorem C20_roundtrip_values (old : Option (Table R)) (w : Bool) (hw : w = true ∨ old = none)
    (colnames : List Text) (first : List (PyV R)) (rest : List (List (PyV R)))
    (hr : Rect colnames first (first :: rest)) (hft : ∀ v ∈ first, (findSqltype v).isSome = true)
    (hne : colnames ≠ []) (hfold : (colnames.map fold).Nodup) :
    ∃ t' ret, makedb conv old w (first :: rest) colnames (fun _ v => v) = (some t', none) ∧
      selectCols t' colnames = some ret ∧
      (getDict colnames ret).map Prod.fst = colnames ∧
      ∀ (j : Nat) (c : Text), colnames[j]? = some c →
        ∃ l, (getDict colnames ret)[j]? = some (c, l) ∧ l.length = (first :: rest).length ∧
          ∀ (i : Nat) (row : List (PyV R)) (v : PyV R), (first :: rest)[i]? = some row → row[j]? = some v →
            ∃ x, l[i]? = some x ∧ SameValue v x := by
  obtain ⟨t', ret, h1, h2, h3, h4⟩ := C20_roundtrip conv old w hw colnames first rest hr hft hne hfold
  refine ⟨t', ret, h1, h2, h3, fun j c hj => ?_⟩
  obtain ⟨l, h5, h6⟩ := h4 j c hj
  refine ⟨l, h5, by simpa using congrArg List.length h6, ?_⟩
  intro i row v hi hv
  have h7 : (l.map some)[i]? = some (some ((bindVal v).getD .null)) := by
    rw [h6, List.getElem?_map, hi]; simp [hv]
  rw [List.getElem?_map] at h7
  cases hl : l[i]? with
  | none => rw [hl] at h7; simp at h7
  | some x =>
    rw [hl] at h7
    simp only [Option.map_some, Option.some.injEq] at h7
    refine ⟨x, rfl, ?_⟩
    rw [← C14_stored_value, h7]
    have hb : (bindVal v).isSome = true := by
      have hrow : row ∈ first :: rest := List.mem_of_getElem? hi
      have hlen := hr.length row hrow
      have hfl := hr.length first (by simp)
      have hjl : j < first.length := by
        have := (List.getElem?_eq_some_iff.1 hv).1; omega
      rcases hr.kind row hrow j v first[j] hv (List.getElem?_eq_getElem hjl) with rfl | ⟨hk, _⟩
      · rfl
      · cases v <;> simp_all [findSqltype, bindVal]
    obtain ⟨y, hy⟩ := Option.isSome_iff_exists.1 hb
    rw [hy]; rfl

/-- C13: `attach_column` without `overwrite` refuses a column that is already there and leaves the
table alone. -/
theorem C13_attach_existing (t : Table R) (col : Text) (hcol : col ∈ t.header.map Prod.fst) (values : List (PyV R))
    (ty : Option Text) (start : Int) (extend : Bool) :
    attachColumn conv t col values ty start extend false = (t, some .assertion) := by
  have := (hasColumn_iff t col).2 hcol
  simp [attachColumn, this]

end Pwtools
