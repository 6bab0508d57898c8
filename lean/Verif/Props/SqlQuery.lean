import Verif.Model.SqlQuery
import Verif.Spec.SqlQuery
import Verif.Props.Sql
import Mathlib.Data.List.Induction
/-!
# C140: query helpers and tables of `SQLiteDB`
-/
namespace Pwtools.SqlQ
open Spec
variable {R : Type}

theorem flatten_append {α : Type} (a b : List (Tree α)) : flatten (a ++ b) = flatten a ++ flatten b := by
  induction a with
  | nil => rfl
  | cons t a ih => simp only [List.cons_append, flatten, ih, List.append_assoc]

theorem tree_of (v : SqlVal R) (h : NoBlob v) : ∃ p, PyOf v p ∧ pyTree v = .leaf p := by
  cases v with
  | null => exact ⟨_, .null, rfl⟩
  | int i => exact ⟨_, .int i, rfl⟩
  | real r => exact ⟨_, .real r, rfl⟩
  | text s => exact ⟨_, .text s, rfl⟩
  | blob b => exact absurd rfl (h b)

theorem row_of (r : List (SqlVal R)) (h : ∀ v ∈ r, NoBlob v) : List.Forall₂ PyOf r (flatten (r.map pyTree)) := by
  induction r with
  | nil => exact .nil
  | cons v r ih =>
    obtain ⟨p, h1, h2⟩ := tree_of v (h v List.mem_cons_self)
    rw [List.map_cons, flatten, h2]
    exact .cons h1 (ih fun x hx => h x (List.mem_cons_of_mem _ hx))

/-- **C140** `get_list1d` is the result of the query, row by row and within a row in the order of the columns, one Python value for each stored value; for any number of rows and columns. -/
theorem C140_list_partial (rows : List (List (SqlVal R))) (h : ∀ r ∈ rows, ∀ v ∈ r, NoBlob v) : List.Forall₂ PyOf rows.flatten (getList1d rows) := by
  induction rows with
  | nil => exact .nil
  | cons r rows ih =>
    show List.Forall₂ PyOf (r ++ rows.flatten) (flatten (r.map pyTree) ++ getList1d rows)
    exact List.rel_append (row_of r (h r List.mem_cons_self)) (ih fun x hx => h x (List.mem_cons_of_mem _ hx))

/-- **C140** One column of a table: `get_list1d("select col from table")` has one entry for each row, in the order of the rows. -/
theorem C140_column_partial (t : Table R) (col : Text) (rows : List (List (SqlVal R))) (hs : selectCols t [col] = some rows) (h : ∀ r ∈ t.rows, NoBlob (r.cell (fold col))) :
    List.Forall₂ (fun r p => PyOf (r.cell (fold col)) p) t.rows (getList1d rows) := by
  unfold selectCols at hs
  split at hs
  · cases hs
    have := C140_list_partial (t.rows.map fun r => [col].map fun c => r.cell (fold c)) (by
      intro r hr v hv
      obtain ⟨q, hq, rfl⟩ := List.mem_map.1 hr
      simp only [List.map_cons, List.map_nil, List.mem_singleton] at hv
      rw [hv]
      exact h q hq)
    have e : (t.rows.map fun r => [col].map fun c => r.cell (fold c)).flatten = t.rows.map fun r => r.cell (fold col) := by
      induction t.rows with
      | nil => rfl
      | cons r l ih => simpa using ih
    rw [e, List.forall₂_map_left_iff] at this
    exact this
  · cases hs

/-- **C140** `get_single` returns the value exactly if the result is one row with one column, else it raises `AssertionError`. -/
theorem C140_single_partial (rows : List (List (SqlVal R))) (h : ∀ r ∈ rows, ∀ v ∈ r, NoBlob v) (h1 : ∀ r ∈ rows, r.length = 1) (p : PyV R) :
    getSingle rows = some p ↔ ∃ v, rows = [[v]] ∧ PyOf v p := by
  have hl := C140_list_partial rows h
  unfold getSingle
  generalize getList1d rows = l at hl
  constructor
  · intro e
    split at e
    · rename_i v
      cases e
      match rows, h1 with
      | [], _ => cases hl
      | [r], h1 =>
        match r, h1 r List.mem_cons_self with
        | [v], _ =>
          cases hl with
          | cons hv _ => exact ⟨v, rfl, hv⟩
      | r :: q :: rows, h1 =>
        have a := h1 r List.mem_cons_self
        have b := h1 q (List.mem_cons_of_mem _ List.mem_cons_self)
        have := hl.length_eq
        simp only [List.flatten_cons, List.length_append, a, b, List.length_cons, List.length_nil] at this
        omega
    · cases e
  · rintro ⟨v, rfl, hv⟩
    cases hl with
    | cons hv' hl =>
      cases hl
      cases hv <;> cases hv' <;> rfl

/-- **C140** is false for BLOBs: `get_list1d` returns their bytes as numbers, all rows joined; `get_single` raises `AssertionError` although there is one value. -/
theorem C140_blob_counterexample : (getList1d [[.blob "ab".toList], [.blob "c".toList]] : List (PyV R)) = [.int 97, .int 98, .int 99] ∧
    (getSingle [[.blob "ab".toList]] : Option (PyV R)) = none := ⟨rfl, rfl⟩

/-! ## tables -/

theorem find_append (d : Db R) (n m : Text) (t : Table R) (h : d.find n = none) :
    ({ d with tables := d.tables ++ [(n, t)] } : Db R).find m = if fold n = fold m then some t else d.find m := by
  unfold Db.find at h ⊢
  simp only [List.find?_append]
  cases hm : d.tables.find? (fun t => fold t.1 = fold m) with
  | some x =>
    rw [if_neg]
    · rfl
    · intro e
      rw [e, hm] at h
      cases h
  | none =>
    by_cases e : fold n = fold m
    · simp [e]
    · simp [e]

/-- **C140** `create_table` works exactly if there is no table of this name and the columns are different; then `has_table` is true, `get_header` returns the columns with normalised types, the table is
empty, and the other tables are as before. -/
theorem C140_create (d : Db R) (header : List (Text × Text)) (n : Text) :
    (d.find n = none ∧ header ≠ [] ∧ (header.map fun h => fold h.1).Nodup →
      ∃ d', d.create header (some n) = .ok d' ∧ d'.hasTable (some n) = .ok true ∧ d'.getHeader (some n) = .ok (header.map fun h => (h.1, fixSqltype h.2)) ∧
        (d'.find n).map (·.rows.length) = some 0 ∧ ∀ m, ¬ SameName n m → d'.find m = d.find m) ∧
    (¬ (d.find n = none ∧ header ≠ [] ∧ (header.map fun h => fold h.1).Nodup) → d.create header (some n) = .error .operational) := by
  constructor
  · rintro ⟨h1, h2, h3⟩
    have hc : (createTable header : Except SqlErr (Table R)) = .ok ⟨fixSqlHeader header, []⟩ := by
      unfold createTable
      rw [if_neg]
      rintro (h | h)
      · exact h2 h
      · exact h h3
    have hf := fun m => find_append d n m ⟨fixSqlHeader header, []⟩ h1
    refine ⟨{ d with tables := d.tables ++ [(n, ⟨fixSqlHeader header, []⟩)] }, ?_, ?_, ?_, ?_, ?_⟩
    · unfold Db.create Db.getTable
      simp only [Except.bind, h1, hc]
    · unfold Db.hasTable Db.info
      simp only [hf n, if_true]
      cases header with
      | nil => exact absurd rfl h2
      | cons a l => rfl
    · unfold Db.getHeader Db.getTable Db.info
      simp only [Except.map]
      rw [hf n, if_pos rfl]
      rfl
    · rw [hf n, if_pos rfl]
      rfl
    · intro m hm
      rw [hf m]
      exact if_neg hm
  · intro h
    unfold Db.create Db.getTable
    simp only [Except.bind]
    cases h1 : d.find n with
    | some t => rfl
    | none =>
      have : (createTable header : Except SqlErr (Table R)) = .error .operational := by
        unfold createTable
        rw [if_pos]
        by_contra hh
        simp only [not_or, not_not] at hh
        exact h ⟨h1, hh⟩
      rw [this]

/-- **C140** A table made from the header of another table has the same header. -/
theorem C140_header_roundtrip (d d1 d2 : Db R) (header : List (Text × Text)) (n m : Text) (h1 : d.create header (some n) = .ok d1) (h : List (Text × Text)) (hh : d1.getHeader (some n) = .ok h)
    (h2 : d1.create h (some m) = .ok d2) : d2.getHeader (some m) = .ok h ∧ d2.getHeader (some n) = .ok h := by
  have c1 := C140_create d header n
  have c2 := C140_create d1 h m
  by_cases a1 : d.find n = none ∧ header ≠ [] ∧ (header.map fun h => fold h.1).Nodup
  · by_cases a2 : d1.find m = none ∧ h ≠ [] ∧ (h.map fun h => fold h.1).Nodup
    · obtain ⟨e1, f1, g1, i1, -, -⟩ := c1.1 a1
      rw [h1] at f1
      cases f1
      rw [hh] at i1
      cases i1
      obtain ⟨e2, f2, g2, i2, -, k2⟩ := c2.1 a2
      rw [h2] at f2
      cases f2
      refine ⟨?_, ?_⟩
      · rw [i2, List.map_map]
        congr 1
        refine List.map_congr_left fun x _ => ?_
        simp only [Function.comp_apply, (C14_fix_sqltype x.2).1]
      · have hne : ¬ SameName m n := by
          intro e
          have : d1.find n = none := by
            rw [← a2.1]
            unfold Db.find fold
            rw [e]
          unfold Db.getHeader Db.getTable Db.info at hh
          simp only [Except.map, this] at hh
          exact a2.2.1 (Except.ok.inj hh).symm
        have := k2 n hne
        unfold Db.getHeader Db.getTable Db.info at hh ⊢
        simp only [Except.map, this] at hh ⊢
        exact hh
    · rw [c2.2 a2] at h2
      cases h2
  · rw [c1.2 a1] at h1
    cases h1

theorem create_eq (d : Db R) (h : List (Text × Text)) (tb : Option Text) (n : Text) (hg : d.getTable tb = .ok n) : d.create h tb =
    match d.find n with
    | some _ => .error .operational
    | none => match (createTable h : Except SqlErr (Table R)) with
      | .ok t => .ok { d with tables := d.tables ++ [(n, t)] }
      | .error _ => .error .operational := by
  unfold Db.create
  rw [hg]
  simp only [Except.bind]
  cases d.find n with
  | some t => rfl
  | none =>
    cases (createTable h : Except SqlErr (Table R)) with
    | ok t => rfl
    | error e => rfl

theorem create_error (d : Db R) (h : List (Text × Text)) (tb : Option Text) (e : QErr) (hg : d.getTable tb = .error e) : d.create h tb = .error e := by
  unfold Db.create
  rw [hg]
  rfl

theorem add_eq (d : Db R) (h : List (Text × Text)) (tb : Option Text) (n : Text) (hg : d.getTable tb = .ok n) : d.addColumns h tb =
    match d.find n with
    | none => (d, if h = [] then none else some .operational)
    | some t =>
      ({ d with tables := d.tables.map fun x => if fold x.1 = fold n then (x.1, (addPart t (fixSqlHeader h)).1) else x },
       if (addPart t (fixSqlHeader h)).2 then none else some .operational) := by
  unfold Db.addColumns
  simp only [hg]
  rfl

theorem add_error (d : Db R) (h : List (Text × Text)) (tb : Option Text) (e : QErr) (hg : d.getTable tb = .error e) : d.addColumns h tb = (d, some e) := by
  unfold Db.addColumns
  rw [hg]

/-- **C140** Without the keyword `table` all methods use the table which was set last; the keyword overrides it. -/
theorem C140_table_keyword (d : Db R) (n m : Text) :
    (d.setTable (some n)).getHeader none = d.getHeader (some n) ∧ (d.setTable (some m)).getHeader (some n) = d.getHeader (some n) ∧
    (d.setTable none).getHeader none = .error .noTable ∧
    (∀ h, ((d.setTable (some n)).create h none).map (·.tables) = (d.create h (some n)).map (·.tables)) ∧
    (∀ h, ((d.setTable (some n)).addColumns h none).1.tables = (d.addColumns h (some n)).1.tables) := by
  have hf : ∀ k, (d.setTable (some n)).find k = d.find k := fun _ => rfl
  refine ⟨rfl, rfl, rfl, fun h => ?_, fun h => ?_⟩
  · rw [create_eq _ h none n rfl, create_eq d h (some n) n rfl, hf]
    cases d.find n with
    | some t => rfl
    | none =>
      cases (createTable h : Except SqlErr (Table R)) with
      | ok t => rfl
      | error e => rfl
  · rw [add_eq _ h none n rfl, add_eq d h (some n) n rfl, hf]
    cases d.find n with
    | some t => rfl
    | none => rfl

theorem addPart_prefix (hs : List (Text × Text)) (t : Table R) : ∃ hs', hs' <+: hs ∧ addColumnsLoop t hs' = .ok (addPart t hs).1 ∧ ((addPart t hs).2 = true → hs' = hs) := by
  induction hs generalizing t with
  | nil => exact ⟨[], List.prefix_refl _, rfl, fun _ => rfl⟩
  | cons h hs ih =>
    obtain ⟨c, ty⟩ := h
    cases ha : addColumn t c ty with
    | error e =>
      refine ⟨[], List.nil_prefix, ?_, ?_⟩
      · simp only [addPart, ha]
        rfl
      · simp [addPart, ha]
    | ok t' =>
      obtain ⟨hs', h1, h2, h3⟩ := ih t'
      refine ⟨(c, ty) :: hs', (List.prefix_cons_inj _).2 h1, ?_, ?_⟩
      · simp only [addColumnsLoop, addPart, ha, h2]
      · simp only [addPart, ha]
        intro h
        rw [h3 h]

theorem find_map (d : Db R) (n m : Text) (t' : Table R) :
    ({ d with tables := d.tables.map fun x => if fold x.1 = fold n then (x.1, t') else x } : Db R).find m = (d.find m).map fun t => if fold m = fold n then t' else t := by
  unfold Db.find
  obtain ⟨l, c⟩ := d
  simp only
  induction l with
  | nil => rfl
  | cons x l ih =>
    rw [List.map_cons, List.find?_cons, List.find?_cons]
    have e : ∀ y : Text × Table R, (if fold x.1 = fold n then (x.1, t') else x).1 = x.1 := by intro; split <;> rfl
    rw [e x]
    by_cases hx : fold x.1 = fold m
    · simp only [hx, decide_true, Option.map_some]
      split <;> rfl
    · simp only [hx, decide_false]
      exact ih

theorem addPart_new (hs : List (Text × Text)) (t : Table R) (hn : ((t.header ++ hs).map fun h => fold h.1).Nodup) :
    (addPart t hs).2 = true ∧ (addPart t hs).1.header = t.header ++ hs.map fun h => (h.1, fixSqltype h.2) := by
  induction hs generalizing t with
  | nil => exact ⟨rfl, (List.append_nil _).symm⟩
  | cons h hs ih =>
    obtain ⟨c, ty⟩ := h
    have hnew : ∀ x ∈ t.header, fold x.1 ≠ fold c := by
      intro x hx e
      rw [List.map_append, List.nodup_append] at hn
      exact hn.2.2 _ (List.mem_map.2 ⟨x, hx, rfl⟩) _ (List.mem_map.2 ⟨(c, ty), List.mem_cons_self, rfl⟩) e
    have h1 : hasColumn t c = false := by
      unfold hasColumn
      rw [List.any_eq_false]
      intro x hx e
      exact hnew x hx (by rw [of_decide_eq_true e])
    have h2 : t.findCol c = none := by
      unfold Table.findCol
      rw [List.find?_eq_none]
      intro x hx e
      exact hnew x hx (of_decide_eq_true e)
    have ha : addColumn t c ty = .ok { header := t.header ++ [(c, fixSqltype ty)], rows := t.rows.map (fun r => r.set (fold c) .null) } := by
      unfold addColumn Table.alterAdd
      rw [h1, h2]
      rfl
    obtain ⟨k1, k2⟩ := ih { header := t.header ++ [(c, fixSqltype ty)], rows := t.rows.map (fun r => r.set (fold c) .null) } (by
      simpa [List.map_append] using hn)
    simp only [addPart, ha]
    refine ⟨k1, ?_⟩
    rw [k2]
    simp

/-- **C140** `add_columns` with new names: it works, and `get_header` returns the old columns and behind them the new ones in the given order, with normalised types. -/
theorem C140_add_columns (d : Db R) (n : Text) (t : Table R) (hs : List (Text × Text)) (h : d.find n = some t) (hn : ((t.header ++ hs).map fun h => fold h.1).Nodup) :
    (d.addColumns hs (some n)).2 = none ∧ (d.addColumns hs (some n)).1.getHeader (some n) = .ok (t.header ++ hs.map fun h => (h.1, fixSqltype h.2)) := by
  have hm : (t.header ++ fixSqlHeader hs).map (fun h => fold h.1) = (t.header ++ hs).map fun h => fold h.1 := by
    rw [List.map_append, List.map_append]
    congr 1
    unfold fixSqlHeader
    rw [List.map_map]
    rfl
  obtain ⟨k1, k2⟩ := addPart_new (fixSqlHeader hs) t (by rw [hm]; exact hn)
  rw [add_eq d hs (some n) n rfl, h]
  refine ⟨if_pos k1, ?_⟩
  show Except.ok (({ d with tables := d.tables.map fun x => if fold x.1 = fold n then (x.1, (addPart t (fixSqlHeader hs)).1) else x } : Db R).info n) = _
  unfold Db.info
  rw [find_map, h, Option.map_some, if_pos rfl]
  show Except.ok (addPart t (fixSqlHeader hs)).1.header = _
  rw [k2]
  unfold fixSqlHeader
  rw [List.map_map]
  congr 2
  refine List.map_congr_left fun x _ => ?_
  simp only [Function.comp_apply, (C14_fix_sqltype x.2).1]

/-- What one step does to a table. -/
theorem step_find (d : Db R) (op : Op) (n : Text) (t : Table R) (h : d.find n = some t) :
    ∃ t', (d.step op).find n = some t' ∧ t.header <+: t'.header ∧ t'.rows.map Row.rowid = t.rows.map Row.rowid ∧ ∀ x ∈ t.header, ∀ r, t'.get r x.1 = t.get r x.1 := by
  have same : ∃ t', d.find n = some t' ∧ t.header <+: t'.header ∧ t'.rows.map Row.rowid = t.rows.map Row.rowid ∧ ∀ x ∈ t.header, ∀ r, t'.get r x.1 = t.get r x.1 :=
    ⟨t, h, List.prefix_refl _, rfl, fun _ _ _ => rfl⟩
  cases op with
  | setTable x => exact same
  | create hd tb =>
    have st : d.step (.create hd tb) = match d.create hd tb with | .ok d' => d' | .error _ => d := rfl
    cases hg : d.getTable tb with
    | error e => rw [st, create_error d hd tb e hg]; exact same
    | ok m =>
      rw [st, create_eq d hd tb m hg]
      cases hm : d.find m with
      | some t => exact same
      | none =>
        cases (createTable hd : Except SqlErr (Table R)) with
        | error e => exact same
        | ok u =>
          show ∃ t', ({ d with tables := d.tables ++ [(m, u)] } : Db R).find n = some t' ∧ _
          rw [find_append d m n u hm, if_neg]
          · exact same
          · intro e
            have : d.find n = d.find m := by unfold Db.find; rw [e]
            rw [this, hm] at h
            cases h
  | addColumns hd tb =>
    have st : d.step (.addColumns hd tb) = (d.addColumns hd tb).1 := rfl
    cases hg : d.getTable tb with
    | error e => rw [st, add_error d hd tb e hg]; exact same
    | ok m =>
      rw [st, add_eq d hd tb m hg]
      cases hm : d.find m with
      | none => exact same
      | some u =>
        show ∃ t', ({ d with tables := d.tables.map fun x => if fold x.1 = fold m then (x.1, (addPart u (fixSqlHeader hd)).1) else x } : Db R).find n = some t' ∧ _
        rw [find_map, h, Option.map_some]
        by_cases e : fold n = fold m
        · have : d.find n = d.find m := by unfold Db.find; rw [e]
          rw [this, hm] at h
          cases h
          obtain ⟨hs', -, h2, -⟩ := addPart_prefix (fixSqlHeader hd) t
          obtain ⟨⟨ext, k1, -⟩, -, k3, k4, -⟩ := addColumns_aux _ _ _ h2
          rw [if_pos e]
          exact ⟨_, rfl, ⟨ext, k1.symm⟩, k3, k4⟩
        · rw [if_neg e]
          exact ⟨t, rfl, List.prefix_refl _, rfl, fun _ _ _ => rfl⟩

/-- **C140** Whatever is done afterwards with the tables of a database (setting, creating, adding columns, also with errors), a table which is there stays: its columns keep their order and types, new ones
come behind them, and all rows and values are kept. -/
theorem C140_history (d : Db R) (ops : List Op) (n : Text) (t : Table R) (h : d.find n = some t) :
    ∃ t', (d.run ops).find n = some t' ∧ t.header <+: t'.header ∧ t'.rows.map Row.rowid = t.rows.map Row.rowid ∧ ∀ x ∈ t.header, ∀ r, t'.get r x.1 = t.get r x.1 := by
  induction ops generalizing d t with
  | nil => exact ⟨t, h, List.prefix_refl _, rfl, fun _ _ _ => rfl⟩
  | cons op ops ih =>
    obtain ⟨t1, h1, h2, h3, h4⟩ := step_find d op n t h
    obtain ⟨t2, k1, k2, k3, k4⟩ := ih (d.step op) t1 h1
    exact ⟨t2, k1, h2.trans k2, k3.trans h3, fun x hx r => (k4 x (h2.subset hx) r).trans (h4 x hx r)⟩

/-- The step creates a table of this name. -/
def Creates (d : Db R) (op : Op) (n : Text) : Prop :=
  ∃ hd tb m, op = .create hd tb ∧ d.getTable tb = .ok m ∧ SameName m n ∧ hd ≠ [] ∧ (hd.map fun h => fold h.1).Nodup

theorem step_new (d : Db R) (op : Op) (n : Text) (h : d.find n = none) :
    (¬ Creates d op n → (d.step op).find n = none) ∧ (Creates d op n → ∃ t, (d.step op).find n = some t ∧ t.header ≠ []) := by
  cases op with
  | setTable x => exact ⟨fun _ => h, by rintro ⟨_, _, _, e, _⟩; cases e⟩
  | create hd tb =>
    have st : d.step (.create hd tb) = match d.create hd tb with | .ok d' => d' | .error _ => d := rfl
    cases hg : d.getTable tb with
    | error e =>
      rw [st, create_error d hd tb e hg]
      refine ⟨fun _ => h, ?_⟩
      rintro ⟨_, _, _, e, h2, _⟩
      cases e
      rw [hg] at h2
      cases h2
    | ok m =>
      rw [st, create_eq d hd tb m hg]
      cases hm : d.find m with
      | some t =>
        refine ⟨fun _ => h, ?_⟩
        rintro ⟨_, _, _, e, h2, h3, _⟩
        cases e
        rw [hg] at h2
        cases h2
        have : d.find n = d.find m := by unfold Db.find fold; rw [show m.map Char.toLower = n.map Char.toLower from h3]
        rw [this, hm] at h
        cases h
      | none =>
        cases hc : (createTable hd : Except SqlErr (Table R)) with
        | error e =>
          refine ⟨fun _ => h, ?_⟩
          rintro ⟨_, _, _, e, _, _, h4, h5⟩
          cases e
          unfold createTable at hc
          rw [if_neg] at hc
          · cases hc
          · rintro (x | x)
            · exact h4 x
            · exact x h5
        | ok u =>
          show (_ → ({ d with tables := d.tables ++ [(m, u)] } : Db R).find n = none) ∧ (_ → ∃ t, ({ d with tables := d.tables ++ [(m, u)] } : Db R).find n = some t ∧ _)
          rw [find_append d m n u hm]
          have hu : (hd ≠ [] ∧ (hd.map fun h => fold h.1).Nodup) ∧ u.header = fixSqlHeader hd := by
            unfold createTable at hc
            split at hc
            · cases hc
            · rename_i hx
              simp only [not_or, not_not] at hx
              cases hc
              exact ⟨hx, rfl⟩
          constructor
          · intro hn
            rw [if_neg, h]
            intro e
            exact hn ⟨hd, tb, m, rfl, hg, e, hu.1⟩
          · rintro ⟨_, _, _, e, h2, h3, _⟩
            cases e
            rw [hg] at h2
            cases h2
            refine ⟨u, if_pos h3, ?_⟩
            rw [hu.2]
            intro e
            exact hu.1.1 (List.map_eq_nil_iff.1 e)
  | addColumns hd tb =>
    refine ⟨fun _ => ?_, by rintro ⟨_, _, _, e, _⟩; cases e⟩
    have st : d.step (.addColumns hd tb) = (d.addColumns hd tb).1 := rfl
    cases hg : d.getTable tb with
    | error e => rw [st, add_error d hd tb e hg]; exact h
    | ok m =>
      rw [st, add_eq d hd tb m hg]
      cases hm : d.find m with
      | none => exact h
      | some u =>
        show ({ d with tables := d.tables.map fun x => if fold x.1 = fold m then (x.1, (addPart u (fixSqlHeader hd)).1) else x } : Db R).find n = none
        rw [find_map, h]
        rfl

theorem run_append (d : Db R) (a b : List Op) : d.run (a ++ b) = (d.run a).run b := List.foldl_append ..

theorem run_find (ops : List Op) (n : Text) :
    (((⟨[], none⟩ : Db R).run ops).find n = none ∧ ¬ ∃ pre op post, ops = pre ++ op :: post ∧ Creates ((⟨[], none⟩ : Db R).run pre) op n) ∨
    ((∃ t, ((⟨[], none⟩ : Db R).run ops).find n = some t ∧ t.header ≠ []) ∧ ∃ pre op post, ops = pre ++ op :: post ∧ Creates ((⟨[], none⟩ : Db R).run pre) op n) := by
  induction ops using List.reverseRec with
  | nil =>
    refine .inl ⟨rfl, ?_⟩
    rintro ⟨pre, op, post, h, _⟩
    cases pre <;> cases h
  | append_singleton ops op ih =>
    have hr : (⟨[], none⟩ : Db R).run (ops ++ [op]) = ((⟨[], none⟩ : Db R).run ops).step op := by rw [run_append]; rfl
    rw [hr]
    rcases ih with ⟨h1, h2⟩ | ⟨⟨t, h1, h1'⟩, pre, o, post, h2, h3⟩
    · obtain ⟨s1, s2⟩ := step_new _ op n h1
      by_cases hc : Creates ((⟨[], none⟩ : Db R).run ops) op n
      · exact .inr ⟨s2 hc, ops, op, [], rfl, hc⟩
      · refine .inl ⟨s1 hc, ?_⟩
        rintro ⟨pre, o, post, e, hx⟩
        rcases List.eq_nil_or_concat post with rfl | ⟨q, y, rfl⟩
        · have := List.append_inj' e rfl
          obtain ⟨rfl, e2⟩ := this
          cases e2
          exact hc hx
        · rw [List.concat_eq_append, ← List.cons_append, ← List.append_assoc] at e
          obtain ⟨e1, -⟩ := List.append_inj' e rfl
          exact h2 ⟨pre, o, q, e1, hx⟩
    · obtain ⟨t', k1, k2, -, -⟩ := step_find _ op n t h1
      refine .inr ⟨⟨t', k1, ?_⟩, pre, o, post ++ [op], by rw [h2, List.append_assoc]; rfl, h3⟩
      rintro e
      rw [e] at k2
      exact h1' (List.prefix_nil.1 k2)

/-- **C140** A table exists after a history of operations on an empty database exactly if one of them created it, under this name up to the case of letters. -/
theorem C140_has_table (ops : List Op) (n : Text) :
    ((⟨[], none⟩ : Db R).run ops).hasTable (some n) = .ok true ↔
      ∃ pre hd tb post m, ops = pre ++ .create hd tb :: post ∧ ((⟨[], none⟩ : Db R).run pre).getTable tb = .ok m ∧ SameName m n ∧ hd ≠ [] ∧ (hd.map fun h => fold h.1).Nodup := by
  have hr := run_find (R := R) ops n
  have hi : (∃ pre op post, ops = pre ++ op :: post ∧ Creates ((⟨[], none⟩ : Db R).run pre) op n) ↔
      ∃ pre hd tb post m, ops = pre ++ .create hd tb :: post ∧ ((⟨[], none⟩ : Db R).run pre).getTable tb = .ok m ∧ SameName m n ∧ hd ≠ [] ∧ (hd.map fun h => fold h.1).Nodup := by
    constructor
    · rintro ⟨pre, op, post, h, hd, tb, m, rfl, h2⟩
      exact ⟨pre, hd, tb, post, m, h, h2⟩
    · rintro ⟨pre, hd, tb, post, m, h, h2⟩
      exact ⟨pre, _, post, h, hd, tb, m, rfl, h2⟩
  rw [← hi]
  unfold Db.hasTable Db.info
  rcases hr with ⟨h1, h2⟩ | ⟨⟨t, h1, h1'⟩, h2⟩
  · simp only [h1, h2, iff_false]
    intro h
    cases h
  · simp only [h1, h2, iff_true]
    cases hh : t.header with
    | nil => exact absurd hh h1'
    | cons a l => rfl

/-! ## Examples -/

/-- A user's history: a failing `create_table` (the name is taken) and a failing `add_columns` (the second column is there) change nothing else. -/
def exOps : List Op :=
  [.setTable (some "calc".toList), .create [("idx".toList, "integer".toList), ("ekin".toList, "float".toList)] none, .create [("x".toList, "text".toList)] (some "Calc".toList),
   .addColumns [("date".toList, "text".toList), ("IDX".toList, "text".toList), ("z".toList, "text".toList)] none]

/-- Hypotheses of `C140_history` and the right side of `C140_has_table` are met; the header is as sqlite reports it. -/
example : ((⟨[], none⟩ : Db ℚ).run exOps).getHeader none = .ok [("idx".toList, "INTEGER".toList), ("ekin".toList, "REAL".toList), ("date".toList, "TEXT".toList)] ∧
    ((⟨[], none⟩ : Db ℚ).run exOps).hasTable (some "CALC".toList) = .ok true ∧ ((⟨[], none⟩ : Db ℚ).run exOps).hasTable (some "other".toList) = .ok false := by
  decide +kernel

example : (((⟨[], none⟩ : Db ℚ).run exOps).find "calc".toList).isSome = true := by decide +kernel

/-- Two rows, two columns. -/
example : (getList1d [[.int 1, .text "a".toList], [.null, .real 2]] : List (PyV ℚ)) = [.int 1, .str "a".toList, .none, .float 2] ∧
    (∀ r ∈ ([[.int 1, .text "a".toList], [.null, .real 2]] : List (List (SqlVal ℚ))), ∀ v ∈ r, NoBlob v) ∧ (getSingle [[.int 1]] : Option (PyV ℚ)) = some (.int 1) := by
  refine ⟨rfl, ?_, rfl⟩
  simp [NoBlob]

end Pwtools.SqlQ
