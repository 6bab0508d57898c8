import Verif.Props.Batch
/-!
# C15, C16, C17, C18: histories of `write_input`
-/
namespace Pwtools
open Spec
variable {R : Type} (conv : Text → SqlVal R → SqlVal R)

/-! ## Running effects -/

theorem runEffs_append : ∀ (a b : List (Eff R)) (w : World R),
    runEffs conv w (a ++ b) = match runEffs conv w a with
      | (w1, none) => runEffs conv w1 b
      | (w1, some e) => (w1, some e)
  | [], b, w => rfl
  | e :: es, b, w => by
    simp only [List.cons_append, runEffs]
    cases step conv w e with
    | error er => rfl
    | ok w1 => exact runEffs_append es b w1

theorem runEffs_append_ok (a b : List (Eff R)) (w w' : World R) :
    runEffs conv w (a ++ b) = (w', none) ↔
      ∃ w1, runEffs conv w a = (w1, none) ∧ runEffs conv w1 b = (w', none) := by
  rw [runEffs_append]
  rcases h : runEffs conv w a with ⟨w1, _ | e⟩
  · simp
  · simp

/-- A property kept by every step is kept by a run, also by one that raises. -/
theorem runEffs_inv (P : World R → Prop) : ∀ (es : List (Eff R)) (w : World R), P w →
    (∀ e ∈ es, ∀ w w', P w → step conv w e = .ok w' → P w') → P (runEffs conv w es).1
  | [], w, h, _ => h
  | e :: es, w, h, hs => by
    simp only [runEffs]
    cases he : step conv w e with
    | error er => exact h
    | ok w1 =>
      exact runEffs_inv P es w1 (hs e (by simp) w w1 h he)
        (fun x hx => hs x (List.mem_cons_of_mem _ hx))

/-- Effects that do not touch the database or `excl_push`. -/
def isDirEff : Eff R → Bool
  | .backupDb | .backupDir _ | .purgeDir _ | .rmCalc .. | .mkCalc .. | .writeFile .. | .runSh ..
  | .fail _ => true
  | _ => false

theorem step_dir {w w' : World R} {e : Eff R} (he : isDirEff e = true) (h : step conv w e = .ok w') :
    w'.saved = w.saved ∧ w'.cur = w.cur ∧ w'.excl = w.excl := by
  cases e <;> simp only [isDirEff, reduceCtorEq, Bool.false_eq_true] at he <;> simp only [step] at h
  case backupDb => cases h; exact ⟨rfl, rfl, rfl⟩
  case backupDir hn => cases hh : w.host hn <;> rw [hh] at h <;> cases h <;> exact ⟨rfl, rfl, rfl⟩
  case purgeDir => cases h; exact ⟨rfl, rfl, rfl⟩
  case rmCalc hn i => cases hh : w.calcOf hn i <;> rw [hh] at h <;> cases h <;> exact ⟨rfl, rfl, rfl⟩
  case mkCalc hn i => cases hh : w.calcOf hn i <;> rw [hh] at h <;> cases h <;> exact ⟨rfl, rfl, rfl⟩
  case writeFile hn i n t =>
    cases hh : w.calcOf hn i <;> rw [hh] at h <;> cases h <;> exact ⟨rfl, rfl, rfl⟩
  case runSh hn l => cases hh : w.host hn <;> rw [hh] at h <;> cases h <;> exact ⟨rfl, rfl, rfl⟩
  case fail => cases h

theorem run_dir (es : List (Eff R)) (w : World R) (he : ∀ e ∈ es, isDirEff e = true) :
    (runEffs conv w es).1.saved = w.saved ∧ (runEffs conv w es).1.cur = w.cur ∧
    (runEffs conv w es).1.excl = w.excl := by
  refine runEffs_inv conv (fun x => x.saved = w.saved ∧ x.cur = w.cur ∧ x.excl = w.excl) es w
    ⟨rfl, rfl, rfl⟩ ?_
  intro e hm w1 w2 h hs
  obtain ⟨a, b, c⟩ := step_dir conv (he e hm) hs
  exact ⟨a.trans h.1, b.trans h.2.1, c.trans h.2.2⟩

theorem templEffs_mem (h : Text) (i : Nat) (rec : List (Text × Entry R)) : ∀ (ts : List Templ) (e : Eff R),
    e ∈ templEffs h i rec ts → e = .fail .template ∨ ∃ n t, e = .writeFile h i n t
  | [], e, he => by simp [templEffs] at he
  | t :: ts, e, he => by
    rw [templEffs] at he
    cases ht : templText t rec with
    | none => rw [ht] at he; simp at he; exact Or.inl he
    | some txt =>
      rw [ht] at he
      rcases List.mem_cons.1 he with rfl | he
      · exact Or.inr ⟨_, _, rfl⟩
      · exact templEffs_mem h i rec ts e he

/-- The effects of one calculation. -/
theorem calcEffs_mem (s : Study R) (o : Opts) (m : Machine) (rev idx : Nat) (p : List (Tree (Entry R)))
    (e : Eff R) (he : e ∈ calcEffs s o m rev idx p) :
    (o.w = true ∧ e = .rmCalc m.hostname idx) ∨ e = .mkCalc m.hostname idx ∨
    (∃ n t, e = .writeFile m.hostname idx n t) ∨ ∃ b, e = .fail b := by
  simp only [calcEffs, List.mem_append] at he
  rcases he with ((he | he) | he) | he
  · split at he
    · rename_i hw; simp at he; exact Or.inl ⟨hw, he⟩
    · simp at he
  · simp at he; exact Or.inr (Or.inl he)
  · rcases templEffs_mem _ _ _ _ _ he with h | h
    · exact Or.inr (Or.inr (Or.inr ⟨_, h⟩))
    · exact Or.inr (Or.inr (Or.inl h))
  · split at he
    · simp at he; exact Or.inr (Or.inr (Or.inr ⟨_, he⟩))
    · simp at he

theorem paramEffs_mem (s : Study R) (o : Opts) (m : Machine) (rev : Nat) :
    ∀ (ps : List (List (Tree (Entry R)))) (idx : Nat) (e : Eff R), e ∈ paramEffs s o m rev idx ps →
    ∃ i p, idx ≤ i ∧ i < idx + ps.length ∧ e ∈ calcEffs s o m rev i p
  | [], idx, e, he => by simp [paramEffs] at he
  | p :: ps, idx, e, he => by
    rw [paramEffs, List.mem_append] at he
    rcases he with he | he
    · exact ⟨idx, p, le_refl _, by simp, he⟩
    · obtain ⟨i, q, h1, h2, h3⟩ := paramEffs_mem s o m rev ps (idx + 1) e he
      exact ⟨i, q, by omega, by simp only [List.length_cons]; omega, h3⟩

/-- All effects on directories: which there are, and on which idx. -/
theorem machineEffs_mem (s : Study R) (o : Opts) (rev next : Nat) (e : Eff R)
    (he : e ∈ s.machines.flatMap (machineEffs s o rev next)) :
    ∃ m ∈ s.machines, (e = .backupDir m.hostname) ∨ (o.w = true ∧ e = .purgeDir m.hostname) ∨
      (∃ l, e = .runSh m.hostname l) ∨ (∃ b, e = .fail b) ∨
      ∃ i, next ≤ i ∧ i < next + s.params.length ∧
        ((o.w = true ∧ e = .rmCalc m.hostname i) ∨ e = .mkCalc m.hostname i ∨
          ∃ n t, e = .writeFile m.hostname i n t) := by
  rw [List.mem_flatMap] at he
  obtain ⟨m, hm, he⟩ := he
  refine ⟨m, hm, ?_⟩
  simp only [machineEffs, List.mem_append] at he
  rcases he with ((he | he) | he) | he
  · split at he
    · simp at he; exact Or.inl he
    · simp at he
  · split at he
    · rename_i hw; simp at he; exact Or.inr (Or.inl ⟨hw, he⟩)
    · simp at he
  · obtain ⟨i, p, h1, h2, h3⟩ := paramEffs_mem s o m rev _ _ _ he
    rcases calcEffs_mem s o m rev i p e h3 with h | h | h | h
    · exact Or.inr (Or.inr (Or.inr (Or.inr ⟨i, h1, h2, Or.inl h⟩)))
    · exact Or.inr (Or.inr (Or.inr (Or.inr ⟨i, h1, h2, Or.inr (Or.inl h)⟩)))
    · exact Or.inr (Or.inr (Or.inr (Or.inr ⟨i, h1, h2, Or.inr (Or.inr h)⟩)))
    · exact Or.inr (Or.inr (Or.inr (Or.inl h)))
  · simp at he; exact Or.inr (Or.inr (Or.inl ⟨_, he⟩))

theorem machineEffs_dir (s : Study R) (o : Opts) (rev next : Nat) :
    ∀ e ∈ s.machines.flatMap (machineEffs s o rev next), isDirEff e = true := by
  intro e he
  obtain ⟨m, _, h⟩ := machineEffs_mem s o rev next e he
  rcases h with h | ⟨_, h⟩ | ⟨_, h⟩ | ⟨_, h⟩ | ⟨i, _, _, ⟨_, h⟩ | h | ⟨_, _, h⟩⟩ <;> subst h <;> rfl

/-! ## The database part -/

/-- What `ALTER TABLE` leaves of the rows. -/
structure Extends (t t' : Table R) : Prop where
  good : GoodHeader t → GoodHeader t'
  sub : ∀ h ∈ t.header, h ∈ t'.header
  len : t'.rows.length = t.rows.length
  old : ∀ (k : Nat) r', t'.rows[k]? = some r' → ∃ r, t.rows[k]? = some r ∧
    (∀ h ∈ t.header, r'.cell (fold h.1) = r.cell (fold h.1)) ∧
    (∀ h ∈ t'.header, h ∉ t.header → r'.cell (fold h.1) = .null)

theorem Extends.refl (t : Table R) : Extends t t :=
  ⟨id, fun _ h => h, rfl, fun k r h => ⟨r, h, fun _ _ => rfl, fun _ h1 h2 => absurd h1 h2⟩⟩

theorem Extends.trans {t t1 t2 : Table R} (a : Extends t t1) (b : Extends t1 t2) : Extends t t2 := by
  refine ⟨fun h => b.good (a.good h), fun h hh => b.sub h (a.sub h hh), b.len.trans a.len, ?_⟩
  intro k r2 h2
  obtain ⟨r1, h1, o1, n1⟩ := b.old k r2 h2
  obtain ⟨r, h0, o0, n0⟩ := a.old k r1 h1
  refine ⟨r, h0, fun h hh => (o1 h (a.sub h hh)).trans (o0 h hh), ?_⟩
  intro h hh hn
  by_cases hm : h ∈ t1.header
  · rw [o1 h hm, n0 h hm hn]
  · exact n1 h hh hm

theorem addColumn_extends {t t' : Table R} {c ty : Text} (h : addColumn t c ty = .ok t') :
    Extends t t' ∧ c ∈ t'.header.map Prod.fst ∧
    (∀ x ∈ t'.header, x ∈ t.header ∨ x = (c, fixSqltype ty)) := by
  unfold addColumn at h
  by_cases hc : hasColumn t c = true
  · rw [if_pos hc] at h
    cases h
    exact ⟨Extends.refl t, (hasColumn_iff t c).1 hc, fun x hx => Or.inl hx⟩
  · rw [if_neg hc, Table.alterAdd] at h
    by_cases hf : (t.findCol c).isSome = true
    · rw [if_pos hf] at h; cases h
    · rw [if_neg hf] at h
      cases h
      have hf' : ∀ x ∈ t.header, fold x.1 ≠ fold c := fun x hx e => hf ((findCol_isSome t c).2 ⟨x, hx, e⟩)
      refine ⟨⟨?_, fun x hx => List.mem_append_left _ hx, by simp, ?_⟩, by simp, ?_⟩
      · intro hg
        unfold GoodHeader at *
        rw [List.map_append, List.nodup_append]
        refine ⟨hg, by simp, ?_⟩
        intro a ha b hb
        simp only [List.map_cons, List.map_nil, List.mem_singleton] at hb
        obtain ⟨x, hx, rfl⟩ := List.mem_map.1 ha
        rw [hb]
        exact hf' x hx
      · intro k r' hr
        rw [List.getElem?_map] at hr
        cases hk : t.rows[k]? with
        | none => rw [hk] at hr; simp at hr
        | some r =>
          rw [hk] at hr
          simp only [Option.map_some, Option.some.injEq] at hr
          subst hr
          refine ⟨r, rfl, ?_, ?_⟩
          · intro x hx; simp [Row.set, hf' x hx]
          · intro x hx hn
            rcases List.mem_append.1 hx with h | h
            · exact absurd h hn
            · simp only [List.mem_singleton] at h
              subst h
              simp [Row.set]
      · intro x hx
        rcases List.mem_append.1 hx with h | h
        · exact Or.inl h
        · exact Or.inr (by simpa using h)

theorem setAt_self {V : Type} (f : Text → V) (k : Text) (v : V) : setAt f k v k = v := by simp [setAt]

/-- The loop over `has_column`/`add_column`. -/
theorem run_ensure (T : Text) : ∀ (l : List (Text × Text)) (w w' : World R) (t : Table R),
    w.cur T = some t →
    runEffs conv w (l.map (fun e => Eff.ensureCol T e.1 e.2)) = (w', none) →
    ∃ t', w'.cur T = some t' ∧ Extends t t' ∧ (∀ e ∈ l, e.1 ∈ t'.header.map Prod.fst) ∧
      w'.host = w.host ∧ w'.excl = w.excl
  | [], w, w', t, hc, h => by
    simp only [List.map_nil, runEffs, Prod.mk.injEq, and_true] at h
    subst h
    exact ⟨t, hc, Extends.refl t, by simp, rfl, rfl⟩
  | e :: es, w, w', t, hc, h => by
    simp only [List.map_cons, runEffs, step, hc] at h
    cases ha : addColumn t e.1 e.2 with
    | error er => rw [ha] at h; simp at h
    | ok t1 =>
      rw [ha] at h
      obtain ⟨x1, x2, _⟩ := addColumn_extends ha
      obtain ⟨t', h1, h2, h3, h4, h5⟩ := run_ensure T es _ w' t1 (by simp [setAt_self]) h
      refine ⟨t', h1, x1.trans h2, ?_, h4, h5⟩
      intro y hy
      rcases List.mem_cons.1 hy with rfl | hy
      · obtain ⟨z, hz, hz'⟩ := List.mem_map.1 x2
        rw [← hz']
        exact List.mem_map_of_mem (h2.sub z hz)
      · exact h3 y hy

theorem findCol_of_mem {t : Table R} (hg : GoodHeader t) {x : Text × Text} (hx : x ∈ t.header) :
    t.findCol x.1 = some x :=
  find?_nodup (fun h : Text × Text => fold h.1) t.header x hg hx

/-- Values of a record in the row made for it. -/
structure RowOf (conv : Text → SqlVal R → SqlVal R) (header : List (Text × Text))
    (rec : List (Text × Entry R)) (r : Row R) : Prop where
  some : ∀ key e, rec.lookup key = some e → ∃ ty v, (key, ty) ∈ header ∧ bindVal e.sqlval = some v ∧
    r.cell (fold key) = store conv ty v
  none : ∀ h ∈ header, rec.lookup h.1 = none → r.cell (fold h.1) = .null

theorem lookup_zip {V W : Type} : ∀ (rec : List (Text × V)) (f : V → Option W) (vs : List W) (key : Text) (e : V),
    mapE f (rec.map Prod.snd) = some vs → rec.lookup key = some e →
    ∃ (j : Nat) (v : W), (rec.map Prod.fst)[j]? = some key ∧ vs[j]? = some v ∧ f e = some v
  | [], f, vs, key, e, _, h => by simp at h
  | (k, a) :: rest, f, vs, key, e, hm, h => by
    rw [List.map_cons, mapE] at hm
    cases hf : f a with
    | none => rw [hf] at hm; simp at hm
    | some b =>
      rw [hf] at hm
      cases hr : mapE f (rest.map Prod.snd) with
      | none => rw [hr] at hm; simp at hm
      | some bs =>
        rw [hr] at hm
        simp only [Option.some.injEq] at hm
        subst hm
        by_cases hk : key = k
        · subst hk
          simp at h
          subst h
          exact ⟨0, b, by simp, by simp, hf⟩
        · have : (key == k) = false := by simpa using hk
          simp only [List.lookup, this] at h
          obtain ⟨j, v, h1, h2, h3⟩ := lookup_zip rest f bs key e hr h
          exact ⟨j + 1, v, by simpa using h1, by simpa using h2, h3⟩

theorem mapE_comp {α β γ : Type} (g : α → β) (f : β → Option γ) : ∀ l : List α,
    mapE f (l.map g) = mapE (fun a => f (g a)) l
  | [] => rfl
  | a :: as => by simp only [List.map_cons, mapE, mapE_comp g f as]

theorem insert_rowOf {t t' : Table R} (hg : GoodHeader t) (rec : List (Text × Entry R))
    (hk : (rec.map Prod.fst).Nodup) (hh : ∀ e ∈ rec, e.1 ∈ t.header.map Prod.fst)
    (vs : List (SqlVal R)) (hv : mapE bindVal (rec.map (fun e => e.2.sqlval)) = some vs)
    (h : t.insert conv (rec.map Prod.fst) vs = some t') :
    t'.header = t.header ∧ ∃ r, t'.rows = t.rows ++ [r] ∧ RowOf conv t.header rec r := by
  unfold Table.insert at h
  split at h
  · simp only [Option.some.injEq] at h
    subst h
    refine ⟨rfl, _, rfl, ?_⟩
    have hfold : ((rec.map Prod.fst).map fold).Nodup := by
      rw [List.nodup_map_iff_inj_on hk]
      intro a ha b hb hab
      have mem : ∀ a ∈ rec.map Prod.fst, ∃ ty, (a, ty) ∈ t.header := by
        intro a ha
        obtain ⟨e, he, rfl⟩ := List.mem_map.1 ha
        obtain ⟨x, hx, hx'⟩ := List.mem_map.1 (hh e he)
        exact ⟨x.2, by rw [← hx']; exact hx⟩
      obtain ⟨ta, h1⟩ := mem a ha
      obtain ⟨tb, h2⟩ := mem b hb
      have := List.inj_on_of_nodup_map hg h1 h2 hab
      exact (Prod.mk.inj this).1
    have hcell : (t.newRow conv (rec.map Prod.fst) vs).cell = newCells conv t.header (rec.map Prod.fst) vs := rfl
    constructor
    · intro key e he
      have hv' : mapE (fun x : Entry R => bindVal x.sqlval) (rec.map Prod.snd) = some vs := by
        rw [mapE_comp] at hv ⊢
        exact hv
      obtain ⟨j, v, h1, h2, h3⟩ := lookup_zip rec _ vs key e hv' he
      have hm : key ∈ rec.map Prod.fst := List.mem_of_getElem? h1
      obtain ⟨e', he', hke⟩ := List.mem_map.1 hm
      obtain ⟨x, hx, hx'⟩ := List.mem_map.1 (hh e' he')
      refine ⟨x.2, v, by rw [← hke, ← hx']; exact hx, h3, ?_⟩
      rw [hcell, newCells_get conv t.header _ vs j key v hfold h1 h2]
      have := findCol_of_mem hg hx
      rw [hx', hke] at this
      have h' : (⟨t.header, []⟩ : Table R).findCol key = some x := this
      rw [h']; rfl
    · intro x hx hn
      rw [hcell]
      apply newCells_null
      intro n hm e
      obtain ⟨e', he', rfl⟩ := List.mem_map.1 hm
      obtain ⟨y, hy, hy'⟩ := List.mem_map.1 (hh e' he')
      have := List.inj_on_of_nodup_map hg hy hx (by show fold y.1 = fold x.1; rw [hy', e])
      subst this
      have : (rec.lookup y.1).isSome = true := (lookup_isSome_iff rec y.1).2 (by rw [hy']; exact hm)
      rw [hn] at this
      cases this
  · cases h

/-- The insert loop. -/
theorem run_insert (T : Text) : ∀ (recs : List (List (Text × Entry R))) (w w' : World R) (t : Table R),
    w.cur T = some t → GoodHeader t →
    (∀ rec ∈ recs, (rec.map Prod.fst).Nodup ∧ ∀ e ∈ rec, e.1 ∈ t.header.map Prod.fst) →
    runEffs conv w (recs.map (fun rec => Eff.insert T (rec.map Prod.fst) (rec.map (fun e => e.2.sqlval))))
      = (w', none) →
    ∃ t' new, w'.cur T = some t' ∧ t'.header = t.header ∧ t'.rows = t.rows ++ new ∧
      new.length = recs.length ∧
      (∀ (k : Nat) rec r, recs[k]? = some rec → new[k]? = some r → RowOf conv t.header rec r) ∧
      w'.host = w.host ∧ w'.excl = w.excl ∧ w'.saved = w.saved
  | [], w, w', t, hc, _, _, h => by
    simp only [List.map_nil, runEffs, Prod.mk.injEq, and_true] at h
    subst h
    exact ⟨t, [], hc, rfl, by simp, rfl, by simp, rfl, rfl, rfl⟩
  | rec :: recs, w, w', t, hc, hg, hh, h => by
    simp only [List.map_cons, runEffs, step, hc] at h
    cases hv : mapE bindVal (rec.map (fun e => e.2.sqlval)) with
    | none => rw [hv] at h; simp at h
    | some vs =>
      rw [hv] at h
      simp only at h
      cases hi : t.insert conv (rec.map Prod.fst) vs with
      | none => rw [hi] at h; simp at h
      | some t1 =>
        rw [hi] at h
        obtain ⟨a1, r, a2, a3⟩ := insert_rowOf conv hg rec (hh rec (by simp)).1 (hh rec (by simp)).2 vs hv hi
        obtain ⟨t', new, b1, b2, b3, b4, b5, b6, b7, b8⟩ := run_insert T recs _ w' t1 (by simp [setAt_self])
          (by unfold GoodHeader; rw [a1]; exact hg)
          (fun x hx => by rw [a1]; exact hh x (List.mem_cons_of_mem _ hx)) h
        refine ⟨t', r :: new, b1, b2.trans a1, by rw [b3, a2]; simp, by simp [b4], ?_, b6, b7, b8⟩
        intro k rec' r' hk hr
        cases k with
        | zero => simp at hk hr; subst hk hr; exact a3
        | succ k =>
          have := b5 k rec' r' (by simpa using hk) (by simpa using hr)
          rwa [a1] at this

/-! ## C15 -/

/-- The columns every table made by `write_input` has. -/
def adminCols : List (Text × Text) :=
  [("revision".toList, "INTEGER".toList), ("study_name".toList, "TEXT".toList),
   ("idx".toList, "INTEGER".toList), ("calc_name".toList, "TEXT".toList),
   ("hostname".toList, "TEXT".toList)]

theorem rowOf_rowIs {header : List (Text × Text)} (hn : (header.map (fun h => fold h.1)).Nodup)
    (ha : ∀ c ∈ adminCols, c ∈ header) (s : Study R) (rev idx : Nat)
    (p : List (Tree (Entry R))) (r : Row R) (h : RowOf conv header (dbRecord s rev idx p) r) :
    RowIs conv header idx ⟨rev, s, p⟩ r := by
  have hrec := C19_db_record (⟨s.machines, s.templates, [p], s.studyName, s.table⟩ : Study R) rev idx 0 p
    (dbRecord s rev idx p) rfl (by rw [dbRecords_get]; rfl)
  obtain ⟨_, h1, h2, h3, h4, h5, h6⟩ := hrec
  have key : ∀ (k ty : Text), (k, ty) ∈ adminCols → ∀ v : PyV R,
      ((dbRecord s rev idx p).lookup k).map SQLEntry.sqlval = some v →
      ∃ x, bindVal v = some x ∧ r.cell (fold k) = store conv ty x := by
    intro k ty hk v hv
    cases hl : (dbRecord s rev idx p).lookup k with
    | none => rw [hl] at hv; simp at hv
    | some e =>
      rw [hl] at hv
      simp only [Option.map_some, Option.some.injEq] at hv
      obtain ⟨ty', x, g1, g2, g3⟩ := h.some k e hl
      have := List.inj_on_of_nodup_map hn g1 (ha _ hk) rfl
      rw [(Prod.mk.inj this).2] at g3
      exact ⟨x, by rw [← hv]; exact g2, g3⟩
  refine ⟨?_, ?_, ?_, ?_, ?_, ?_, ?_⟩
  · obtain ⟨x, hx, hc⟩ := key "idx".toList "INTEGER".toList (by simp [adminCols]) _ h2
    cases hx; exact hc
  · obtain ⟨x, hx, hc⟩ := key "revision".toList "INTEGER".toList (by simp [adminCols]) _ h1
    cases hx; exact hc
  · obtain ⟨x, hx, hc⟩ := key "study_name".toList "TEXT".toList (by simp [adminCols]) _ h3
    cases hx; exact hc
  · obtain ⟨x, hx, hc⟩ := key "calc_name".toList "TEXT".toList (by simp [adminCols]) _ h4
    cases hx; exact hc
  · obtain ⟨x, hx, hc⟩ := key "hostname".toList "TEXT".toList (by simp [adminCols]) _ h5
    cases hx; exact hc
  · intro k e hk he
    exact h.some k e (by rw [h6 k hk]; exact he)
  · intro x hx hk he
    exact h.none x hx (by rw [h6 x.1 hk]; exact he)

/-- Adding columns keeps what is known about a row. -/
theorem rowIs_extends {t t' : Table R} (hx : Extends t t') (hg' : GoodHeader t')
    (ha : ∀ c ∈ adminCols, c ∈ t.header) {k : Nat} {i : Nat} {pl : Planned R} {r r' : Row R}
    (hr' : t'.rows[i]? = some r') (hr : t.rows[i]? = some r) (h : RowIs conv t.header k pl r) :
    RowIs conv t'.header k pl r' := by
  obtain ⟨r0, g1, g2, g3⟩ := hx.old i r' hr'
  rw [hr] at g1
  cases g1
  have adm : ∀ c ∈ adminCols, r'.cell (fold c.1) = r.cell (fold c.1) := fun c hc => g2 c (ha c hc)
  refine ⟨?_, ?_, ?_, ?_, ?_, ?_, ?_⟩
  · exact (adm ("idx".toList, "INTEGER".toList) (by simp [adminCols])).trans h.idx
  · exact (adm ("revision".toList, "INTEGER".toList) (by simp [adminCols])).trans h.revision
  · exact (adm ("study_name".toList, "TEXT".toList) (by simp [adminCols])).trans h.study
  · exact (adm ("calc_name".toList, "TEXT".toList) (by simp [adminCols])).trans h.calcName
  · exact (adm ("hostname".toList, "TEXT".toList) (by simp [adminCols])).trans h.hostname
  · intro key e hk he
    obtain ⟨ty, v, a, b, c⟩ := h.param key e hk he
    exact ⟨ty, v, hx.sub _ a, b, (g2 (key, ty) a).trans c⟩
  · intro x hxm hk he
    by_cases hm : x ∈ t.header
    · rw [g2 x hm]; exact h.other x hm hk he
    · exact g3 x hxm hm

/-- What is true between calls. -/
structure RowsGood (conv : Text → SqlVal R → SqlVal R) (T : Text) (rows : List (Planned R)) (t : Table R) :
    Prop where
  good : GoodHeader t
  admin : ∀ c ∈ adminCols, c ∈ t.header
  len : t.rows.length = rows.length
  row : ∀ (k : Nat) r pl, t.rows[k]? = some r → rows[k]? = some pl → RowIs conv t.header k pl r

theorem mem_pyUnique (l : List (Text × Text)) (x : Text × Text) : x ∈ pyUnique l ↔ x ∈ l := by
  induction l with
  | nil => simp [pyUnique]
  | cons a as ih =>
    have : pyUnique (a :: as) = if a ∈ pyUnique as then pyUnique as else a :: pyUnique as := rfl
    rw [this]
    split
    · rename_i h
      rw [ih, List.mem_cons]
      constructor
      · exact Or.inr
      · rintro (rfl | h')
        · exact ih.1 h
        · exact h'
    · rw [List.mem_cons, List.mem_cons, ih]

/-- The administrative columns are in the header of every record. -/
theorem admin_raw (s : Study R) (rev idx : Nat) (p : List (Tree (Entry R))) :
    ∀ c ∈ adminCols, c ∈ (dbRecord s rev idx p).map (fun e => (e.1, upper e.2.sqltype)) := by
  have mem_of_lookup : ∀ (d : List (Text × Entry R)) k e, d.lookup k = some e → (k, e) ∈ d := by
    intro d
    induction d with
    | nil => intro k e h; simp at h
    | cons x xs ih =>
      intro k e h
      obtain ⟨a, b⟩ := x
      by_cases hk : k = a
      · subst hk; simp at h; subst h; simp
      · have : (k == a) = false := by simpa using hk
        simp only [List.lookup, this] at h
        exact List.mem_cons_of_mem _ (ih k e h)
  have main : ∀ k e, (dbRecord s rev idx p).lookup k = some e →
      (k, upper e.sqltype) ∈ (dbRecord s rev idx p).map (fun e => (e.1, upper e.2.sqltype)) := by
    intro k e h
    exact List.mem_map.2 ⟨(k, e), mem_of_lookup _ k e h, rfl⟩
  have look : ∀ k, k ≠ "hostname".toList → ∀ e, lastWith (extraParams s rev idx) k = some e →
      (dbRecord s rev idx p).lookup k = some e := by
    intro k hk e he
    rw [dbRecord, dictSet_lookup, if_neg hk, sqlRecord_lookup, allParams, lastWith_append, he]; rfl
  intro c hc
  simp only [adminCols, List.mem_cons, List.not_mem_nil, or_false] at hc
  rcases hc with rfl | rfl | rfl | rfl | rfl
  · exact main "revision".toList (natEntry "revision".toList rev) (look _ (by decide) _ rfl)
  · exact main "study_name".toList (strEntry "study_name".toList s.studyName) (look _ (by decide) _ rfl)
  · exact main "idx".toList (natEntry "idx".toList idx) (look _ (by decide) _ rfl)
  · exact main "calc_name".toList (strEntry "calc_name".toList (s.studyName ++ "_run".toList ++ strNat idx))
      (look _ (by decide) _ rfl)
  · exact main "hostname".toList
      (strEntry "hostname".toList (joinSep [','] (s.machines.map Machine.hostname)))
      (by rw [dbRecord, dictSet_lookup, if_pos rfl])

theorem dbRecords_mem (s : Study R) (rev next : Nat) (rec : List (Text × Entry R))
    (h : rec ∈ dbRecords s rev next s.params) :
    ∃ k p, s.params[k]? = some p ∧ rec = dbRecord s rev (next + k) p := by
  obtain ⟨k, hk⟩ := List.mem_iff_getElem?.1 h
  rw [dbRecords_get] at hk
  cases hp : s.params[k]? with
  | none => rw [hp] at hk; simp at hk
  | some p => rw [hp] at hk; simp at hk; exact ⟨k, p, hp, hk.symm⟩

theorem dbRecord_nodup (s : Study R) (rev idx : Nat) (p : List (Tree (Entry R))) :
    ((dbRecord s rev idx p).map Prod.fst).Nodup :=
  dictSet_nodup _ _ _ (dictUpdate_nodup _ _ (by simp))

theorem fixSqltype_fst (l : List (Text × Text)) : (fixSqlHeader l).map Prod.fst = l.map Prod.fst := by
  simp [fixSqlHeader]

/-- The effects behind the inserts. -/
theorem run_tail (b : Bool) (rev : Nat) (w w' : World R)
    (h : runEffs conv w ((if b then [Eff.exclPush rev] else []) ++ [Eff.commit]) = (w', none)) :
    w'.cur = w.cur ∧ w'.saved = some w.cur ∧ w'.host = w.host ∧ (b = false → w'.excl = w.excl) ∧
    (b = true → ∃ t, w.cur "calc".toList = some t ∧
      w'.excl = some (joinSep ['\n'] ((t.rows.filter
          (fun r => revLt rev (r.cell (fold "revision".toList)))).map
          (fun r => cellText (r.cell (fold "idx".toList)))))) := by
  cases b with
  | false =>
    simp [runEffs, step] at h
    subst h
    exact ⟨rfl, rfl, rfl, fun _ => rfl, fun h => (by cases h)⟩
  | true =>
    simp only [if_true, List.cons_append, List.nil_append, runEffs, step] at h
    cases hc : w.cur "calc".toList with
    | none => rw [hc] at h; simp at h
    | some t =>
      rw [hc] at h
      simp only at h
      split at h
      · rename_i w1 h1
        split at h1
        · simp only [Except.ok.injEq] at h1
          simp only [Prod.mk.injEq, and_true] at h
          subst h h1
          exact ⟨rfl, rfl, rfl, fun h => (by cases h), fun _ => ⟨t, rfl, rfl⟩⟩
        · cases h1
      · simp at h

/-- The inserts, for any table that has all the columns. -/
theorem insert_good (s : Study R) (T : Text) (rows : List (Planned R)) (rev : Nat) (w w' : World R) (t : Table R)
    (hc : w.cur T = some t) (hgood : RowsGood conv T rows t)
    (hcols : ∀ rec ∈ dbRecords s rev rows.length s.params, ∀ e ∈ rec, e.1 ∈ t.header.map Prod.fst)
    (h : runEffs conv w ((dbRecords s rev rows.length s.params).map
      (fun rec => Eff.insert T (rec.map Prod.fst) (rec.map (fun e => e.2.sqlval)))) = (w', none)) :
    (∃ t', w'.cur T = some t' ∧ RowsGood conv T (rows ++ s.params.map (fun p => ⟨rev, s, p⟩)) t' ∧
      ∃ new, t'.rows = t.rows ++ new) ∧
      w'.host = w.host ∧ w'.excl = w.excl ∧ w'.saved = w.saved := by
  obtain ⟨t', new, h1, h2, h3, h4, h5, h6, h7, h8⟩ := run_insert conv T _ w w' t hc hgood.good
    (fun rec hr => ⟨by obtain ⟨k, p, _, rfl⟩ := dbRecords_mem s rev _ rec hr; exact dbRecord_nodup _ _ _ _,
      hcols rec hr⟩) h
  refine ⟨⟨t', h1, ⟨?_, ?_, ?_, ?_⟩, new, h3⟩, h6, h7, h8⟩
  · unfold GoodHeader; rw [h2]; exact hgood.good
  · rw [h2]; exact hgood.admin
  · rw [h3, List.length_append, List.length_append, h4, hgood.len, dbRecords_length, List.length_map]
  · intro k r pl hr hpl
    rw [h2]
    rw [h3] at hr
    by_cases hk : k < rows.length
    · rw [List.getElem?_append_left (by rw [hgood.len]; exact hk)] at hr
      rw [List.getElem?_append_left hk] at hpl
      exact hgood.row k r pl hr hpl
    · have hk' : rows.length ≤ k := by omega
      rw [List.getElem?_append_right (by rw [hgood.len]; exact hk')] at hr
      rw [List.getElem?_append_right hk'] at hpl
      rw [hgood.len] at hr
      rw [List.getElem?_map] at hpl
      cases hp : s.params[k - rows.length]? with
      | none => rw [hp] at hpl; simp at hpl
      | some p =>
        rw [hp] at hpl
        simp only [Option.map_some, Option.some.injEq] at hpl
        subst hpl
        have := h5 (k - rows.length) (dbRecord s rev k p) r (by
          rw [dbRecords_get, hp, Option.map_some]
          congr 2; omega) hr
        exact rowOf_rowIs conv hgood.good hgood.admin s rev k p r this

theorem maxInt_range (f : Nat → Int) : ∀ (l : List (SqlVal R)),
    (∀ (k : Nat) v, l[k]? = some v → v = .int (f k)) → (∀ i j, i ≤ j → j < l.length → f i ≤ f j) →
    maxInt l = if l.length = 0 then none else some (f (l.length - 1))
  | [], _, _ => rfl
  | v :: vs, h, hm => by
    have hv := h 0 v rfl
    subst hv
    have ih := maxInt_range (fun k => f (k + 1)) vs (fun k v hk => h (k + 1) v (by simpa using hk))
      (fun i j hij hj => hm (i + 1) (j + 1) (by omega) (by simpa using hj))
    rw [maxInt, ih]
    by_cases hl : vs.length = 0
    · simp [hl]
    · have : f 0 ≤ f (vs.length) := hm 0 vs.length (by omega) (by simp)
      simp only [hl, if_false, List.length_cons, Nat.succ_ne_zero, Nat.add_sub_cancel]
      rw [show vs.length - 1 + 1 = vs.length by omega]
      congr 1
      split <;> omega

/-- The parts of a successful call. -/
theorem call_parts (s : Study R) (o : Opts) (w w' : World R) (h : writeInput conv s o w = (w', none)) :
    ((w.saved = none ∨ o.w = true) ∧ ∃ w0 w1, w0.cur = (fun _ => none) ∧ w0.host = w.host ∧
      w0.excl = w.excl ∧
      runEffs conv w0 (s.machines.flatMap (machineEffs s o 0 0)) = (w1, none) ∧
      runEffs conv w1 (dbEffs s o true 0 (if s.machines.isEmpty then [] else dbRecords s 0 0 s.params))
        = (w', none)) ∨
    (o.w = false ∧ ∃ tabs next rev w0 w1, w.saved = some tabs ∧ numbering (tabs s.table) = .ok (next, rev) ∧
      w0.cur = tabs ∧ w0.host = w.host ∧ w0.excl = w.excl ∧
      runEffs conv w0 (s.machines.flatMap (machineEffs s o rev next)) = (w1, none) ∧
      runEffs conv w1 (dbEffs s o false rev (if s.machines.isEmpty then [] else dbRecords s rev next s.params))
        = (w', none)) := by
  unfold writeInput plan at h
  cases hs : w.saved with
  | none =>
    rw [hs] at h
    left
    refine ⟨Or.inl rfl, ?_⟩
    simp only [runEffs, step, mainEffs, World.start, hs, Option.getD_none] at h
    rw [runEffs_append_ok] at h
    obtain ⟨w1, h1, h2⟩ := h
    refine ⟨_, w1, ?_, ?_, ?_, h1, h2⟩ <;> rfl
  | some tabs =>
    rw [hs] at h
    simp only at h
    rw [runEffs_append_ok] at h
    obtain ⟨wb, hb, h⟩ := h
    have hwb : wb.saved = some tabs ∧ wb.cur = tabs ∧ wb.host = w.host ∧ wb.excl = w.excl := by
      by_cases hbk : o.backup = true
      · simp only [hbk, if_true, runEffs, step, Prod.mk.injEq, and_true] at hb
        subst hb
        simp [World.start, hs]
      · simp only [hbk, Bool.false_eq_true, if_false, runEffs, Prod.mk.injEq, and_true] at hb
        subst hb
        simp [World.start, hs]
    obtain ⟨b1, b2, b3, b4⟩ := hwb
    by_cases hw : o.w = true
    · left
      refine ⟨Or.inr hw, ?_⟩
      simp only [hw, if_true, List.cons_append, List.nil_append, runEffs, step, mainEffs,
        Option.getD_none] at h
      rw [runEffs_append_ok] at h
      obtain ⟨w1, h1, h2⟩ := h
      refine ⟨_, w1, ?_, ?_, ?_, h1, h2⟩ <;> first | rfl | exact b3 | exact b4
    · right
      have hw' : o.w = false := by simpa using hw
      refine ⟨hw', ?_⟩
      cases hn : numbering (tabs s.table) with
      | error e =>
        rw [hn] at h
        simp [hw', runEffs, step] at h
      | ok nr =>
        obtain ⟨next, rev⟩ := nr
        rw [hn] at h
        simp only [hw', Bool.false_eq_true, if_false, runEffs, step, mainEffs, b1, Option.getD_some] at h
        rw [runEffs_append_ok] at h
        obtain ⟨w1, h1, h2⟩ := h
        refine ⟨tabs, next, rev, _, w1, rfl, hn, ?_, ?_, ?_, h1, h2⟩ <;> first | rfl | exact b3 | exact b4

/-- Revisions in a list of expected rows never decrease. -/
def Mono (rows : List (Planned R)) : Prop := rows.Pairwise (fun a b => a.rev ≤ b.rev)

theorem mono_le_last {rows : List (Planned R)} (h : Mono rows) {k : Nat} {a : Planned R}
    (ha : rows[k]? = some a) : a.rev < nextRev rows := by
  unfold nextRev
  cases hl : rows.getLast? with
  | none =>
    rw [List.getLast?_eq_none_iff] at hl
    subst hl
    simp at ha
  | some b =>
    rw [List.getLast?_eq_getElem?] at hl
    simp only
    have hk : k < rows.length := (List.getElem?_eq_some_iff.1 ha).1
    rcases Nat.lt_or_ge k (rows.length - 1) with hlt | hge
    · obtain ⟨h1, e1⟩ := List.getElem?_eq_some_iff.1 ha
      obtain ⟨h2, e2⟩ := List.getElem?_eq_some_iff.1 hl
      have := (List.pairwise_iff_getElem.1 h) k (rows.length - 1) h1 h2 hlt
      rw [e1, e2] at this
      omega
    · have : k = rows.length - 1 := by omega
      rw [this, hl] at ha
      cases ha
      omega

theorem mono_planned {rows : List (Planned R)} (h : Mono rows) (c : Call R) : Mono (planned rows c) := by
  unfold planned
  split
  · unfold Mono; rw [List.pairwise_map]; exact List.pairwise_of_forall (fun _ _ => le_refl _)
  · unfold Mono
    rw [List.pairwise_append]
    refine ⟨h, by rw [List.pairwise_map]; exact List.pairwise_of_forall (fun _ _ => le_refl _), ?_⟩
    intro a ha b hb
    obtain ⟨k, hk⟩ := List.mem_iff_getElem?.1 ha
    simp only [List.mem_map] at hb
    obtain ⟨p, _, rfl⟩ := hb
    exact le_of_lt (mono_le_last h hk)

theorem mono_plannedAll (calls : List (Call R)) : Mono (plannedAll calls) := by
  have : ∀ (calls : List (Call R)) rows, Mono rows → Mono (calls.foldl planned rows) := by
    intro calls
    induction calls with
    | nil => intro rows h; exact h
    | cons c cs ih => intro rows h; exact ih _ (mono_planned h c)
  exact this calls [] (by simp [Mono])

/-- The numbering of append mode. -/
theorem numbering_good {T : Text} {rows : List (Planned R)} {t : Table R} (hg : RowsGood conv T rows t)
    (hm : Mono rows) (hne : rows ≠ []) : numbering (some t) = .ok (rows.length, nextRev rows) := by
  have hlen : rows.length ≠ 0 := by simpa using hne
  have hcol : ∀ c ∈ adminCols, hasColumn t c.1 = true := fun c hc =>
    (hasColumn_iff t c.1).2 (List.mem_map_of_mem (hg.admin c hc))
  have h1 := hcol ("idx".toList, "INTEGER".toList) (by simp [adminCols])
  have h2 := hcol ("revision".toList, "INTEGER".toList) (by simp [adminCols])
  have rowAt : ∀ (k : Nat) r, t.rows[k]? = some r → ∃ pl, rows[k]? = some pl ∧ RowIs conv t.header k pl r := by
    intro k r hr
    have hk : k < rows.length := by rw [← hg.len]; exact (List.getElem?_eq_some_iff.1 hr).1
    exact ⟨rows[k], List.getElem?_eq_getElem hk, hg.row k r _ hr (List.getElem?_eq_getElem hk)⟩
  have m1 : maxInt (t.rows.map (fun r => r.cell (fold "idx".toList))) = some ((rows.length - 1 : Nat) : Int) := by
    rw [maxInt_range (fun k => (k : Int))]
    · simp only [List.length_map, hg.len, hlen, if_false]
    · intro k v hv
      rw [List.getElem?_map] at hv
      cases hr : t.rows[k]? with
      | none => rw [hr] at hv; simp at hv
      | some r =>
        rw [hr] at hv
        simp only [Option.map_some, Option.some.injEq] at hv
        obtain ⟨pl, _, h⟩ := rowAt k r hr
        rw [← hv]; exact h.idx
    · intro i j hij _; omega
  have m2 : maxInt (t.rows.map (fun r => r.cell (fold "revision".toList)))
      = some ((nextRev rows - 1 : Nat) : Int) := by
    rw [maxInt_range (fun k => (((rows[k]?).map Planned.rev).getD 0 : Int))]
    · simp only [List.length_map, hg.len, hlen, if_false]
      unfold nextRev
      rw [List.getLast?_eq_getElem?]
      rw [List.getElem?_eq_getElem (by omega)]
      simp
    · intro k v hv
      rw [List.getElem?_map] at hv
      cases hr : t.rows[k]? with
      | none => rw [hr] at hv; simp at hv
      | some r =>
        rw [hr] at hv
        simp only [Option.map_some, Option.some.injEq] at hv
        obtain ⟨pl, hpl, h⟩ := rowAt k r hr
        rw [← hv, hpl]; exact h.revision
    · intro i j hij hj
      rw [List.length_map, hg.len] at hj
      rw [List.getElem?_eq_getElem (by omega), List.getElem?_eq_getElem hj]
      simp only [Option.map_some, Option.getD_some]
      rcases Nat.lt_or_ge i j with h | h
      · have := (List.pairwise_iff_getElem.1 hm) i j (by omega) hj h
        omega
      · have : i = j := by omega
        subst this
        exact le_refl _
  have hr : 1 ≤ nextRev rows := by
    have : rows[0]? = some rows[0] := List.getElem?_eq_getElem (by omega)
    have := mono_le_last hm this
    omega
  simp only [numbering, h1, h2, if_true, m1, m2]
  rw [if_pos (by omega)]
  congr 2
  · simp; omega
  · simp; omega

/-- The state of the database between calls. -/
def DbGood (T : Text) (rows : List (Planned R)) (w : World R) : Prop :=
  ∃ tabs t, w.saved = some tabs ∧ tabs T = some t ∧ RowsGood conv T rows t ∧ rows ≠ []

/-- What `excl_push` holds after a call that wrote it. -/
def exclText (t : Table R) (rev : Nat) : Text :=
  joinSep ['\n'] ((t.rows.filter (fun r => revLt rev (r.cell (fold "revision".toList)))).map
    (fun r => cellText (r.cell (fold "idx".toList))))

theorem db_new (s : Study R) (o : Opts) (hM : s.machines ≠ []) (w w' : World R)
    (hcur : w.cur = fun _ => none)
    (h : runEffs conv w (dbEffs s o true 0 (if s.machines.isEmpty then [] else dbRecords s 0 0 s.params))
      = (w', none)) :
    DbGood conv s.table (s.params.map (fun p => ⟨0, s, p⟩)) w' ∧ w'.host = w.host ∧ w'.excl = w.excl := by
  have hM' : s.machines.isEmpty = false := by simpa using hM
  simp only [hM', Bool.false_eq_true, if_false, dbEffs, if_true] at h
  rw [if_neg (by simp : ¬ (o.excl = true ∧ 0 < 0))] at h
  simp only [if_false, List.append_nil, List.append_assoc, List.cons_append, List.nil_append, runEffs, step,
    hcur] at h
  cases hcr : (createTable (pyUnique (rawHeader (dbRecords s 0 0 s.params))) : Except SqlErr (Table R)) with
  | error e => rw [hcr] at h; simp at h
  | ok t =>
    rw [hcr] at h
    simp only at h
    rw [runEffs_append_ok] at h
    obtain ⟨w2, h1, h2⟩ := h
    unfold createTable at hcr
    split at hcr
    · cases hcr
    · rename_i hcond
      simp only [not_or, not_not] at hcond
      obtain ⟨hne, hnd⟩ := hcond
      simp only [Except.ok.injEq] at hcr
      have hraw : ∀ x ∈ rawHeader (dbRecords s 0 0 s.params), x ∈ pyUnique (rawHeader (dbRecords s 0 0 s.params)) :=
        fun x hx => (mem_pyUnique _ x).2 hx
      have hps : s.params ≠ [] := by
        intro e
        apply hne
        rw [e]; rfl
      obtain ⟨p0, hp0⟩ : ∃ p, s.params[0]? = some p := by
        cases hps' : s.params with
        | nil => exact absurd hps' hps
        | cons p ps => exact ⟨p, rfl⟩
      have hmem0 : dbRecord s 0 0 p0 ∈ dbRecords s 0 0 s.params := by
        apply List.mem_of_getElem? (i := 0)
        rw [dbRecords_get, hp0]; rfl
      have hg0 : RowsGood conv s.table [] t := by
        subst hcr
        refine ⟨?_, ?_, rfl, by simp⟩
        · unfold GoodHeader
          simp only [fixSqlHeader, List.map_map]
          exact hnd
        · intro c hc
          have := hraw c (List.mem_flatMap.2 ⟨_, hmem0, admin_raw s 0 0 p0 c hc⟩)
          simp only [fixSqlHeader, List.mem_map]
          refine ⟨c, this, ?_⟩
          simp only [adminCols, List.mem_cons, List.not_mem_nil, or_false] at hc
          rcases hc with rfl | rfl | rfl | rfl | rfl <;> rfl
      obtain ⟨⟨t', g1, g2, _⟩, g3, g4, g5⟩ := insert_good conv s s.table [] 0 _ w2 t (by simp [setAt]) hg0 (by
        intro rec hrec e he
        subst hcr
        simp only [fixSqltype_fst]
        have := hraw (e.1, upper e.2.sqltype) (List.mem_flatMap.2 ⟨rec, hrec, List.mem_map.2 ⟨e, he, rfl⟩⟩)
        exact List.mem_map.2 ⟨_, this, rfl⟩) h1
      simp only [runEffs, step, Prod.mk.injEq, and_true] at h2
      subst h2
      exact ⟨⟨w2.cur, t', rfl, g1, g2, by simpa using hps⟩, g3, g4⟩

theorem db_append (s : Study R) (o : Opts) (hM : s.machines ≠ []) (rows : List (Planned R)) (rev : Nat)
    (w w' : World R) (t : Table R) (hcur : w.cur s.table = some t) (hg : RowsGood conv s.table rows t)
    (hne : rows ≠ [])
    (h : runEffs conv w (dbEffs s o false rev
      (if s.machines.isEmpty then [] else dbRecords s rev rows.length s.params)) = (w', none)) :
    DbGood conv s.table (rows ++ s.params.map (fun p => ⟨rev, s, p⟩)) w' ∧ w'.host = w.host ∧
    (o.excl = false → w'.excl = w.excl) ∧
    (o.excl = true → 0 < rev → s.table = "calc".toList →
      ∃ t', RowsGood conv s.table (rows ++ s.params.map (fun p => ⟨rev, s, p⟩)) t' ∧
        w'.excl = some (exclText t' rev)) := by
  have hM' : s.machines.isEmpty = false := by simpa using hM
  simp only [hM', Bool.false_eq_true, if_false, dbEffs, List.append_assoc] at h
  rw [runEffs_append_ok] at h
  obtain ⟨w1, h1, h⟩ := h
  rw [runEffs_append_ok] at h
  obtain ⟨w2, h2, h3⟩ := h
  obtain ⟨t1, a1, a2, a3, a4, a5⟩ := run_ensure conv s.table _ w w1 t hcur h1
  have hg1 : RowsGood conv s.table rows t1 := by
    refine ⟨a2.good hg.good, fun c hc => a2.sub c (hg.admin c hc), a2.len.trans hg.len, ?_⟩
    intro k r' pl hr' hpl
    obtain ⟨r, hr, _, _⟩ := a2.old k r' hr'
    exact rowIs_extends conv a2 (a2.good hg.good) hg.admin hr' hr (hg.row k r pl hr hpl)
  obtain ⟨⟨t', g1, g2, _⟩, g3, g4, g5⟩ := insert_good conv s s.table rows rev w1 w2 t1 a1 hg1 (by
    intro rec hrec e he
    exact a3 (e.1, upper e.2.sqltype) (List.mem_flatMap.2 ⟨rec, hrec, List.mem_map.2 ⟨e, he, rfl⟩⟩)) h2
  have h3' := run_tail conv (decide (o.excl = true ∧ 0 < rev)) rev w2 w' (by
    simpa using h3)
  obtain ⟨b1, b2, b3, b4, b5⟩ := h3'
  refine ⟨⟨w2.cur, t', b2, g1, g2, by simp [hne]⟩, b3.trans (g3.trans a4), ?_, ?_⟩
  · intro ho
    rw [b4 (by simp [ho]), g4, a5]
  · intro ho hr hT
    obtain ⟨t2, c1, c2⟩ := b5 (by simp [ho, hr])
    rw [hT] at g1
    rw [g1] at c1
    cases c1
    exact ⟨t', g2, c2⟩

/-- One more successful call. -/
theorem call_good (T : Text) (rows : List (Planned R)) (hm : Mono rows) (c : Call R)
    (hT : c.study.table = T) (hM : c.study.machines ≠ []) (w w' : World R)
    (hw : (w.saved = none ∧ rows = []) ∨ DbGood conv T rows w)
    (h : writeInput conv c.study c.opts w = (w', none)) :
    DbGood conv T (planned rows c) w' := by
  subst hT
  rcases call_parts conv c.study c.opts w w' h with ⟨hc, w0, w1, h1, h2, h3, h4, h5⟩ | ⟨hc, tabs, next, rev, w0, w1, h1, h2, h3, h4, h5, h6, h7⟩
  · have hp : planned rows c = c.study.params.map (fun p => ⟨0, c.study, p⟩) := by
      unfold planned
      by_cases ho : c.opts.w = true
      · rw [if_pos ho]
      · rw [if_neg ho]
        rcases hw with ⟨_, rfl⟩ | ⟨tabs, t, hs, _⟩
        · rfl
        · rcases hc with hc | hc
          · rw [hs] at hc; cases hc
          · exact absurd hc ho
    have hd := run_dir conv _ w0 (machineEffs_dir c.study c.opts 0 0)
    rw [h4] at hd
    rw [hp]
    exact (db_new conv c.study c.opts hM w1 w' (hd.2.1.trans h1) h5).1
  · rcases hw with ⟨hw, _⟩ | ⟨tabs', t, hs, ht, hg, hne⟩
    · rw [h1] at hw; cases hw
    · rw [h1] at hs
      cases hs
      rw [ht, numbering_good conv hg hm hne] at h2
      cases h2
      have hd := run_dir conv _ w0 (machineEffs_dir c.study c.opts (nextRev rows) rows.length)
      rw [h6] at hd
      have hp : planned rows c = rows ++ c.study.params.map (fun p => ⟨nextRev rows, c.study, p⟩) := by
        unfold planned; rw [if_neg (by simp [hc])]
      rw [hp]
      exact (db_append conv c.study c.opts hM rows (nextRev rows) w1 w' t
        (by rw [hd.2.1, h3]; exact ht) hg hne h7).1

theorem plannedAll_snoc (calls : List (Call R)) (c : Call R) :
    plannedAll (calls ++ [c]) = planned (plannedAll calls) c := by
  simp [plannedAll]

theorem history_good (T : Text) (calls : List (Call R)) (w : World R) (h : History conv calls w)
    (hT : ∀ c ∈ calls, c.study.table = T) (hM : ∀ c ∈ calls, c.study.machines ≠ []) :
    (w.saved = none ∧ calls = []) ∨ DbGood conv T (plannedAll calls) w := by
  induction h with
  | start w hw => exact Or.inl ⟨hw, rfl⟩
  | call calls w c w' h1 h2 ih =>
    right
    rw [plannedAll_snoc]
    refine call_good conv T _ (mono_plannedAll calls) c (hT c (by simp)) (hM c (by simp)) w w' ?_ h2
    rcases ih (fun c hc => hT c (by simp [hc])) (fun c hc => hM c (by simp [hc])) with ⟨a, b⟩ | h
    · exact Or.inl ⟨a, by rw [b]; rfl⟩
    · exact Or.inr h

/-- C15: after any history of calls that returned, the committed table has exactly one row per
expected row (`Spec.plannedAll`), in that order, with `idx` equal to the position, the expected
revision, names and parameter values. Expected rows: mode 'w' starts anew at revision 0, mode 'a'
appends with one revision more than the last. -/
theorem C15_history (T : Text) (calls : List (Call R)) (w : World R) (h : History conv calls w)
    (hT : ∀ c ∈ calls, c.study.table = T) (hM : ∀ c ∈ calls, c.study.machines ≠ []) (hne : calls ≠ []) :
    ∃ tabs t, w.saved = some tabs ∧ tabs T = some t ∧ t.rows.length = (plannedAll calls).length ∧
      ∀ (k : Nat) r pl, t.rows[k]? = some r → (plannedAll calls)[k]? = some pl →
        RowIs conv t.header k pl r := by
  rcases history_good conv T calls w h hT hM with ⟨_, e⟩ | ⟨tabs, t, h1, h2, h3, _⟩
  · exact absurd e hne
  · exact ⟨tabs, t, h1, h2, h3.len, h3.row⟩

/-- C15: the idx column is 0, 1, ..., n-1 in order. -/
theorem C15_idx (T : Text) (calls : List (Call R)) (w : World R) (h : History conv calls w)
    (hT : ∀ c ∈ calls, c.study.table = T) (hM : ∀ c ∈ calls, c.study.machines ≠ [])
    (tabs : Text → Option (Table R)) (t : Table R) (hs : w.saved = some tabs) (ht : tabs T = some t) :
    t.rows.map (fun r => r.cell "idx".toList)
      = (List.range (plannedAll calls).length).map (fun k : Nat => SqlVal.int (k : Int)) := by
  rcases history_good conv T calls w h hT hM with ⟨e, _⟩ | ⟨tabs', t', h1, h2, h3, _⟩
  · rw [hs] at e; cases e
  · rw [hs] at h1; cases h1
    rw [ht] at h2; cases h2
    apply List.ext_getElem
    · simp [h3.len]
    · intro i a b
      simp only [List.length_map, h3.len] at a
      have hr := List.getElem?_eq_getElem (l := t.rows) (i := i) (by rw [h3.len]; exact a)
      simp only [List.getElem_map, List.getElem_range]
      exact (h3.row i _ _ hr (List.getElem?_eq_getElem a)).idx

end Pwtools
