import Verif.Props.Study
/-!
# C16, C17, C18
-/
namespace Pwtools
open Spec
variable {R : Type} (conv : Text → SqlVal R → SqlVal R)

/-! ## C18 -/

theorem strInt_nat (n : Nat) : strInt (n : Int) = strNat n := rfl

theorem exclText_good {T : Text} {rows new : List (Planned R)} {t : Table R} (rev : Nat)
    (hg : RowsGood conv T (rows ++ new) t) (h1 : ∀ pl ∈ rows, pl.rev < rev) (h2 : ∀ pl ∈ new, ¬ pl.rev < rev) :
    exclText t rev = joinSep ['\n'] ((List.range rows.length).map strNat) := by
  have hsplit : t.rows = t.rows.take rows.length ++ t.rows.drop rows.length := by simp
  have rowAt : ∀ (k : Nat) r, t.rows[k]? = some r →
      ∃ pl, (rows ++ new)[k]? = some pl ∧ RowIs conv t.header k pl r := by
    intro k r hr
    have hk : k < (rows ++ new).length := by rw [← hg.len]; exact (List.getElem?_eq_some_iff.1 hr).1
    exact ⟨_, List.getElem?_eq_getElem hk, hg.row k r _ hr (List.getElem?_eq_getElem hk)⟩
  have f1 : (t.rows.take rows.length).filter (fun r => revLt rev (r.cell (fold "revision".toList)))
      = t.rows.take rows.length := by
    rw [List.filter_eq_self]
    intro r hr
    obtain ⟨k, hk⟩ := List.mem_iff_getElem?.1 hr
    rw [List.getElem?_take] at hk
    split at hk
    · rename_i hlt
      obtain ⟨pl, p1, p2⟩ := rowAt k r hk
      rw [List.getElem?_append_left hlt] at p1
      have := h1 pl (List.mem_of_getElem? p1)
      have e : r.cell (fold "revision".toList) = .int pl.rev := p2.revision
      rw [e]
      simp only [revLt, decide_eq_true_eq]
      omega
    · cases hk
  have f2 : (t.rows.drop rows.length).filter (fun r => revLt rev (r.cell (fold "revision".toList))) = [] := by
    rw [List.filter_eq_nil_iff]
    intro r hr
    obtain ⟨k, hk⟩ := List.mem_iff_getElem?.1 hr
    rw [List.getElem?_drop] at hk
    obtain ⟨pl, p1, p2⟩ := rowAt _ r hk
    rw [List.getElem?_append_right (by omega)] at p1
    have := h2 pl (List.mem_of_getElem? p1)
    have e : r.cell (fold "revision".toList) = .int pl.rev := p2.revision
    rw [e]
    simp only [revLt, decide_eq_true_eq]
    omega
  unfold exclText
  rw [hsplit, List.filter_append, f1, f2, List.append_nil]
  congr 1
  apply List.ext_getElem
  · simp [hg.len]
  · intro i a b
    simp only [List.length_map, List.length_take, hg.len, List.length_append] at a
    have hi : i < t.rows.length := by rw [hg.len, List.length_append]; omega
    obtain ⟨pl, p1, p2⟩ := rowAt i _ (List.getElem?_eq_getElem hi)
    have e : (t.rows[i]).cell (fold "idx".toList) = .int i := p2.idx
    simp only [List.getElem_map, List.getElem_take, List.getElem_range, e, cellText, strInt_nat]

/-- C18: after a successful append with `excl=True` on a database made by any history of calls,
`excl_push` lists exactly the idx of the rows that were there before, one per line, in order; and
these are exactly the rows with a revision older than that of the new rows.

Missing for the full property: the table must be named `calc` (`C18_other_table`), and in mode 'w'
an older `excl_push` stays (`C18_stale`). -/
theorem C18_excl_push_partial (calls : List (Call R)) (w w' : World R) (c : Call R) (h : History conv calls w)
    (hT : ∀ x ∈ calls ++ [c], x.study.table = "calc".toList)
    (hM : ∀ x ∈ calls ++ [c], x.study.machines ≠ []) (hne : calls ≠ [])
    (ho : c.opts.w = false ∧ c.opts.excl = true)
    (hc : writeInput conv c.study c.opts w = (w', none)) :
    w'.excl = some (joinSep ['\n'] ((List.range (plannedAll calls).length).map strNat)) ∧
    ∀ (k : Nat) pl, (plannedAll (calls ++ [c]))[k]? = some pl →
      (k < (plannedAll calls).length ↔ pl.rev < nextRev (plannedAll calls)) := by
  have hg := history_good conv "calc".toList calls w h (fun x hx => hT x (by simp [hx]))
    (fun x hx => hM x (by simp [hx]))
  have hmono := mono_plannedAll calls
  have hTc := hT c (by simp)
  rcases hg with ⟨_, e⟩ | ⟨tabs, t, g1, g2, g3, g4⟩
  · exact absurd e hne
  have hpl : plannedAll (calls ++ [c])
      = plannedAll calls ++ c.study.params.map (fun p => ⟨nextRev (plannedAll calls), c.study, p⟩) := by
    rw [plannedAll_snoc, planned, if_neg (by simp [ho.1])]
  refine ⟨?_, ?_⟩
  · rcases call_parts conv c.study c.opts w w' hc with ⟨hh, _⟩ | ⟨_, tabs', next, rev, w0, w1, h1, h2, h3, h4, h5, h6, h7⟩
    · rcases hh with hh | hh
      · rw [g1] at hh; cases hh
      · rw [ho.1] at hh; cases hh
    · rw [g1] at h1
      cases h1
      rw [← hTc] at g2 g3
      rw [g2, numbering_good conv g3 hmono g4] at h2
      cases h2
      have hd := run_dir conv _ w0 (machineEffs_dir c.study c.opts (nextRev (plannedAll calls)) (plannedAll calls).length)
      rw [h6] at hd
      have hpos : 0 < nextRev (plannedAll calls) := by
        obtain ⟨k, hk⟩ := List.exists_mem_of_ne_nil _ g4
        obtain ⟨i, hi⟩ := List.mem_iff_getElem?.1 hk
        have := mono_le_last hmono hi
        omega
      obtain ⟨_, _, _, h8⟩ := db_append conv c.study c.opts (hM c (by simp)) _ (nextRev (plannedAll calls)) w1 w' t
        (by rw [hd.2.1, h3]; exact g2) g3 g4 h7
      obtain ⟨t', k1, k2⟩ := h8 ho.2 hpos hTc
      rw [k2, exclText_good conv _ k1]
      · intro pl hm
        obtain ⟨i, hi⟩ := List.mem_iff_getElem?.1 hm
        exact mono_le_last hmono hi
      · intro pl hm
        obtain ⟨p, _, rfl⟩ := List.mem_map.1 hm
        simp
  · intro k pl hk
    rw [hpl] at hk
    constructor
    · intro hlt
      rw [List.getElem?_append_left hlt] at hk
      exact mono_le_last hmono hk
    · intro hlt
      by_contra hge
      rw [List.getElem?_append_right (by omega)] at hk
      obtain ⟨p, _, e⟩ := List.mem_map.1 (List.mem_of_getElem? hk)
      rw [← e] at hlt
      simp at hlt

/-! ## Directories -/

theorem calcOf_setCalc (w : World R) (h : Text) (i : Nat) (c : Option Files) (h' : Text) (i' : Nat) :
    World.calcOf { w with host := setCalc w.host h i c } h' i' = if h' = h ∧ i' = i then c else w.calcOf h' i' := by
  unfold World.calcOf setCalc setAt
  by_cases hh : h' = h
  · subst hh
    simp only [if_true, Option.bind_some, true_and]
    split
    · rfl
    · cases w.host h' <;> rfl
  · simp [hh]

/-- Steps on directories, seen through `calcOf`. -/
theorem step_calcOf {w w' : World R} {e : Eff R} (h : step conv w e = .ok w') (h' : Text) (i' : Nat)
    (hn : (∀ i, e = .rmCalc h' i → i' ≠ i) ∧ (∀ i, e = .mkCalc h' i → i' ≠ i) ∧
      (∀ i n t, e = .writeFile h' i n t → i' ≠ i) ∧ e ≠ .purgeDir h') :
    w'.calcOf h' i' = w.calcOf h' i' := by
  cases e <;> simp only [step] at h
  case backupDb => cases h; rfl
  case removeDb => cases h; rfl
  case openDb => cases h; rfl
  case backupDir hn' => cases hh : w.host hn' <;> rw [hh] at h <;> cases h <;> rfl
  case purgeDir g =>
    cases h
    have : h' ≠ g := fun e => hn.2.2.2 (by rw [e])
    simp [World.calcOf, setAt, this]
  case rmCalc g i =>
    cases hh : w.calcOf g i <;> rw [hh] at h <;> cases h
    · rfl
    · rw [calcOf_setCalc, if_neg]
      rintro ⟨rfl, rfl⟩
      exact hn.1 _ rfl rfl
  case mkCalc g i =>
    cases hh : w.calcOf g i <;> rw [hh] at h <;> cases h
    · rw [calcOf_setCalc, if_neg]
      rintro ⟨rfl, rfl⟩
      exact hn.2.1 _ rfl rfl
    · rfl
  case writeFile g i n t =>
    cases hh : w.calcOf g i <;> rw [hh] at h <;> cases h
    rw [calcOf_setCalc, if_neg]
    rintro ⟨rfl, rfl⟩
    exact hn.2.2.1 _ _ _ rfl rfl
  case runSh g l =>
    cases hh : w.host g <;> rw [hh] at h <;> cases h
    unfold World.calcOf setAt
    by_cases he : h' = g
    · subst he; simp [hh]
    · simp [he]
  case createTable a b =>
    cases hh : w.cur a <;> rw [hh] at h <;> simp only at h
    · split at h <;> cases h
      rfl
    · cases h
  case ensureCol a b c =>
    cases hh : w.cur a <;> rw [hh] at h <;> simp only at h
    · cases h
    · split at h <;> cases h
      rfl
  case insert a b c =>
    cases hh : w.cur a <;> rw [hh] at h <;> simp only at h
    · cases h
    · split at h
      · cases h
      · split at h <;> cases h
        rfl
  case exclPush r =>
    cases hh : w.cur "calc".toList <;> rw [hh] at h <;> simp only at h
    · cases h
    · split at h <;> cases h
      rfl
  case commit => cases h; rfl
  case fail => cases h

theorem maxInt_some : ∀ (l : List (SqlVal R)) (i : Int), SqlVal.int i ∈ l → ∃ m, maxInt l = some m ∧ i ≤ m
  | [], i, h => by simp at h
  | v :: vs, i, hm => by
    rcases List.mem_cons.1 hm with hv | hv
    · subst hv
      rw [maxInt]
      cases maxInt vs with
      | none => exact ⟨i, rfl, le_refl _⟩
      | some j =>
        refine ⟨_, rfl, ?_⟩
        split <;> omega
    · obtain ⟨m, h1, h2⟩ := maxInt_some vs i hv
      cases v with
      | int a =>
        rw [maxInt, h1]
        refine ⟨_, rfl, ?_⟩
        split <;> omega
      | null => exact ⟨m, h1, h2⟩
      | real _ => exact ⟨m, h1, h2⟩
      | text _ => exact ⟨m, h1, h2⟩
      | blob _ => exact ⟨m, h1, h2⟩

theorem maxInt_ge (l : List (SqlVal R)) (m i : Int) (h : maxInt l = some m) (hm : SqlVal.int i ∈ l) : i ≤ m := by
  obtain ⟨m', h1, h2⟩ := maxInt_some l i hm
  rw [h] at h1
  cases h1
  exact h2

/-- The first new idx is above all idx in the table. -/
theorem numbering_gt {t : Table R} {next rev : Nat} (h : numbering (some t) = .ok (next, rev))
    (r : Row R) (hr : r ∈ t.rows) (i : Nat) (hi : r.cell "idx".toList = .int i) : i < next := by
  unfold numbering at h
  simp only at h
  split at h
  · cases hm : maxInt (t.rows.map (fun r => r.cell (fold "idx".toList))) with
    | none => rw [hm] at h; cases h
    | some m =>
      rw [hm] at h
      have := maxInt_ge _ m i hm (List.mem_map.2 ⟨r, hr, hi⟩)
      simp only at h
      split at h
      · split at h
        · cases h
        · split at h
          · simp only [Except.ok.injEq, Prod.mk.injEq] at h
            omega
          · cases h
      · split at h
        · simp only [Except.ok.injEq, Prod.mk.injEq] at h
          omega
        · cases h
  · cases h

/-- The effects of a call of mode 'a' on an existing database. -/
theorem plan_append_mem (s : Study R) (o : Opts) (ho : o.w = false) (w : World R)
    (tabs : Text → Option (Table R)) (hs : w.saved = some tabs) (e : Eff R) (he : e ∈ plan s o w) :
    e = .backupDb ∨ e = .openDb ∨ (∃ b, e = .fail b) ∨
    ∃ next rev, numbering (tabs s.table) = .ok (next, rev) ∧
      (e ∈ s.machines.flatMap (machineEffs s o rev next) ∨
       e ∈ dbEffs s o false rev (if s.machines.isEmpty then [] else dbRecords s rev next s.params)) := by
  unfold plan at he
  rw [hs] at he
  simp only [ho, Bool.false_eq_true, if_false, List.mem_append, List.mem_cons] at he
  rcases he with he | he | he
  · split at he
    · simp at he; exact Or.inl he
    · simp at he
  · exact Or.inr (Or.inl he)
  · cases hn : numbering (tabs s.table) with
    | error er => rw [hn] at he; simp at he; exact Or.inr (Or.inr (Or.inl ⟨_, he⟩))
    | ok nr =>
      obtain ⟨next, rev⟩ := nr
      rw [hn] at he
      simp only [mainEffs, List.mem_append] at he
      exact Or.inr (Or.inr (Or.inr ⟨next, rev, rfl, he⟩))

theorem dbEffs_mem (s : Study R) (o : Opts) (b : Bool) (rev : Nat) (recs : List (List (Text × Entry R)))
    (e : Eff R) (he : e ∈ dbEffs s o b rev recs) :
    (b = true ∧ ∃ x, e = .createTable s.table x) ∨ (∃ x y, e = .ensureCol s.table x y) ∨ (∃ x y, e = .insert s.table x y) ∨
    (∃ r, e = .exclPush r) ∨ e = .commit := by
  simp only [dbEffs, List.mem_append, List.mem_singleton] at he
  rcases he with ((he | he) | he) | he
  · split at he
    · rename_i hb; simp at he; exact Or.inl ⟨hb, _, he⟩
    · obtain ⟨x, _, rfl⟩ := List.mem_map.1 he; exact Or.inr (Or.inl ⟨_, _, rfl⟩)
  · obtain ⟨x, _, rfl⟩ := List.mem_map.1 he; exact Or.inr (Or.inr (Or.inl ⟨_, _, rfl⟩))
  · split at he
    · simp at he; exact Or.inr (Or.inr (Or.inr (Or.inl ⟨_, he⟩)))
    · simp at he
  · exact Or.inr (Or.inr (Or.inr (Or.inr he)))

/-- C16: a call of mode 'a' on an existing database, whether it returns, raises or is killed after
any number `k` of steps, changes only directories with numbers from the first new idx on, one
number per parameter set, on its own machines; with no numbering it changes none. -/
theorem C16_touches_only_new (s : Study R) (o : Opts) (ho : o.w = false) (w : World R)
    (tabs : Text → Option (Table R)) (hs : w.saved = some tabs) (k : Nat) (h : Text) (i : Nat)
    (hi : ∀ next rev, numbering (tabs s.table) = .ok (next, rev) →
      i < next ∨ next + s.params.length ≤ i ∨ h ∉ s.machines.map Machine.hostname) :
    (killedAfter conv s o w k).calcOf h i = w.calcOf h i := by
  unfold killedAfter
  have h0 : w.start.calcOf h i = w.calcOf h i := rfl
  refine runEffs_inv conv (fun x => x.calcOf h i = w.calcOf h i) _ w.start h0 ?_
  intro e he w1 w2 hP hstep
  rw [← hP]
  refine step_calcOf conv hstep h i ?_
  rcases plan_append_mem s o ho w tabs hs e (List.mem_of_mem_take he) with rfl | rfl | ⟨b, rfl⟩ | ⟨next, rev, hn, he | he⟩
  · simp
  · simp
  · simp
  · obtain ⟨m, hm, h'⟩ := machineEffs_mem s o rev next e he
    have hi' := hi next rev hn
    have hcon : ∀ j, next ≤ j → j < next + s.params.length → h = m.hostname → i ≠ j := by
      rintro j h1 h2 rfl rfl
      rcases hi' with x | x | x
      · omega
      · omega
      · exact x (List.mem_map_of_mem hm)
    rcases h' with rfl | ⟨hw, _⟩ | ⟨_, rfl⟩ | ⟨_, rfl⟩ | ⟨j, j1, j2, ⟨hw, _⟩ | rfl | ⟨_, _, rfl⟩⟩
    · simp
    · rw [ho] at hw; cases hw
    · simp
    · simp
    · rw [ho] at hw; cases hw
    · refine ⟨by simp, ?_, by simp, by simp⟩
      intro j' hj'
      simp only [Eff.mkCalc.injEq] at hj'
      obtain ⟨e1, rfl⟩ := hj'
      exact hcon j j1 j2 e1.symm
    · refine ⟨by simp, by simp, ?_, by simp⟩
      intro j' n t hj'
      simp only [Eff.writeFile.injEq] at hj'
      obtain ⟨e1, rfl, _⟩ := hj'
      exact hcon j j1 j2 e1.symm
  · rcases dbEffs_mem s o false rev _ e he with ⟨_, _, rfl⟩ | ⟨_, _, rfl⟩ | ⟨_, _, rfl⟩ | ⟨_, rfl⟩ | rfl <;> simp

/-- C16: directories of rows that are in the database keep their content, on all machines, in any
call of mode 'a', finished or killed at any point. -/
theorem C16_old_untouched (s : Study R) (o : Opts) (ho : o.w = false) (w : World R)
    (tabs : Text → Option (Table R)) (hs : w.saved = some tabs) (t : Table R) (ht : tabs s.table = some t)
    (r : Row R) (hr : r ∈ t.rows) (i : Nat) (hi : r.cell "idx".toList = .int i) (k : Nat) (h : Text) :
    (killedAfter conv s o w k).calcOf h i = w.calcOf h i ∧
    (writeInput conv s o w).1.calcOf h i = w.calcOf h i := by
  have key : ∀ k, (killedAfter conv s o w k).calcOf h i = w.calcOf h i := by
    intro k
    refine C16_touches_only_new conv s o ho w tabs hs k h i ?_
    intro next rev hn
    rw [ht] at hn
    exact Or.inl (numbering_gt hn r hr i hi)
  refine ⟨key k, ?_⟩
  have := key (plan s o w).length
  rwa [killedAfter, List.take_length] at this

/-! ## What is in the new directories -/

theorem run_templ (h : Text) (i : Nat) (rec : List (Text × Entry R)) : ∀ (ts : List Templ) (w w' : World R)
    (fs : Files), w.calcOf h i = some fs → runEffs conv w (templEffs h i rec ts) = (w', none) →
    (∃ fs', w'.calcOf h i = some fs' ∧ (∀ b, fs'.lookup b = fileAfter rec ts fs b) ∧
      ∀ t ∈ ts, (templText t rec).isSome = true) ∧
    ∀ h' i', ¬ (h' = h ∧ i' = i) → w'.calcOf h' i' = w.calcOf h' i'
  | [], w, w', fs, hc, hr => by
    simp only [templEffs, runEffs, Prod.mk.injEq, and_true] at hr
    subst hr
    exact ⟨⟨fs, hc, fun b => rfl, by simp⟩, fun _ _ _ => rfl⟩
  | t :: ts, w, w', fs, hc, hr => by
    rw [templEffs] at hr
    cases ht : templText t rec with
    | none => rw [ht] at hr; simp [runEffs, step] at hr
    | some txt =>
      rw [ht] at hr
      simp only [runEffs, step, hc] at hr
      have h1 := calcOf_setCalc w h i (some (dictSet fs t.basename txt))
      obtain ⟨⟨fs', a1, a2, a3⟩, a4⟩ := run_templ h i rec ts _ w' (dictSet fs t.basename txt)
        (by rw [h1, if_pos ⟨rfl, rfl⟩]) hr
      refine ⟨⟨fs', a1, ?_, ?_⟩, ?_⟩
      · intro b
        rw [a2, fileAfter, fileAfter, List.filter_cons]
        by_cases hb : t.basename = b
        · simp only [hb, decide_true, if_true]
          rw [List.getLast?_cons]
          cases (List.filter (fun t => decide (t.basename = b)) ts).getLast? with
          | none => simp only [Option.getD_none]; rw [dictSet_lookup, if_pos rfl, ht]
          | some t' => rfl
        · simp only [hb, decide_false, Bool.false_eq_true, if_false]
          cases (List.filter (fun t => decide (t.basename = b)) ts).getLast? with
          | none => simp only; rw [dictSet_lookup, if_neg (fun e => hb e.symm)]
          | some t' => rfl
      · intro x hx
        rcases List.mem_cons.1 hx with rfl | hx
        · rw [ht]; rfl
        · exact a3 x hx
      · intro h' i' hn
        rw [a4 h' i' hn, h1, if_neg hn]

/-- The files a calculation directory starts with. -/
def baseFiles (o : Opts) (w : World R) (h : Text) (i : Nat) : Files :=
  if o.w then [] else (w.calcOf h i).getD []

theorem run_calc (s : Study R) (o : Opts) (m : Machine) (rev i : Nat) (p : List (Tree (Entry R)))
    (w w' : World R) (hr : runEffs conv w (calcEffs s o m rev i p) = (w', none)) :
    (∃ fs', w'.calcOf m.hostname i = some fs' ∧ (∀ b, fs'.lookup b =
      fileAfter (writeRecord m (allParams s rev i p)) (s.templates ++ m.template.toList)
        (baseFiles o w m.hostname i) b) ∧
      (∀ t ∈ s.templates ++ m.template.toList,
        (templText t (writeRecord m (allParams s rev i p))).isSome = true) ∧ m.template.isSome = true) ∧
    ∀ h' i', ¬ (h' = m.hostname ∧ i' = i) → w'.calcOf h' i' = w.calcOf h' i' := by
  unfold calcEffs at hr
  rw [runEffs_append_ok] at hr
  obtain ⟨w3, hr, hj⟩ := hr
  rw [runEffs_append_ok] at hr
  obtain ⟨w2, hr, ht⟩ := hr
  rw [runEffs_append_ok] at hr
  obtain ⟨w1, hrm, hmk⟩ := hr
  have hmt : m.template.isSome = true ∧ w' = w3 := by
    by_cases hm : m.template.isNone = true
    · rw [if_pos hm] at hj; simp [runEffs, step] at hj
    · rw [if_neg hm] at hj
      simp only [runEffs, Prod.mk.injEq, and_true] at hj
      refine ⟨?_, hj.symm⟩
      cases hx : m.template with
      | none => exact absurd (by rw [hx]; rfl) hm
      | some _ => rfl
  obtain ⟨hmt, rfl⟩ := hmt
  -- removing the directory
  have h1 : (∀ h' i', ¬ (h' = m.hostname ∧ i' = i) → w1.calcOf h' i' = w.calcOf h' i') ∧
      w1.calcOf m.hostname i = if o.w = true then none else w.calcOf m.hostname i := by
    by_cases ho : o.w = true
    · rw [if_pos ho] at hrm
      simp only [runEffs, step] at hrm
      cases hh : w.calcOf m.hostname i with
      | none =>
        rw [hh] at hrm
        simp only [Prod.mk.injEq, and_true] at hrm
        subst hrm
        exact ⟨fun _ _ _ => rfl, by rw [hh]; simp⟩
      | some fs =>
        rw [hh] at hrm
        simp only [Prod.mk.injEq, and_true] at hrm
        subst hrm
        exact ⟨fun h' i' hn => by rw [calcOf_setCalc, if_neg hn],
          by rw [calcOf_setCalc, if_pos ⟨rfl, rfl⟩, if_pos ho]⟩
    · rw [if_neg ho] at hrm
      simp only [runEffs, Prod.mk.injEq, and_true] at hrm
      subst hrm
      exact ⟨fun _ _ _ => rfl, by rw [if_neg ho]⟩
  have h2 : (∀ h' i', ¬ (h' = m.hostname ∧ i' = i) → w2.calcOf h' i' = w1.calcOf h' i') ∧
      w2.calcOf m.hostname i = some (baseFiles o w m.hostname i) := by
    simp only [runEffs, step] at hmk
    cases hh : w1.calcOf m.hostname i with
    | none =>
      rw [hh] at hmk
      simp only [Prod.mk.injEq, and_true] at hmk
      subst hmk
      refine ⟨fun h' i' hn => by rw [calcOf_setCalc, if_neg hn], ?_⟩
      rw [calcOf_setCalc, if_pos ⟨rfl, rfl⟩]
      rw [h1.2] at hh
      unfold baseFiles
      split at hh
      · rename_i ho; rw [if_pos ho]
      · rename_i ho; rw [if_neg ho, hh]; rfl
    | some fs =>
      rw [hh] at hmk
      simp only [Prod.mk.injEq, and_true] at hmk
      subst hmk
      refine ⟨fun _ _ _ => rfl, ?_⟩
      rw [hh]
      rw [h1.2] at hh
      unfold baseFiles
      split at hh
      · cases hh
      · rename_i ho; rw [if_neg ho, hh]; rfl
  obtain ⟨⟨fs', a1, a2, a3⟩, a4⟩ := run_templ conv _ _ _ _ w2 w' _ h2.2 ht
  refine ⟨⟨fs', a1, a2, a3, hmt⟩, ?_⟩
  intro h' i' hn
  rw [a4 h' i' hn, h2.1 h' i' hn, h1.1 h' i' hn]

/-- The directory of machine `m` with number `i` holds the files of parameter set `p`. -/
def DirOf (s : Study R) (o : Opts) (w : World R) (m : Machine) (rev i : Nat) (p : List (Tree (Entry R)))
    (w' : World R) : Prop :=
  ∃ fs', w'.calcOf m.hostname i = some fs' ∧ (∀ b, fs'.lookup b =
      fileAfter (writeRecord m (allParams s rev i p)) (s.templates ++ m.template.toList)
        (baseFiles o w m.hostname i) b) ∧
      (∀ t ∈ s.templates ++ m.template.toList,
        (templText t (writeRecord m (allParams s rev i p))).isSome = true) ∧ m.template.isSome = true

theorem DirOf.congr {s : Study R} {o : Opts} {w1 w1' w2 w2' : World R} {m : Machine} {rev i : Nat}
    {p : List (Tree (Entry R))} (h : DirOf s o w1 m rev i p w1')
    (e : o.w = true ∨ w2.calcOf m.hostname i = w1.calcOf m.hostname i)
    (e' : w2'.calcOf m.hostname i = w1'.calcOf m.hostname i) : DirOf s o w2 m rev i p w2' := by
  obtain ⟨fs, a, b, c⟩ := h
  refine ⟨fs, by rw [e', a], ?_, c⟩
  have : baseFiles o w2 m.hostname i = baseFiles o w1 m.hostname i := by
    unfold baseFiles
    rcases e with e | e
    · simp [e]
    · rw [e]
  rw [this]
  exact b

theorem run_param (s : Study R) (o : Opts) (m : Machine) (rev : Nat) :
    ∀ (ps : List (List (Tree (Entry R)))) (idx : Nat) (w w' : World R),
    runEffs conv w (paramEffs s o m rev idx ps) = (w', none) →
    (∀ (k : Nat) p, ps[k]? = some p → DirOf s o w m rev (idx + k) p w') ∧
    ∀ h' i', (h' ≠ m.hostname ∨ i' < idx ∨ idx + ps.length ≤ i') → w'.calcOf h' i' = w.calcOf h' i'
  | [], idx, w, w', h => by
    simp only [paramEffs, runEffs, Prod.mk.injEq, and_true] at h
    subst h
    exact ⟨by simp, fun _ _ _ => rfl⟩
  | p :: ps, idx, w, w', h => by
    rw [paramEffs, runEffs_append_ok] at h
    obtain ⟨w1, h1, h2⟩ := h
    obtain ⟨a1, a2⟩ := run_calc conv s o m rev idx p w w1 h1
    obtain ⟨b1, b2⟩ := run_param s o m rev ps (idx + 1) w1 w' h2
    refine ⟨?_, ?_⟩
    · intro k q hk
      cases k with
      | zero =>
        simp at hk
        subst hk
        exact DirOf.congr (w1 := w) (w1' := w1) a1 (Or.inr rfl) (b2 _ _ (Or.inr (Or.inl (by omega))))
      | succ k =>
        have := b1 k q (by simpa using hk)
        rw [show idx + 1 + k = idx + (k + 1) by omega] at this
        exact DirOf.congr this (Or.inr (a2 _ _ (by omega)).symm) rfl
    · intro h' i' hn
      simp only [List.length_cons] at hn
      rw [b2 h' i' (hn.imp id (fun h => by omega)), a2 h' i' (by
        rintro ⟨rfl, rfl⟩
        rcases hn with hn | hn | hn
        · exact hn rfl
        · omega
        · omega)]

theorem run_machine (s : Study R) (o : Opts) (rev next : Nat) (m : Machine) (w w' : World R)
    (h : runEffs conv w (machineEffs s o rev next m) = (w', none)) :
    (∀ (k : Nat) p, s.params[k]? = some p → DirOf s o w m rev (next + k) p w') ∧
    (∀ h' i', h' ≠ m.hostname → w'.calcOf h' i' = w.calcOf h' i') ∧
    (∀ i', i' < next ∨ next + s.params.length ≤ i' →
      w'.calcOf m.hostname i' = if o.w = true then none else w.calcOf m.hostname i') ∧
    (w'.host m.hostname).bind HostDir.run = some (List.range' next s.params.length) ∧
    (∀ h', h' ≠ m.hostname → w'.host h' = w.host h') := by
  have hh : ∀ e ∈ machineEffs s o rev next m, ∀ w1 w2 h', h' ≠ m.hostname → step conv w1 e = .ok w2 →
      w2.host h' = w1.host h' := by
    intro e he w1 w2 h' hne hs
    have he' : e ∈ ([m] : List Machine).flatMap (machineEffs s o rev next) := by simpa using he
    obtain ⟨m', hm', hcase⟩ := machineEffs_mem ⟨[m], s.templates, s.params, s.studyName, s.table⟩ o rev next e (by
      have : machineEffs (⟨[m], s.templates, s.params, s.studyName, s.table⟩ : Study R) o rev next m
          = machineEffs s o rev next m := by
        have hpe : ∀ ps idx, paramEffs (⟨[m], s.templates, s.params, s.studyName, s.table⟩ : Study R) o m rev idx ps
            = paramEffs s o m rev idx ps := by
          intro ps
          induction ps with
          | nil => intro idx; rfl
          | cons p ps ih => intro idx; simp only [paramEffs, ih]; rfl
        simp only [machineEffs, hpe]
      simp only [List.flatMap_cons, List.flatMap_nil, List.append_nil, this]
      exact he)
    simp only [List.mem_singleton] at hm'
    subst hm'
    have hset : ∀ (x : Option HostDir), setAt w1.host m'.hostname x h' = w1.host h' := by
      intro x; simp [setAt, hne]
    have hset' : ∀ i c, setCalc w1.host m'.hostname i c h' = w1.host h' := by
      intro i c; simp [setCalc, setAt, hne]
    rcases hcase with rfl | ⟨_, rfl⟩ | ⟨l, rfl⟩ | ⟨_, rfl⟩ | ⟨j, _, _, ⟨_, rfl⟩ | rfl | ⟨_, _, rfl⟩⟩ <;> simp only [step] at hs
    · cases hx : w1.host m'.hostname <;> rw [hx] at hs <;> cases hs <;> rfl
    · cases hs; exact hset _
    · cases hx : w1.host m'.hostname <;> rw [hx] at hs <;> cases hs
      exact hset _
    · cases hs
    · cases hx : w1.calcOf m'.hostname j <;> rw [hx] at hs <;> cases hs
      · rfl
      · exact hset' _ _
    · cases hx : w1.calcOf m'.hostname j <;> rw [hx] at hs <;> cases hs
      · exact hset' _ _
      · rfl
    · cases hx : w1.calcOf m'.hostname j <;> rw [hx] at hs <;> cases hs
      exact hset' _ _
  have hother : ∀ h', h' ≠ m.hostname → w'.host h' = w.host h' := by
    intro h' hne
    have := runEffs_inv conv (fun x => x.host h' = w.host h') (machineEffs s o rev next m) w rfl
      (fun e he w1 w2 hP hs => by rw [hh e he w1 w2 h' hne hs]; exact hP)
    rw [h] at this
    exact this
  unfold machineEffs at h
  rw [runEffs_append_ok] at h
  obtain ⟨w3, h, hrun⟩ := h
  rw [runEffs_append_ok] at h
  obtain ⟨w2, h, hpar⟩ := h
  rw [runEffs_append_ok] at h
  obtain ⟨w1, hb, hp⟩ := h
  have hb' : ∀ h' i', w1.calcOf h' i' = w.calcOf h' i' := by
    intro h' i'
    by_cases hbk : o.backup = true
    · simp only [hbk, if_true, runEffs, step] at hb
      cases hh : w.host m.hostname <;> rw [hh] at hb <;> simp at hb <;> subst hb <;> rfl
    · rw [if_neg hbk] at hb
      simp only [runEffs, Prod.mk.injEq, and_true] at hb
      subst hb
      rfl
  have hp' : (∀ h' i', h' ≠ m.hostname → w2.calcOf h' i' = w1.calcOf h' i') ∧
      ∀ i', w2.calcOf m.hostname i' = if o.w = true then none else w1.calcOf m.hostname i' := by
    by_cases ho : o.w = true
    · simp only [ho, if_true, runEffs, step, Prod.mk.injEq, and_true] at hp
      subst hp
      exact ⟨fun h' i' hn => by simp [World.calcOf, setAt, hn], fun i' => by simp [World.calcOf, setAt, ho]⟩
    · rw [if_neg ho] at hp
      simp only [runEffs, Prod.mk.injEq, and_true] at hp
      subst hp
      exact ⟨fun _ _ _ => rfl, fun _ => by simp [ho]⟩
  obtain ⟨c1, c2⟩ := run_param conv s o m rev s.params next w2 w3 hpar
  simp only [runEffs, step] at hrun
  cases hh : w3.host m.hostname with
  | none => rw [hh] at hrun; simp at hrun
  | some hd =>
    rw [hh] at hrun
    simp only [Prod.mk.injEq, and_true] at hrun
    have hr' : ∀ h' i', w'.calcOf h' i' = w3.calcOf h' i' := by
      intro h' i'
      subst hrun
      unfold World.calcOf setAt
      by_cases he : h' = m.hostname
      · subst he; simp [hh]
      · simp [he]
    refine ⟨?_, ?_, ?_, ?_, hother⟩
    · intro k p hk
      refine DirOf.congr (c1 k p hk) ?_ (hr' _ _)
      by_cases ho : o.w = true
      · exact Or.inl ho
      · right
        rw [hp'.2, if_neg ho, hb']
    · intro h' i' hn
      rw [hr', c2 h' i' (Or.inl hn), hp'.1 h' i' hn, hb']
    · intro i' hi
      rw [hr', c2 _ i' (Or.inr hi), hp'.2, hb']
    · subst hrun
      simp [setAt]

theorem run_machines (s : Study R) (o : Opts) (rev next : Nat) : ∀ (ms : List Machine) (w w' : World R),
    (ms.map Machine.hostname).Nodup →
    runEffs conv w (ms.flatMap (machineEffs s o rev next)) = (w', none) →
    (∀ m ∈ ms, ∀ (k : Nat) p, s.params[k]? = some p → DirOf s o w m rev (next + k) p w') ∧
    (∀ m ∈ ms, ∀ i', i' < next ∨ next + s.params.length ≤ i' →
      w'.calcOf m.hostname i' = if o.w = true then none else w.calcOf m.hostname i') ∧
    (∀ m ∈ ms, (w'.host m.hostname).bind HostDir.run = some (List.range' next s.params.length)) ∧
    (∀ h', h' ∉ ms.map Machine.hostname → w'.host h' = w.host h')
  | [], w, w', _, h => by
    simp only [List.flatMap_nil, runEffs, Prod.mk.injEq, and_true] at h
    subst h
    simp
  | m :: ms, w, w', hn, h => by
    rw [List.flatMap_cons, runEffs_append_ok] at h
    obtain ⟨w1, h1, h2⟩ := h
    rw [List.map_cons, List.nodup_cons] at hn
    obtain ⟨a1, a2, a3, a4, a5⟩ := run_machine conv s o rev next m w w1 h1
    obtain ⟨b1, b2, b3, b4⟩ := run_machines s o rev next ms w1 w' hn.2 h2
    have hm : w'.host m.hostname = w1.host m.hostname := b4 _ hn.1
    have hm' : ∀ i, w'.calcOf m.hostname i = w1.calcOf m.hostname i := by
      intro i; unfold World.calcOf; rw [hm]
    have hne : ∀ x ∈ ms, x.hostname ≠ m.hostname := fun x hx e => hn.1 (by rw [← e]; exact List.mem_map_of_mem hx)
    refine ⟨?_, ?_, ?_, ?_⟩
    · intro x hx k p hk
      rcases List.mem_cons.1 hx with rfl | hx
      · exact DirOf.congr (a1 k p hk) (Or.inr rfl) (hm' _)
      · exact DirOf.congr (b1 x hx k p hk) (Or.inr (a2 _ _ (hne x hx)).symm) rfl
    · intro x hx i' hi
      rcases List.mem_cons.1 hx with rfl | hx
      · rw [hm', a3 i' hi]
      · rw [b2 x hx i' hi, a2 _ _ (hne x hx)]
    · intro x hx
      rcases List.mem_cons.1 hx with rfl | hx
      · rw [hm, a4]
      · exact b3 x hx
    · intro h' hh
      simp only [List.map_cons, List.mem_cons, not_or] at hh
      rw [b4 h' hh.2, a5 h' hh.1]

theorem calcOf_congr {w w' : World R} (h : w'.host = w.host) (g : Text) (i : Nat) :
    w'.calcOf g i = w.calcOf g i := by
  unfold World.calcOf; rw [h]

theorem run_db_host (s : Study R) (o : Opts) (b : Bool) (rev : Nat) (recs : List (List (Text × Entry R)))
    (w w' : World R) (h : runEffs conv w (dbEffs s o b rev recs) = (w', none)) : w'.host = w.host := by
  have := runEffs_inv conv (fun x => x.host = w.host) (dbEffs s o b rev recs) w rfl ?_
  · rw [h] at this; exact this
  · intro e he w1 w2 hP hs
    rw [← hP]
    rcases dbEffs_mem s o b rev _ e he with ⟨_, _, rfl⟩ | ⟨_, _, rfl⟩ | ⟨_, _, rfl⟩ | ⟨_, rfl⟩ | rfl <;> simp only [step] at hs
    · split at hs
      · cases hs
      · split at hs <;> cases hs
        rfl
    · split at hs
      · cases hs
      · split at hs <;> cases hs
        rfl
    · split at hs
      · cases hs
      · split at hs
        · cases hs
        · split at hs <;> cases hs
          rfl
    · split at hs
      · cases hs
      · split at hs <;> cases hs
        rfl
    · cases hs; rfl

/-- C16: a successful append to a database made by any history of calls (`n` rows), with distinct
host names: on every machine the directory `n + k` holds the files made from the `k`-th parameter
set (on top of what was in a directory of that number before), `run.sh` starts exactly the
numbers `n, n+1, ...`, one per new row, and every other directory of every host is unchanged. -/
theorem C16_append (T : Text) (calls : List (Call R)) (w w' : World R) (c : Call R) (h : History conv calls w)
    (hT : ∀ x ∈ calls ++ [c], x.study.table = T) (hM : ∀ x ∈ calls ++ [c], x.study.machines ≠ [])
    (hne : calls ≠ []) (hn : (c.study.machines.map Machine.hostname).Nodup) (ho : c.opts.w = false)
    (hc : writeInput conv c.study c.opts w = (w', none)) :
    (∀ m ∈ c.study.machines, ∀ (k : Nat) p, c.study.params[k]? = some p →
      ∃ fs, w'.calcOf m.hostname ((plannedAll calls).length + k) = some fs ∧
        ∀ b, fs.lookup b = fileAfter
          (writeRecord m (allParams c.study (nextRev (plannedAll calls)) ((plannedAll calls).length + k) p))
          (c.study.templates ++ m.template.toList)
          ((w.calcOf m.hostname ((plannedAll calls).length + k)).getD []) b) ∧
    (∀ m ∈ c.study.machines, (w'.host m.hostname).bind HostDir.run
      = some (List.range' (plannedAll calls).length c.study.params.length)) ∧
    (plannedAll (calls ++ [c])).length = (plannedAll calls).length + c.study.params.length ∧
    (∀ g i, (g ∉ c.study.machines.map Machine.hostname ∨ i < (plannedAll calls).length ∨
      (plannedAll (calls ++ [c])).length ≤ i) → w'.calcOf g i = w.calcOf g i) := by
  have hlen : (plannedAll (calls ++ [c])).length = (plannedAll calls).length + c.study.params.length := by
    rw [plannedAll_snoc, planned, if_neg (by simp [ho])]; simp
  have hg := history_good conv T calls w h (fun x hx => hT x (by simp [hx]))
    (fun x hx => hM x (by simp [hx]))
  rcases hg with ⟨_, e⟩ | ⟨tabs, t, g1, g2, g3, g4⟩
  · exact absurd e hne
  rcases call_parts conv c.study c.opts w w' hc with ⟨hh, _⟩ | ⟨_, tabs', next, rev, w0, w1, h1, h2, h3, h4, h5, h6, h7⟩
  · rcases hh with hh | hh
    · rw [g1] at hh; cases hh
    · rw [ho] at hh; cases hh
  rw [g1] at h1
  cases h1
  rw [hT c (by simp), g2, numbering_good conv g3 (mono_plannedAll calls) g4] at h2
  cases h2
  have hhost := run_db_host conv _ _ _ _ _ w1 w' h7
  obtain ⟨b1, b2, b3, b4⟩ := run_machines conv c.study c.opts _ _ _ w0 w1 hn h6
  refine ⟨?_, ?_, hlen, ?_⟩
  · intro m hm k p hk
    obtain ⟨fs, f1, f2, _⟩ := b1 m hm k p hk
    refine ⟨fs, by rw [calcOf_congr hhost]; exact f1, ?_⟩
    simp only [baseFiles, ho, Bool.false_eq_true, if_false] at f2
    rw [calcOf_congr h4] at f2
    exact f2
  · intro m hm
    rw [hhost]
    exact b3 m hm
  · intro g i hi
    rw [calcOf_congr hhost]
    by_cases hgm : g ∈ c.study.machines.map Machine.hostname
    · obtain ⟨m, hm, rfl⟩ := List.mem_map.1 hgm
      have := b2 m hm i (by
        rcases hi with hi | hi | hi
        · exact absurd hgm hi
        · exact Or.inl hi
        · rw [hlen] at hi; exact Or.inr hi)
      rw [this, if_neg (by simp [ho]), calcOf_congr h4]
    · unfold World.calcOf
      rw [b4 g hgm, h4]

/-! ## C17 -/

/-- There is a row with number `i`. -/
def HasIdx (T : Text) (i : Nat) (tabs : Text → Option (Table R)) : Prop :=
  ∃ t, tabs T = some t ∧ hasColumn t "idx".toList = true ∧ ∃ r ∈ t.rows, r.cell "idx".toList = .int i

theorem hasIdx_setAt {T T' : Text} {i : Nat} {tabs : Text → Option (Table R)} {t : Table R}
    (h : HasIdx T i tabs) (ht : T' = T → hasColumn t "idx".toList = true ∧ ∃ r ∈ t.rows, r.cell "idx".toList = .int i) :
    HasIdx T i (setAt tabs T' (some t)) := by
  by_cases he : T' = T
  · subst he
    exact ⟨t, by simp [setAt], ht rfl⟩
  · obtain ⟨t0, h1, h2⟩ := h
    exact ⟨t0, by simp [setAt, Ne.symm he, h1], h2⟩

theorem hasIdx_addColumn {t t' : Table R} {c ty : Text} {i : Nat} (h : addColumn t c ty = .ok t')
    (h1 : hasColumn t "idx".toList = true) (h2 : ∃ r ∈ t.rows, r.cell "idx".toList = .int i) :
    hasColumn t' "idx".toList = true ∧ ∃ r ∈ t'.rows, r.cell "idx".toList = .int i := by
  obtain ⟨e, _, _⟩ := addColumn_extends h
  rw [hasColumn_iff] at h1
  obtain ⟨x, hx, hx'⟩ := List.mem_map.1 h1
  refine ⟨(hasColumn_iff _ _).2 (List.mem_map.2 ⟨x, e.sub x hx, hx'⟩), ?_⟩
  obtain ⟨r, hr, hi⟩ := h2
  obtain ⟨k, hk⟩ := List.mem_iff_getElem?.1 hr
  have hk' : k < t'.rows.length := by rw [e.len]; exact (List.getElem?_eq_some_iff.1 hk).1
  obtain ⟨r0, a1, a2, _⟩ := e.old k t'.rows[k] (List.getElem?_eq_getElem hk')
  rw [hk] at a1
  cases a1
  refine ⟨_, List.getElem_mem hk', ?_⟩
  have := a2 x hx
  rw [hx'] at this
  exact this.trans hi

/-- Rows of the database survive a call of mode 'a', killed anywhere. -/
theorem killed_keeps (s : Study R) (o : Opts) (ho : o.w = false) (w : World R) (T : Text) (i : Nat)
    (tabs : Text → Option (Table R)) (hs : w.saved = some tabs) (hi : HasIdx T i tabs) (k : Nat) :
    ∃ tabs', (killedAfter conv s o w k).saved = some tabs' ∧ HasIdx T i tabs' := by
  have := runEffs_inv conv (fun x => (∃ tabs', x.saved = some tabs' ∧ HasIdx T i tabs') ∧ HasIdx T i x.cur)
    ((plan s o w).take k) w.start ⟨⟨tabs, hs, hi⟩, by simp [World.start, hs, hi]⟩ ?_
  · exact this.1
  · intro e he w1 w2 ⟨⟨tb, p1, p2⟩, p3⟩ hst
    have keep : isDirEff e = true → (∃ tabs', w2.saved = some tabs' ∧ HasIdx T i tabs') ∧ HasIdx T i w2.cur := by
      intro hd
      obtain ⟨a, b, _⟩ := step_dir conv hd hst
      rw [a, b]
      exact ⟨⟨tb, p1, p2⟩, p3⟩
    rcases plan_append_mem s o ho w tabs hs e (List.mem_of_mem_take he) with rfl | rfl | ⟨b, rfl⟩ | ⟨next, rev, hn, he | he⟩
    · exact keep rfl
    · simp only [step, p1, Option.getD_some] at hst
      cases hst
      exact ⟨⟨tb, rfl, p2⟩, p2⟩
    · exact keep rfl
    · exact keep (machineEffs_dir s o rev next e he)
    · rcases dbEffs_mem s o false rev _ e he with ⟨h, _⟩ | ⟨c, ty, rfl⟩ | ⟨ns, vs, rfl⟩ | ⟨r, rfl⟩ | rfl
      · cases h
      · simp only [step] at hst
        split at hst
        · cases hst
        · rename_i t ht
          split at hst
          · cases hst
          · rename_i t' ha
            cases hst
            have : HasIdx T i (setAt w1.cur s.table (some t')) := by
              refine hasIdx_setAt p3 ?_
              rintro rfl
              obtain ⟨t0, q1, q2, q3⟩ := p3
              rw [ht] at q1
              cases q1
              exact hasIdx_addColumn ha q2 q3
            exact ⟨⟨_, rfl, this⟩, this⟩
      · simp only [step] at hst
        split at hst
        · cases hst
        · rename_i t ht
          split at hst
          · cases hst
          · split at hst
            · cases hst
            · rename_i t' hins
              cases hst
              refine ⟨⟨tb, p1, p2⟩, hasIdx_setAt p3 ?_⟩
              rintro rfl
              obtain ⟨t0, q1, q2, r, q3, q4⟩ := p3
              rw [ht] at q1
              cases q1
              unfold Table.insert at hins
              split at hins
              · cases hins
                exact ⟨q2, r, List.mem_append_left _ q3, q4⟩
              · cases hins
      · simp only [step] at hst
        split at hst
        · cases hst
        · split at hst <;> cases hst
          exact ⟨⟨tb, p1, p2⟩, p3⟩
      · simp only [step] at hst
        cases hst
        exact ⟨⟨_, rfl, p3⟩, p3⟩

/-- Any number of calls of mode 'a', each killed at some point (or run to its end). -/
inductive Kills (conv : Text → SqlVal R → SqlVal R) (T : Text) : World R → World R → Prop
  | refl (w : World R) : Kills conv T w w
  | step (w w1 : World R) (s : Study R) (o : Opts) (k : Nat) : Kills conv T w w1 → s.table = T → o.w = false →
      Kills conv T w (killedAfter conv s o w1 k)

/-- C17: calculations that are in the committed database are safe from any sequence of later
appends, each killed at an arbitrary point: their directories keep their content and their rows
stay.

Missing for the full property: directories that were written by a killed call have no row yet, and
the next call writes into them, see `C17_shared_directory`. -/
theorem C17_committed_safe_partial (T : Text) (w w' : World R) (hk : Kills conv T w w') (i : Nat)
    (tabs : Text → Option (Table R)) (hs : w.saved = some tabs) (hi : HasIdx T i tabs) :
    (∀ h, w'.calcOf h i = w.calcOf h i) ∧ ∃ tabs', w'.saved = some tabs' ∧ HasIdx T i tabs' := by
  induction hk with
  | refl => exact ⟨fun _ => rfl, tabs, hs, hi⟩
  | step w1 s o k h1 hT ho ih =>
    obtain ⟨a, tabs1, b, c⟩ := ih
    refine ⟨?_, killed_keeps conv s o ho w1 T i tabs1 b c k⟩
    intro h
    obtain ⟨t, c1, _, r, c3, c4⟩ := c
    rw [(C16_old_untouched conv s o ho w1 tabs1 b t (by rw [hT]; exact c1) r c3 i c4 k h).1, a h]

/-! ## Concrete runs -/

/-- A study with one machine, one template (placeholder `P`) and the parameter `x` per value. -/
def exTempl (name : Text) : Templ := ⟨name, "P".toList, some ["x".toList], fun _ => "P".toList⟩
def exMach (h f : Text) : Machine := ⟨h, none, none, none, some (exTempl f)⟩
def exStudy (h f table : Text) (vs : List Text) : Study Nat :=
  ⟨[exMach h f], [], vs.map (fun v => [.leaf (strEntry "x".toList v)]), "s".toList, table⟩
def exWorld : World Nat := ⟨none, fun _ => none, fun _ => none, none, [], []⟩
def exOpts (w : Bool) : Opts := ⟨w, false, true⟩
def exRun (s : Study Nat) (w : Bool) (x : World Nat) : World Nat × Option BErr :=
  writeInput (fun _ v => v) s (exOpts w) x

def exS1 : Study Nat := exStudy "h".toList "f".toList "calc".toList ["1".toList, "2".toList]
def exS2 : Study Nat := exStudy "h".toList "f".toList "calc".toList ["3".toList]
def exS3 : Study Nat := exStudy "h".toList "f".toList "calc".toList ["4".toList]
def exW1 : World Nat := (exRun exS1 false exWorld).1
def exW2 : World Nat := (exRun exS2 false exW1).1

theorem exReplace (a : Char) : pyReplace "P".toList "P".toList [a] = [a] := by
  simp [pyReplace, replaceNE]

theorem exRun_ok (s : Study Nat) (b : Bool) (x : World Nat) (h : (exRun s b x).2 = none) :
    writeInput (fun _ v => v) s (exOpts b) x = ((exRun s b x).1, none) := by
  rw [← h]; rfl

/-- Non-vacuity of C15, C16, C18: a history of two calls. -/
theorem exHistory1 : History (fun _ v => v) [⟨exS1, exOpts false⟩] exW1 :=
  .call [] exWorld ⟨exS1, exOpts false⟩ exW1 (.start _ rfl) (exRun_ok exS1 false exWorld (by decide))

theorem exCall2 : writeInput (fun _ v => v) exS2 (exOpts false) exW1 = (exW2, none) :=
  exRun_ok exS2 false exW1 (by decide)

theorem exHistory2 : History (fun _ v => v) [⟨exS1, exOpts false⟩, ⟨exS2, exOpts false⟩] exW2 :=
  .call _ exW1 ⟨exS2, exOpts false⟩ exW2 exHistory1 exCall2

/-- What C15, C16 and C18 say about it. -/
example : (∃ tabs t, exW2.saved = some tabs ∧ tabs "calc".toList = some t ∧ t.rows.length = 3) ∧
    exW2.excl = some (joinSep ['\n'] ["0".toList, "1".toList]) ∧
    (∃ fs, exW2.calcOf "h".toList 2 = some fs) := by
  have hT : ∀ x ∈ [(⟨exS1, exOpts false⟩ : Call Nat)] ++ [⟨exS2, exOpts false⟩], x.study.table = "calc".toList := by
    intro x hx; simp at hx; rcases hx with rfl | rfl <;> rfl
  have hM : ∀ x ∈ [(⟨exS1, exOpts false⟩ : Call Nat)] ++ [⟨exS2, exOpts false⟩], x.study.machines ≠ [] := by
    intro x hx; simp at hx; rcases hx with rfl | rfl <;> simp [exS1, exS2, exStudy]
  refine ⟨?_, ?_, ?_⟩
  · obtain ⟨tabs, t, h1, h2, h3, _⟩ := C15_history _ "calc".toList _ _ exHistory2 hT hM (by simp)
    exact ⟨tabs, t, h1, h2, h3⟩
  · exact (C18_excl_push_partial _ _ _ _ ⟨exS2, exOpts false⟩ exHistory1 hT hM (by simp) ⟨rfl, rfl⟩ exCall2).1
  · obtain ⟨h, _⟩ := C16_append _ "calc".toList _ _ _ ⟨exS2, exOpts false⟩ exHistory1 hT hM (by simp)
      (by decide) rfl exCall2
    obtain ⟨fs, hf, _⟩ := h (exMach "h".toList "f".toList) (by simp [exS2, exStudy]) 0 _ rfl
    exact ⟨fs, hf⟩

/-- C17, counterexample: a second call is killed after its calculation directory was written, but
before the database rows are committed. The next call gets the same number and overwrites the
directory of a different parameter set. -/
theorem C17_shared_directory :
    ∃ (s2 s3 : Study Nat) (w1 : World Nat) (k : Nat), s2.params ≠ s3.params ∧
      History (fun _ v => v) [⟨exS1, exOpts false⟩] w1 ∧
      (killedAfter (fun _ v => v) s2 (exOpts false) w1 k).calcOf "h".toList 2 = some [("f".toList, "3".toList)] ∧
      (writeInput (fun _ v => v) s3 (exOpts false) (killedAfter (fun _ v => v) s2 (exOpts false) w1 k)).2 = none ∧
      (writeInput (fun _ v => v) s3 (exOpts false)
        (killedAfter (fun _ v => v) s2 (exOpts false) w1 k)).1.calcOf "h".toList 2
        = some [("f".toList, "4".toList)] := by
  refine ⟨exS2, exS3, exW1, 4, ?_, exHistory1, ?_, by decide, ?_⟩
  · simp [exS2, exS3, exStudy, strEntry]
  · exact (rfl : _ = some [("f".toList, pyReplace "P".toList "P".toList ['3'])]).trans (by rw [exReplace]; rfl)
  · exact (rfl : _ = some [("f".toList, pyReplace "P".toList "P".toList ['4'])]).trans (by rw [exReplace]; rfl)

/-- C17: the same with an exception instead of a kill. -/
theorem C17_shared_after_exception :
    (raisedAfter (fun _ v => v) exS2 (exOpts false) exW1 4).calcOf "h".toList 2 = some [("f".toList, "3".toList)] ∧
    (exRun exS3 false (raisedAfter (fun _ v => v) exS2 (exOpts false) exW1 4)).2 = none ∧
    (exRun exS3 false (raisedAfter (fun _ v => v) exS2 (exOpts false) exW1 4)).1.calcOf "h".toList 2
      = some [("f".toList, "4".toList)] := by
  refine ⟨?_, by decide, ?_⟩
  · exact (rfl : _ = some [("f".toList, pyReplace "P".toList "P".toList ['3'])]).trans (by rw [exReplace]; rfl)
  · exact (rfl : _ = some [("f".toList, pyReplace "P".toList "P".toList ['4'])]).trans (by rw [exReplace]; rfl)

/-- Non-vacuity of `C17_committed_safe_partial`. -/
example : HasIdx "calc".toList 1 (exW1.saved.getD (fun _ => none)) ∧
    Kills (fun _ v => v) "calc".toList exW1 (killedAfter (fun _ v => v) exS2 (exOpts false) exW1 4) :=
  ⟨⟨_, rfl, by decide, _, List.mem_cons_of_mem _ (List.mem_cons_self ..), rfl⟩,
    .step _ _ exS2 (exOpts false) 4 (.refl _) rfl rfl⟩

/-- C18, counterexample: mode 'w' starts the numbering anew but leaves an older `excl_push`, which
then lists the number of a new calculation although no row has an older revision. -/
theorem C18_stale :
    (exRun exS1 true exW2).2 = none ∧
    (exRun exS1 true exW2).1.excl = some (joinSep ['\n'] ["0".toList, "1".toList]) ∧
    ∃ tabs t, (exRun exS1 true exW2).1.saved = some tabs ∧ tabs "calc".toList = some t ∧
      t.rows.map (fun r => (r.cell "idx".toList, r.cell "revision".toList))
        = [(.int 0, .int 0), (.int 1, .int 0)] :=
  ⟨by decide, by decide, _, _, rfl, rfl, by decide⟩

/-- C18, counterexample: with another table name the second call raises ("no such table: calc"),
after it has written the calculation directories and before the commit of the new rows. -/
theorem C18_other_table :
    let s (v : Text) := exStudy "h".toList "f".toList "tab".toList [v]
    let w1 := (exRun (s "1".toList) false exWorld).1
    (exRun (s "1".toList) false exWorld).2 = none ∧
    (exRun (s "2".toList) false w1).2 = some .noTable ∧
    ((exRun (s "2".toList) false w1).1.calcOf "h".toList 1).isSome = true ∧
    ∃ tabs t, (exRun (s "2".toList) false w1).1.saved = some tabs ∧ tabs "tab".toList = some t ∧
      t.rows.length = 1 :=
  ⟨by decide, by decide, by decide, _, _, rfl, rfl, by decide⟩

/-- C16, remark: mode 'w' removes only the directories of the machines it is given. An append can
later reuse a number for which another machine still has a directory, and its files are added to
the leftovers. -/
theorem C16_leftover :
    let w1 := (exRun exS1 false exWorld).1
    let w2 := (exRun (exStudy "g".toList "f".toList "calc".toList ["5".toList]) true w1).1
    let w3 := exRun (exStudy "h".toList "k".toList "calc".toList ["6".toList]) false w2
    w3.2 = none ∧ w3.1.calcOf "h".toList 1 = some [("f".toList, "2".toList), ("k".toList, "6".toList)] := by
  refine ⟨by decide, ?_⟩
  exact (rfl : _ = some [("f".toList, pyReplace "P".toList "P".toList ['2']),
    ("k".toList, pyReplace "P".toList "P".toList ['6'])]).trans (by rw [exReplace, exReplace]; rfl)

end Pwtools
