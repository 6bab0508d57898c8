import Verif.Model.Batch
import Verif.Spec.Batch
import Verif.Props.Sql
/-!
# C15 – C19
-/
namespace Pwtools
open Spec
variable {R : Type} (conv : Text → SqlVal R → SqlVal R)

/-! ## Dicts and records (C19) -/

theorem dictSet_keys {V : Type} : ∀ (d : List (Text × V)) (k : Text) (v : V),
    (dictSet d k v).map Prod.fst = if k ∈ d.map Prod.fst then d.map Prod.fst else d.map Prod.fst ++ [k]
  | [], k, v => by simp [dictSet]
  | e :: es, k, v => by
    rw [dictSet]
    by_cases h : e.1 = k
    · simp [h]
    · have h' : ¬ k = e.1 := fun x => h x.symm
      simp only [h, if_false, List.map_cons, dictSet_keys es k v, List.mem_cons, h', false_or]
      split <;> simp

theorem dictSet_nodup {V : Type} (d : List (Text × V)) (k : Text) (v : V) (h : (d.map Prod.fst).Nodup) :
    ((dictSet d k v).map Prod.fst).Nodup := by
  rw [dictSet_keys]
  split
  · exact h
  · rename_i hk
    rw [List.nodup_append]
    exact ⟨h, by simp, by rintro a ha b hb rfl; simp at hb; subst hb; exact hk ha⟩

theorem dictSet_lookup {V : Type} : ∀ (d : List (Text × V)) (k : Text) (v : V) (x : Text),
    (dictSet d k v).lookup x = if x = k then some v else d.lookup x
  | [], k, v, x => by
    by_cases h : x = k
    · simp [dictSet, h]
    · have : (x == k) = false := by simpa using h
      simp [dictSet, List.lookup, this, h]
  | e :: es, k, v, x => by
    obtain ⟨e1, e2⟩ := e
    rw [dictSet]
    by_cases h : e1 = k
    · subst h
      by_cases hx : x = e1
      · simp [hx]
      · have : (x == e1) = false := by simpa using hx
        simp [List.lookup, this, hx]
    · by_cases hx : x = e1
      · subst hx; simp [h]
      · have : (x == e1) = false := by simpa using hx
        simp [h, List.lookup, this, dictSet_lookup es k v x]

theorem dictUpdate_nodup {V : Type} : ∀ (l d : List (Text × V)), (d.map Prod.fst).Nodup →
    ((dictUpdate d l).map Prod.fst).Nodup
  | [], d, h => h
  | e :: es, d, h => dictUpdate_nodup es _ (dictSet_nodup d e.1 e.2 h)

theorem dictUpdate_lookup {V : Type} : ∀ (l d : List (Text × V)) (k : Text),
    (dictUpdate d l).lookup k = (((l.filter (fun e => e.1 = k)).getLast?).map Prod.snd).or (d.lookup k)
  | [], d, k => by simp [dictUpdate]
  | e :: es, d, k => by
    rw [dictUpdate, dictUpdate_lookup es, dictSet_lookup]
    by_cases h : e.1 = k
    · have h' : k = e.1 := h.symm
      simp only [h', if_true, List.filter_cons, decide_true]
      rw [List.getLast?_cons]
      cases List.getLast? (List.filter (fun x : Text × V => decide (x.1 = e.1)) es) <;> simp
    · have h' : ¬ k = e.1 := fun x => h x.symm
      simp [h', h, List.filter_cons]

theorem lookup_isSome_iff {V : Type} (d : List (Text × V)) (k : Text) :
    (d.lookup k).isSome = true ↔ k ∈ d.map Prod.fst := by
  induction d with
  | nil => simp
  | cons e es ih =>
    obtain ⟨a, b⟩ := e
    by_cases h : k = a
    · simp [h]
    · have : (k == a) = false := by simpa using h
      simp [List.lookup, this, h, ih]

theorem sqlRecord_lookup (params : List (Entry R)) (k : Text) :
    (sqlRecord params).lookup k = lastWith params k := by
  rw [sqlRecord, dictUpdate_lookup, lastWith, List.filter_map]
  simp only [List.getLast?_map, Option.map_map]
  have : ((fun e : Text × Entry R => decide (e.1 = k)) ∘ fun e : Entry R => (e.key, e))
      = fun e => decide (e.key = k) := rfl
  rw [this]
  cases (List.filter (fun e : Entry R => decide (e.key = k)) params).getLast? <;> simp

/-- C19: the record of a parameter set has each key once, exactly the keys that occur in the
set, and under each key the last entry with that key. -/
theorem C19_record (params : List (Entry R)) :
    ((sqlRecord params).map Prod.fst).Nodup ∧
    (∀ k, k ∈ (sqlRecord params).map Prod.fst ↔ ∃ e ∈ params, e.key = k) ∧
    (∀ k, (sqlRecord params).lookup k = (params.filter (fun e => e.key = k)).getLast?) := by
  refine ⟨dictUpdate_nodup _ _ (by simp), ?_, sqlRecord_lookup params⟩
  intro k
  rw [← lookup_isSome_iff, sqlRecord_lookup, lastWith, List.getLast?_isSome]
  simp [List.filter_eq_nil_iff]

example : ((sqlRecord ([strEntry "a".toList "1".toList, strEntry "b".toList "2".toList,
    strEntry "a".toList "3".toList] : List (Entry Nat))).map (fun e => (e.1, e.2.sqlval)))
    = [("a".toList, .str "3".toList), ("b".toList, .str "2".toList)] := by decide

/-- The record that goes into the database for the parameter set `p` with number `idx`. -/
def dbRecord (s : Study R) (rev idx : Nat) (p : List (Tree (Entry R))) : List (Text × Entry R) :=
  dictSet (sqlRecord (allParams s rev idx p)) "hostname".toList
    (strEntry "hostname".toList (joinSep [','] (s.machines.map Machine.hostname)))

theorem dbRecords_get (s : Study R) (rev : Nat) : ∀ (ps : List (List (Tree (Entry R)))) (idx k : Nat),
    (dbRecords s rev idx ps)[k]? = (ps[k]?).map (dbRecord s rev (idx + k))
  | [], idx, k => by simp [dbRecords]
  | p :: ps, idx, k => by
    cases k with
    | zero => simp [dbRecords, dbRecord]
    | succ k =>
      simp only [dbRecords, List.getElem?_cons_succ, dbRecords_get s rev ps (idx + 1) k]
      rw [show idx + 1 + k = idx + (k + 1) by omega]

theorem dbRecords_length (s : Study R) (rev : Nat) : ∀ (ps : List (List (Tree (Entry R)))) (idx : Nat),
    (dbRecords s rev idx ps).length = ps.length
  | [], idx => rfl
  | p :: ps, idx => by simp [dbRecords, dbRecords_length s rev ps (idx + 1)]

theorem lastWith_append (a b : List (Entry R)) (k : Text) :
    lastWith (a ++ b) k = (lastWith b k).or (lastWith a k) := by
  simp [lastWith, List.filter_append, List.getLast?_append]

/-- C19: the database record of a calculation: each key once; the administrative columns hold
revision, study name, number, calculation name and the host names, whatever the parameter set
says; every other key holds the last entry with that key; there are no other keys. -/
theorem C19_db_record (s : Study R) (rev next k : Nat) (p : List (Tree (Entry R)))
    (rec : List (Text × Entry R)) (hp : s.params[k]? = some p)
    (hr : (dbRecords s rev next s.params)[k]? = some rec) :
    (rec.map Prod.fst).Nodup ∧
    (rec.lookup "revision".toList).map SQLEntry.sqlval = some (.int rev) ∧
    (rec.lookup "idx".toList).map SQLEntry.sqlval = some (.int ((next + k : Nat) : Int)) ∧
    (rec.lookup "study_name".toList).map SQLEntry.sqlval = some (.str s.studyName) ∧
    (rec.lookup "calc_name".toList).map SQLEntry.sqlval
      = some (.str (s.studyName ++ "_run".toList ++ strNat (next + k))) ∧
    (rec.lookup "hostname".toList).map SQLEntry.sqlval
      = some (.str (joinSep [','] (s.machines.map Machine.hostname))) ∧
    (∀ key, key ∉ adminKeys → rec.lookup key = lastWith (flatten p) key) := by
  rw [dbRecords_get, hp, Option.map_some] at hr
  cases hr
  refine ⟨dictSet_nodup _ _ _ (dictUpdate_nodup _ _ (by simp)), ?_, ?_, ?_, ?_, ?_, ?_⟩
  all_goals try intro key hkey
  all_goals rw [dbRecord, dictSet_lookup]
  · rw [if_neg (by decide), sqlRecord_lookup, allParams, lastWith_append]; rfl
  · rw [if_neg (by decide), sqlRecord_lookup, allParams, lastWith_append]; rfl
  · rw [if_neg (by decide), sqlRecord_lookup, allParams, lastWith_append]; rfl
  · rw [if_neg (by decide), sqlRecord_lookup, allParams, lastWith_append]; rfl
  · rfl
  · simp only [adminKeys, List.mem_cons, List.not_mem_nil, or_false, not_or] at hkey
    rw [if_neg hkey.2.2.2.2, sqlRecord_lookup, allParams, lastWith_append]
    have : lastWith (extraParams s rev (next + k)) key = none := by
      simp only [lastWith, extraParams, natEntry, strEntry]
      rw [List.getLast?_eq_none_iff, List.filter_eq_nil_iff]
      intro e he
      simp only [List.mem_cons, List.not_mem_nil, or_false] at he
      rw [decide_eq_true_eq]
      obtain ⟨k1, k2, k3, k4, _⟩ := hkey
      rcases he with rfl | rfl | rfl | rfl
      · exact fun h => k1 h.symm
      · exact fun h => k2 h.symm
      · exact fun h => k3 h.symm
      · exact fun h => k4 h.symm
    rw [this]; rfl

/-- C19: the record used for the templates agrees with the database record, except for the
three machine keys (from the machine) and `hostname` (database only).

Missing for the full property: it is false for these keys, see `C19_machine_key_differs`. -/
theorem C19_template_record_partial (s : Study R) (m : Machine) (rev idx : Nat) (p : List (Tree (Entry R)))
    (key : Text) (h1 : key ∉ ["subcmd".toList, "scratch".toList, "home".toList])
    (h2 : key ≠ "hostname".toList) :
    (writeRecord m (allParams s rev idx p)).lookup key = (dbRecord s rev idx p).lookup key := by
  rw [dbRecord, dictSet_lookup, if_neg h2, writeRecord, dictUpdate_lookup]
  have : (machineRecord m : List (Text × Entry R)).filter (fun e => e.1 = key) = [] := by
    rw [List.filter_eq_nil_iff]
    intro e he hk
    simp only [decide_eq_true_eq] at hk
    subst hk
    apply h1
    simp only [machineRecord, List.mem_cons, List.not_mem_nil, or_false] at he
    rcases he with rfl | rfl | rfl <;> simp
  rw [this]
  simp

/-- C19: the entries for study, calculation and machine are what `SQLEntry(key=..., sqlval=...)`
without a type makes of an integer, a string and `None`: type, value and text agree. -/
theorem C19_entries (key : Text) (n : Nat) (t : Text) :
    mkEntry (.int n) none (.other (strNat n)) key = some (natEntry (R := R) key n) ∧
    mkEntry (.str t) none (.str t) key = some (strEntry (R := R) key t) ∧
    mkEntry (.str t) none (.str t) key = some (optEntry (R := R) key (some t)) ∧
    mkEntry .none none (.other "None".toList) key = some (optEntry (R := R) key none) :=
  ⟨rfl, rfl, rfl, rfl⟩

/-- C19, counterexample: a parameter named `home`: the database has the value of the parameter
set, the template gets the machine's. -/
theorem C19_machine_key_differs :
    ∃ (s : Study Nat) (m : Machine) (p : List (Tree (Entry Nat))), s.params = [p] ∧ s.machines = [m] ∧
      ((dbRecord s 0 0 p).lookup "home".toList).map SQLEntry.sqlval = some (.str "x".toList) ∧
      ((writeRecord m (allParams s 0 0 p)).lookup "home".toList).map SQLEntry.sqlval
        = some (.str "/home".toList) :=
  let m : Machine := ⟨"h".toList, none, none, some "/home".toList, none⟩
  let p : List (Tree (Entry Nat)) := [.leaf (strEntry "home".toList "x".toList)]
  ⟨⟨[m], [], [p], "s".toList, "calc".toList⟩, m, p, rfl, rfl,
    by
      have : flatten p = [strEntry "home".toList "x".toList] := rfl
      simp only [dbRecord, allParams, this]
      decide,
    by
      have : flatten p = [strEntry "home".toList "x".toList] := rfl
      simp only [allParams, this]
      decide⟩

theorem templRules_spec (func : Text → Text) (rec : List (Text × Entry R)) :
    ∀ (ks : List Text) (rules : List (Text × TVal)),
    (∀ k ∈ ks, (rec.lookup k).isSome = true) → ks.Nodup →
    (∀ a ∈ ks, ∀ b ∈ ks, func a = func b → a = b) → (∀ a ∈ ks, func a ∉ rules.map Prod.fst) →
    ∃ out, templRules func rec rules ks = some out ∧
      out.map Prod.fst = rules.map Prod.fst ++ ks.map func ∧
      ∀ x, out.lookup x = match ks.find? (fun k => func k = x) with
        | some k => (rec.lookup k).map SQLEntry.fileval
        | none => rules.lookup x
  | [], rules, _, _, _, _ => ⟨rules, rfl, by simp, by simp⟩
  | k :: ks, rules, h1, h2, h3, h4 => by
    rw [List.nodup_cons] at h2
    obtain ⟨e, he⟩ := Option.isSome_iff_exists.1 (h1 k (by simp))
    have hkeys : (dictSet rules (func k) e.fileval).map Prod.fst = rules.map Prod.fst ++ [func k] := by
      rw [dictSet_keys, if_neg (h4 k (by simp))]
    obtain ⟨out, o1, o2, o3⟩ := templRules_spec func rec ks (dictSet rules (func k) e.fileval)
      (fun x hx => h1 x (List.mem_cons_of_mem _ hx)) h2.2
      (fun a ha b hb => h3 a (List.mem_cons_of_mem _ ha) b (List.mem_cons_of_mem _ hb)) (by
        intro a ha hm
        rw [hkeys, List.mem_append] at hm
        rcases hm with hm | hm
        · exact h4 a (List.mem_cons_of_mem _ ha) hm
        · simp only [List.mem_singleton] at hm
          have := h3 a (List.mem_cons_of_mem _ ha) k (by simp) hm
          subst this
          exact h2.1 ha)
    refine ⟨out, by rw [templRules, he]; exact o1, by rw [o2, hkeys]; simp, ?_⟩
    intro x
    rw [o3, List.find?_cons]
    by_cases hx : func k = x
    · have : ks.find? (fun k => func k = x) = none := by
        rw [List.find?_eq_none]
        intro b hb
        simp only [decide_eq_true_eq]
        intro hbx
        have := h3 b (List.mem_cons_of_mem _ hb) k (by simp) (hbx.trans hx.symm)
        subst this
        exact h2.1 hb
      rw [this]
      simp only [hx, decide_true]
      subst hx
      rw [dictSet_lookup, if_pos rfl, he]; rfl
    · simp only [hx, decide_false]
      cases ks.find? (fun k => func k = x) with
      | some b => rfl
      | none => simp only; rw [dictSet_lookup, if_neg (fun h => hx h.symm)]

/-- C19: a template without explicit keys, with a placeholder function that gives different
placeholders for the different keys of the record: the replacement rules are exactly one per
key, placeholder ↦ file value of the record's entry. -/
theorem C19_template_rules (t : Templ) (ht : t.keys = none) (rec : List (Text × Entry R))
    (hn : (rec.map Prod.fst).Nodup)
    (hinj : ∀ a ∈ rec.map Prod.fst, ∀ b ∈ rec.map Prod.fst, t.func a = t.func b → a = b) :
    ∃ rules, templText t rec = templateReplace t.txt rules true ∧
      rules.map Prod.fst = rec.map (fun e => t.func e.1) ∧
      ∀ k e, rec.lookup k = some e → rules.lookup (t.func k) = some e.fileval := by
  obtain ⟨out, h1, h2, h3⟩ := templRules_spec t.func rec (rec.map Prod.fst) []
    (fun k hk => (lookup_isSome_iff rec k).2 hk) hn hinj (by simp)
  refine ⟨out, by simp [templText, ht, h1], by rw [h2]; simp, ?_⟩
  intro k e he
  have hk : k ∈ rec.map Prod.fst := (lookup_isSome_iff rec k).1 (by rw [he]; rfl)
  rw [h3]
  have : (rec.map Prod.fst).find? (fun x => t.func x = t.func k) = some k := by
    cases hf : (rec.map Prod.fst).find? (fun x => t.func x = t.func k) with
    | none =>
      rw [List.find?_eq_none] at hf
      exact absurd (decide_eq_true rfl) (hf k hk)
    | some b =>
      have hb := List.find?_some hf
      simp only [decide_eq_true_eq] at hb
      rw [hinj b (List.mem_of_find?_eq_some hf) k hk hb]
  rw [this]
  simp [he]

/-- C19: a template with explicit keys: exactly these are replaced, by the file values of the
record; a key that is not in the record raises, and so does an empty list of keys. -/
theorem C19_template_keys (t : Templ) (ks : List Text) (ht : t.keys = some ks) (rec : List (Text × Entry R)) :
    (ks = [] → templText t rec = none) ∧
    ((∃ k ∈ ks, rec.lookup k = none) → templText t rec = none) ∧
    (ks ≠ [] → ks.Nodup → (∀ k ∈ ks, (rec.lookup k).isSome = true) →
      (∀ a ∈ ks, ∀ b ∈ ks, t.func a = t.func b → a = b) →
      ∃ rules, templText t rec = templateReplace t.txt rules true ∧ rules.map Prod.fst = ks.map t.func ∧
        ∀ k ∈ ks, ∀ e, rec.lookup k = some e → rules.lookup (t.func k) = some e.fileval) := by
  refine ⟨?_, ?_, ?_⟩
  · rintro rfl; simp [templText, ht]
  · rintro ⟨k, hk, hn⟩
    have hr : ∀ (l : List Text) (rules : List (Text × TVal)), k ∈ l → templRules t.func rec rules l = none := by
      intro l
      induction l with
      | nil => intro _ h; cases h
      | cons a l ih =>
        intro rules h
        rw [templRules]
        by_cases ha : a = k
        · rw [ha, hn]
        · cases rec.lookup a with
          | none => rfl
          | some e => exact ih _ ((List.mem_cons.1 h).resolve_left (fun h => ha h.symm))
    cases ks with
    | nil => cases hk
    | cons a l => simp [templText, ht, hr _ _ hk]
  · intro hne hnd hsome hinj
    obtain ⟨out, h1, h2, h3⟩ := templRules_spec t.func rec ks [] hsome hnd hinj (by simp)
    refine ⟨out, ?_, by rw [h2]; simp, ?_⟩
    · cases ks with
      | nil => exact absurd rfl hne
      | cons a l => simp [templText, ht, h1]
    · intro k hk e he
      rw [h3]
      have : ks.find? (fun x => t.func x = t.func k) = some k := by
        cases hf : ks.find? (fun x => t.func x = t.func k) with
        | none =>
          rw [List.find?_eq_none] at hf
          exact absurd (decide_eq_true rfl) (hf k hk)
        | some b =>
          have hb := List.find?_some hf
          simp only [decide_eq_true_eq] at hb
          rw [hinj b (List.mem_of_find?_eq_some hf) k hk hb]
      rw [this]
      simp [he]

/-- The default placeholders of keys that differ in more than case are different. -/
theorem defaultFunc_inj {a b : Text} (h : defaultFunc a = defaultFunc b) : upper a = upper b := by
  simpa [defaultFunc] using h

end Pwtools
