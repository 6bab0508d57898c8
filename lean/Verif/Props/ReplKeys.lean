import Verif.Spec.ReplKeys
import Verif.Props.Batch
import Verif.Props.Common
/-!
# C146: the default placeholders of parameter studies
-/
namespace Pwtools.ReplKeys
open Spec
variable {R : Type}

theorem templRules_keys (func : Text → Text) (rec : List (Text × Entry R)) (ks : List Text) (rules out : List (Text × TVal)) (h : templRules func rec rules ks = some out) :
    ∀ e ∈ out, e.1 ∈ rules.map Prod.fst ∨ ∃ k, e.1 = func k := by
  induction ks generalizing rules with
  | nil =>
    simp only [templRules, Option.some.injEq] at h
    subst h
    exact fun e he => .inl (List.mem_map_of_mem he)
  | cons k ks ih =>
    rw [templRules] at h
    split at h
    · cases h
    · intro e he
      rcases ih _ h e he with h | h
      · rw [dictSet_keys] at h
        split at h
        · exact .inl h
        · rw [List.mem_append, List.mem_singleton] at h
          rcases h with h | h
          · exact .inl h
          · exact .inr ⟨_, h⟩
      · exact .inr h

theorem templRules_some (func : Text → Text) (rec : List (Text × Entry R)) (ks : List Text) (hk : ∀ k ∈ ks, (rec.lookup k).isSome = true) (rules : List (Text × TVal)) :
    ∃ out, templRules func rec rules ks = some out := by
  induction ks generalizing rules with
  | nil => exact ⟨_, rfl⟩
  | cons k ks ih =>
    rw [templRules]
    obtain ⟨e, he⟩ := Option.isSome_iff_exists.1 (hk k (by simp))
    rw [he]
    exact ih (fun k h => hk k (by simp [h])) _

/-- A text without the letter X is copied. -/
theorem templText_noX (b txt : Text) (hx : 'X' ∉ txt) (rec : List (Text × Entry R)) : templText ⟨b, txt, none, defaultFunc⟩ rec = some txt := by
  obtain ⟨out, ho⟩ := templRules_some defaultFunc rec (rec.map Prod.fst) (fun k hk => (lookup_isSome_iff rec k).2 hk) []
  simp only [templText, ho]
  apply C04_absent_key
  intro e he i hi
  rcases templRules_keys _ _ _ _ _ ho e he with h | ⟨k, h⟩
  · simp at h
  · apply hx
    have : 'X' ∈ e.1 := by rw [h]; simp [defaultFunc]
    exact List.mem_of_mem_drop (hi.subset this)

/-- The columns of the dummy study. -/
def dummyHeader : List (Text × Text) :=
  [("dummy".toList, "INTEGER".toList), ("revision".toList, "INTEGER".toList), ("study_name".toList, "TEXT".toList), ("idx".toList, "INTEGER".toList), ("calc_name".toList, "TEXT".toList),
   ("hostname".toList, "TEXT".toList)]

/-- The record of the dummy study. -/
def dummyRecord : List (Text × Entry R) :=
  [("dummy".toList, natEntry "dummy".toList 1), ("revision".toList, natEntry "revision".toList 0), ("study_name".toList, strEntry "study_name".toList "calc".toList),
   ("idx".toList, natEntry "idx".toList 0), ("calc_name".toList, strEntry "calc_name".toList "calc_run0".toList), ("hostname".toList, strEntry "hostname".toList "foo".toList)]

theorem dummy_records : dbRecords (dummyStudy : Study R) 0 0 dummyStudy.params = [dummyRecord] := by rfl

theorem dummy_raw : rawHeader [(dummyRecord : List (Text × Entry R))] = dummyHeader := by rfl

theorem dummy_header : pyUnique dummyHeader = dummyHeader := by decide +kernel

theorem dummy_create : createTable dummyHeader = .ok (⟨dummyHeader, []⟩ : Table R) := by
  unfold createTable
  rw [if_neg (by decide +kernel)]
  rw [show fixSqlHeader dummyHeader = dummyHeader by decide +kernel]

theorem dummy_insert (conv : Text → SqlVal R → SqlVal R) (vals : List (SqlVal R)) (h : vals.length = 6) :
    ∃ rows, Table.insert conv ⟨dummyHeader, []⟩ ((dummyRecord : List (Text × Entry R)).map Prod.fst) vals = some ⟨dummyHeader, rows⟩ := by
  have hn : (dummyRecord : List (Text × Entry R)).map Prod.fst = dummyHeader.map Prod.fst := rfl
  have hf : ∀ n ∈ dummyHeader.map Prod.fst, (dummyHeader.find? (fun h => fold h.1 = fold n)).isSome := by decide +kernel
  unfold Table.insert
  rw [if_pos ⟨by rw [h]; rfl, by rw [hn]; exact hf⟩]
  exact ⟨_, rfl⟩

theorem run_new (conv : Text → SqlVal R → SqlVal R) (h b txt T : Text) (H : List (Text × Text)) (names : List Text) (vals : List (PyV R)) (vs : List (SqlVal R)) (rows : List (Row R))
    (hc : createTable H = .ok (⟨H, []⟩ : Table R)) (hb : mapE bindVal vals = some vs) (hi : Table.insert conv ⟨H, []⟩ names vs = some ⟨H, rows⟩) :
    ∃ w, runEffs conv (emptyWorld : World R).start ([.openDb, .backupDir h, .mkCalc h 0, .writeFile h 0 b txt, .runSh h [0]] ++ [.createTable T H, .insert T names vals, .commit]) = (w, none) ∧
      ∃ tabs, w.saved = some tabs ∧ tabs T = some ⟨H, rows⟩ := by
  simp [runEffs, step, World.start, emptyWorld, World.calcOf, setCalc, setAt, hc, hb, hi]

/-- **C146** `default_repl_keys` returns these keys, each once. -/
theorem C146_keys (conv : Text → SqlVal R → SqlVal R) : ∃ ks ms, defaultReplKeys conv = some (ks, ms) ∧ ks.Nodup ∧ ms.Nodup ∧
    (∀ k, k ∈ ks ↔ k ∈ ["revision".toList, "study_name".toList, "idx".toList, "calc_name".toList]) ∧
    (∀ k, k ∈ ms ↔ k ∈ ["subcmd".toList, "scratch".toList, "home".toList]) := by
  refine ⟨["revision".toList, "study_name".toList, "idx".toList, "calc_name".toList], ["subcmd".toList, "scratch".toList, "home".toList], ?_, ?_, ?_, ?_, ?_⟩
  · have hp : plan (dummyStudy : Study R) ⟨false, true, true⟩ emptyWorld =
        [.openDb, .backupDir "foo".toList, .mkCalc "foo".toList 0, .writeFile "foo".toList 0 "foo.job".toList "dummy job template, go away!".toList, .runSh "foo".toList [0]] ++
        dbEffs (dummyStudy : Study R) ⟨false, true, true⟩ true 0 (dbRecords (dummyStudy : Study R) 0 0 dummyStudy.params) := by
      simp only [plan, emptyWorld, mainEffs, dummyStudy, dummyMachine, List.flatMap_cons, List.flatMap_nil, machineEffs, paramEffs, calcEffs, templEffs, List.nil_append, Option.toList]
      rw [templText_noX _ _ (by decide)]
      simp
    obtain ⟨rows, hi⟩ := dummy_insert conv [.int 1, .int 0, .text "calc".toList, .int 0, .text "calc_run0".toList, .text "foo".toList] rfl
    have hb : mapE bindVal ((dummyRecord : List (Text × Entry R)).map fun e => e.2.sqlval) =
        some [.int 1, .int 0, .text "calc".toList, .int 0, .text "calc_run0".toList, .text "foo".toList] := rfl
    have hpop : popAll (dummyHeader.map Prod.fst) ["dummy".toList, "hostname".toList] = some ["revision".toList, "study_name".toList, "idx".toList, "calc_name".toList] := by decide +kernel
    have ht : (dummyStudy : Study R).table = "calc".toList := rfl
    obtain ⟨w, hw, tabs, hs, hT⟩ := run_new conv "foo".toList "foo.job".toList "dummy job template, go away!".toList "calc".toList dummyHeader
      ((dummyRecord : List (Text × Entry R)).map Prod.fst) (dummyRecord.map fun e => e.2.sqlval) _ rows dummy_create hb hi
    have he : dbEffs (dummyStudy : Study R) ⟨false, true, true⟩ true 0 [dummyRecord] =
        [.createTable "calc".toList dummyHeader, .insert "calc".toList ((dummyRecord : List (Text × Entry R)).map Prod.fst) (dummyRecord.map fun e => e.2.sqlval), .commit] := by
      unfold dbEffs
      rw [dummy_raw, dummy_header, ht]
      rfl
    rw [dummy_records, he] at hp
    unfold defaultReplKeys writeInput
    rw [hp, hw]
    simp only [hs, hT, hpop]
    rfl
  · decide
  · decide
  · simp
  · simp

/-- The keys of both lists. -/
def allKeys : List Text := ["revision".toList, "study_name".toList, "idx".toList, "calc_name".toList, "subcmd".toList, "scratch".toList, "home".toList]

theorem record_value (s : Study R) (m : Machine) (rev idx : Nat) (p : List (Tree (Entry R))) (k : Text) (hk : k ∈ allKeys) :
    ∃ e, (writeRecord m (allParams s rev idx p)).lookup k = some e ∧ defaultValue s m rev idx k = some (frepr e.fileval) := by
  rw [writeRecord, dictUpdate_lookup, sqlRecord_lookup, allParams, lastWith_append]
  simp only [allKeys, List.mem_cons, List.not_mem_nil, or_false] at hk
  rcases hk with rfl | rfl | rfl | rfl | rfl | rfl | rfl
  · exact ⟨natEntry "revision".toList rev, rfl, rfl⟩
  · exact ⟨strEntry "study_name".toList s.studyName, rfl, rfl⟩
  · exact ⟨natEntry "idx".toList idx, rfl, rfl⟩
  · exact ⟨strEntry "calc_name".toList (s.studyName ++ "_run".toList ++ strNat idx), rfl, rfl⟩
  · exact ⟨optEntry "subcmd".toList m.subcmd, rfl, by cases h : m.subcmd <;> simp [defaultValue, h, optEntry, frepr]⟩
  · exact ⟨optEntry "scratch".toList m.scratch, rfl, by cases h : m.scratch <;> simp [defaultValue, h, optEntry, frepr]⟩
  · exact ⟨optEntry "home".toList m.home, rfl, by cases h : m.home <;> simp [defaultValue, h, optEntry, frepr]⟩

theorem writeRecord_nodup (m : Machine) (params : List (Entry R)) : ((writeRecord m params).map Prod.fst).Nodup :=
  dictUpdate_nodup _ _ (dictUpdate_nodup _ _ (by simp))

theorem lookup_mem {V : Type} {l : List (Text × V)} {k : Text} {v : V} (h : l.lookup k = some v) : (k, v) ∈ l := by
  induction l with
  | nil => cases h
  | cons e l ih =>
    obtain ⟨a, b⟩ := e
    by_cases hk : k = a
    · subst hk
      simp [List.lookup] at h
      simp [h]
    · have : (k == a) = false := by simpa using hk
      rw [List.lookup, this] at h
      exact List.mem_cons_of_mem _ (ih h)

/-- **C146** Every returned key is available in every study: for every machine, parameter set, revision and number, a template without explicit keys (with different placeholders for different keys) gets a rule which
replaces the placeholder of the key by the documented value, whatever the parameters are. -/
theorem C146_available (conv : Text → SqlVal R → SqlVal R) (ks ms : List Text) (hd : defaultReplKeys conv = some (ks, ms)) (s : Study R) (m : Machine) (rev idx : Nat) (p : List (Tree (Entry R)))
    (t : Templ) (ht : t.keys = none)
    (hinj : ∀ a ∈ (writeRecord m (allParams s rev idx p)).map Prod.fst, ∀ b ∈ (writeRecord m (allParams s rev idx p)).map Prod.fst, t.func a = t.func b → a = b) :
    ∃ rules, templText t (writeRecord m (allParams s rev idx p)) = templateReplace t.txt rules true ∧
      ∀ k, k ∈ ks ∨ k ∈ ms → ∃ v, rules.lookup (t.func k) = some v ∧ defaultValue s m rev idx k = some (frepr v) := by
  obtain ⟨ks', ms', h1, -, -, h4, h5⟩ := C146_keys conv
  rw [hd] at h1
  cases h1
  obtain ⟨rules, r1, -, r3⟩ := C19_template_rules t ht _ (writeRecord_nodup m (allParams s rev idx p)) hinj
  refine ⟨rules, r1, fun k hk => ?_⟩
  have hk' : k ∈ allKeys := by rwa [h4, h5, ← List.mem_append] at hk
  obtain ⟨e, he, hv⟩ := record_value s m rev idx p k hk'
  exact ⟨e.fileval, r3 k e he, hv⟩

theorem assoc_ext {V : Type} : ∀ (l1 l2 : List (Text × V)), l1.map Prod.fst = l2.map Prod.fst → (l2.map Prod.fst).Nodup → (∀ e ∈ l2, l1.lookup e.1 = some e.2) → l1 = l2
  | [], [], _, _, _ => rfl
  | [], _ :: _, h, _, _ => by simp at h
  | _ :: _, [], h, _, _ => by simp at h
  | (a, u) :: l1, (b, v) :: l2, h, hn, hl => by
    simp only [List.map_cons, List.cons.injEq] at h
    obtain ⟨rfl, h⟩ := h
    rw [List.map_cons, List.nodup_cons] at hn
    have h0 := hl (a, v) (by simp)
    simp [List.lookup] at h0
    subst h0
    rw [assoc_ext l1 l2 h hn.2 fun e he => ?_]
    have hne : e.1 ≠ a := fun hc => hn.1 (List.mem_map.2 ⟨e, he, hc⟩)
    have := hl e (by simp [he])
    rw [List.lookup, show (e.1 == a) = false by simpa using hne] at this
    exact this

/-- The rules which the documentation describes: for each entry of the record its placeholder and its text. -/
def docRules (t : Templ) (rec : List (Text × Entry R)) : List (Text × Text) := rec.map fun e => (t.func e.1, frepr e.2.fileval)

/-- **C146** (part) The written file is the template with all placeholders replaced at the same time, the default ones by the documented values. Missing: templates for which the rules are ambiguous, e.g. since the
placeholder of a parameter is the beginning of a default one (`C146_prefix_counterexample`). -/
theorem C146_replaced_partial (conv : Text → SqlVal R → SqlVal R) (ks ms : List Text) (hd : defaultReplKeys conv = some (ks, ms)) (s : Study R) (m : Machine) (rev idx : Nat)
    (p : List (Tree (Entry R))) (t : Templ) (ht : t.keys = none) (hu : Unambiguous (docRules t (writeRecord m (allParams s rev idx p))) t.txt) :
    ∃ out, templText t (writeRecord m (allParams s rev idx p)) = some out ∧ Subst (docRules t (writeRecord m (allParams s rev idx p))) t.txt out ∧
      ∀ k, k ∈ ks ∨ k ∈ ms → ∃ v, (t.func k, v) ∈ docRules t (writeRecord m (allParams s rev idx p)) ∧ defaultValue s m rev idx k = some v := by
  obtain ⟨ks', ms', h1, -, -, h4, h5⟩ := C146_keys conv
  rw [hd] at h1
  cases h1
  have hk : (docRules t (writeRecord m (allParams s rev idx p))).map Prod.fst = ((writeRecord m (allParams s rev idx p)).map Prod.fst).map t.func := by
    simp [docRules]
  have hnd := hu.nodup
  rw [hk] at hnd
  obtain ⟨rules, r1, r2, r3⟩ := C19_template_rules t ht _ (writeRecord_nodup m (allParams s rev idx p)) (fun a ha b hb e => List.inj_on_of_nodup_map hnd ha hb e)
  have lk : ∀ (l : List (Text × TVal)) (k : Text) v, l.lookup k = some v → (textRules l).lookup k = some (frepr v) := by
    intro l k v h
    induction l with
    | nil => cases h
    | cons e l ih =>
      obtain ⟨a, b⟩ := e
      by_cases hk : k = a
      · subst hk
        simp [List.lookup] at h
        simp [textRules, h]
      · have : (k == a) = false := by simpa using hk
        rw [List.lookup, this] at h
        have := ih h
        simp only [textRules, List.map_cons, List.lookup] at this ⊢
        rw [show (k == a) = false by simpa using hk]
        exact this
  have mem_lookup : ∀ (l : List (Text × Entry R)), (l.map Prod.fst).Nodup → ∀ e ∈ l, l.lookup e.1 = some e.2 := by
    intro l hl e he
    induction l with
    | nil => cases he
    | cons x l ih =>
      rw [List.map_cons, List.nodup_cons] at hl
      rcases List.mem_cons.1 he with rfl | he
      · simp [List.lookup]
      · have hne : e.1 ≠ x.1 := fun hc => hl.1 (hc ▸ List.mem_map_of_mem he)
        rw [List.lookup, show (e.1 == x.1) = false by simpa using hne]
        exact ih hl.2 he
  have heq : textRules rules = docRules t (writeRecord m (allParams s rev idx p)) := by
    apply assoc_ext _ _ _ hu.nodup
    · intro e he
      obtain ⟨x, hx, rfl⟩ := List.mem_map.1 he
      exact lk _ _ _ (r3 x.1 x.2 (mem_lookup _ (writeRecord_nodup m _) x hx))
    · rw [hk, List.map_map, textRules, List.map_map]
      exact r2
  rw [← heq] at hu ⊢
  obtain ⟨out, o1, o2⟩ := C04_template_replace_partial t.txt rules true (.inl rfl) hu
  refine ⟨out, by rw [r1, o1], o2, fun k hk => ?_⟩
  have hk' : k ∈ allKeys := by rwa [h4, h5, ← List.mem_append] at hk
  obtain ⟨e, he, hv⟩ := record_value s m rev idx p k hk'
  exact ⟨_, lookup_mem (lk _ _ _ (r3 k e he)), hv⟩

/-- `a` at place `d` of `b` agrees with `b`. -/
def fitsAt (a b : Text) (d : Nat) : Bool := a.take (b.length - d) == (b.drop d).take a.length

theorem not_canOverlap_of_check {a b : Text} (h1 : ∀ d < b.length, fitsAt a b d = false) (h2 : ∀ d < a.length, fitsAt b a d = false) : ¬ CanOverlap a b := by
  have key : ∀ (a b w : Text) (i j : Nat), OccursAt a w i → OccursAt b w j → i < j + b.length → j ≤ i → fitsAt a b (i - j) = true := by
    rintro a b w i j ⟨ra, ha⟩ ⟨rb, hb⟩ h hij
    have hd : w.drop i = (b ++ rb).drop (i - j) := by rw [hb, List.drop_drop]; congr 1; omega
    rw [← ha, List.drop_append_of_le_length (by omega)] at hd
    have e := congrArg (fun l => l.take (min a.length (b.length - (i - j)))) hd
    rw [List.take_append_of_le_length (by omega), List.take_append_of_le_length (by rw [List.length_drop]; omega)] at e
    unfold fitsAt
    rw [beq_iff_eq]
    have l1 : a.take (b.length - (i - j)) = a.take (min a.length (b.length - (i - j))) := by
      rw [List.take_eq_take_iff]; omega
    have l2 : (b.drop (i - j)).take a.length = (b.drop (i - j)).take (min a.length (b.length - (i - j))) := by
      rw [List.take_eq_take_iff, List.length_drop]; omega
    rw [l1, l2, e]
  rintro ⟨w, i, j, ha, hb, h, h'⟩
  rcases le_total j i with hij | hij
  · have := key a b w i j ha hb h hij
    rw [h1 _ (by omega)] at this
    cases this
  · have := key b a w j i hb ha h' hij
    rw [h2 _ (by omega)] at this
    cases this

/-- A decidable sufficient condition for `Unambiguous`. -/
theorem unambiguous_of_check (rules : List (Text × Text)) (txt : Text) (h1 : ∀ e ∈ rules, e.1 ≠ [] ∧ e.2 ≠ []) (h2 : (rules.map Prod.fst).Nodup)
    (h3 : ∀ e ∈ rules, ∀ e' ∈ rules, (∀ d < e'.2.length, fitsAt e.1 e'.2 d = false) ∧ ∀ d < e.1.length, fitsAt e'.2 e.1 d = false)
    (h4 : ∀ e ∈ rules, ∀ e' ∈ rules, e.1 ≠ e'.1 → ∀ i < txt.length, ∀ j < txt.length, e.1.isPrefixOf (txt.drop i) = true → e'.1.isPrefixOf (txt.drop j) = true →
      i + e.1.length ≤ j ∨ j + e'.1.length ≤ i) : Unambiguous rules txt := by
  have occ : ∀ (k : Text) i, k ≠ [] → OccursAt k txt i → i < txt.length := by
    intro k i hk h
    by_contra hc
    rw [OccursAt, List.drop_eq_nil_of_le (by omega)] at h
    exact hk (List.prefix_nil.1 h)
  refine ⟨fun k v h => (h1 _ h).1, fun k v h => (h1 _ h).2, h2, fun k v k' v' h h' => ?_, fun k v k' v' i j h h' hne hi hj => ?_⟩
  · obtain ⟨a, b⟩ := h3 _ h _ h'
    exact not_canOverlap_of_check a b
  · exact h4 _ h _ h' hne i (occ _ _ (h1 _ h).1 hi) j (occ _ _ (h1 _ h').1 hj) (List.isPrefixOf_iff_prefix.2 hi) (List.isPrefixOf_iff_prefix.2 hj)

/-- Non-vacuity of `C146_replaced_partial` (and of the injectivity in `C146_available`). -/
example : Unambiguous (docRules ⟨"job".toList, "-n XXXIDX XXXFOO".toList, none, defaultFunc⟩
    (writeRecord ⟨"h".toList, some "qsub".toList, some "/tmp".toList, some "/root".toList, none⟩
      (allParams (⟨[], [], [], "s".toList, "calc".toList⟩ : Study Nat) 0 5 [.leaf (strEntry "foo".toList "7".toList)]))) "-n XXXIDX XXXFOO".toList := by
  rw [allParams, show flatten [Tree.leaf (strEntry "foo".toList "7".toList)] = [(strEntry "foo".toList "7".toList : Entry Nat)] from rfl]
  apply unambiguous_of_check <;> decide +kernel

/-- **C146** There are no other keys which every study has. -/
theorem C146_only (conv : Text → SqlVal R → SqlVal R) (ks ms : List Text) (hd : defaultReplKeys conv = some (ks, ms)) (key : Text)
    (h : ∀ (s : Study R) (m : Machine) (rev idx : Nat) (p : List (Tree (Entry R))), ∃ e, (writeRecord m (allParams s rev idx p)).lookup key = some e) : key ∈ ks ∨ key ∈ ms := by
  obtain ⟨ks', ms', h1, -, -, h4, h5⟩ := C146_keys conv
  rw [hd] at h1
  cases h1
  obtain ⟨e, he⟩ := h dummyStudy dummyMachine 0 0 []
  have hm := List.mem_map_of_mem (f := Prod.fst) (lookup_mem he)
  have hr : (writeRecord dummyMachine (allParams (dummyStudy : Study R) 0 0 [])).map Prod.fst = allKeys := by
    rw [allParams, show flatten ([] : List (Tree (Entry R))) = [] from rfl]
    rfl
  rw [hr] at hm
  rwa [h4, h5, ← List.mem_append]

/-- **C146** (violated) A study with a parameter named `id`: in the template text `XXXIDX` the placeholder of the number is not replaced by the number of the calculation (here 5), but by the parameter and an X. -/
theorem C146_prefix_counterexample : templText ⟨"job".toList, "XXXIDX".toList, none, defaultFunc⟩
    (writeRecord dummyMachine (allParams (dummyStudy : Study Nat) 0 5 [.leaf (strEntry "id".toList "7".toList)])) = some "7X".toList := by
  rw [allParams, show flatten [Tree.leaf (strEntry "id".toList "7".toList)] = [(strEntry "id".toList "7".toList : Entry Nat)] from rfl]
  decide +kernel

/-- Without it, the number. -/
example : templText ⟨"job".toList, "XXXIDX".toList, none, defaultFunc⟩
    (writeRecord dummyMachine (allParams (dummyStudy : Study Nat) 0 5 [.leaf (strEntry "foo".toList "7".toList)])) = some "5".toList := by
  rw [allParams, show flatten [Tree.leaf (strEntry "foo".toList "7".toList)] = [(strEntry "foo".toList "7".toList : Entry Nat)] from rfl]
  decide +kernel

end Pwtools.ReplKeys
