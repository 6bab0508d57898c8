import Verif.Spec.Calc
/-!
# C98, C99: calculators
-/
namespace Pwtools.Calc
open Spec

variable {V : Type}

theorem asDict_some (kw : Kwds V) (hnd : (kw.map Prod.fst).Nodup) (k : Text) (v : Option V) (h : (k, v) ∈ kw) : asDict kw k = some v := by
  induction kw with
  | nil => simp at h
  | cons e kw ih =>
    rw [List.map_cons, List.nodup_cons] at hnd
    unfold asDict at *
    rw [List.find?_cons]
    by_cases he : e.1 = k
    · rw [decide_eq_true he]
      rcases List.mem_cons.1 h with h | h
      · rw [← h]; rfl
      · exact absurd (List.mem_map.2 ⟨(k, v), h, rfl⟩) (he ▸ hnd.1)
    · rw [decide_eq_false he]
      rcases List.mem_cons.1 h with h | h
      · exact absurd (by rw [← h]) he
      · exact ih hnd.2 h

theorem asDict_none (kw : Kwds V) (k : Text) (h : ∀ v, (k, v) ∉ kw) : asDict kw k = none := by
  unfold asDict
  rw [Option.map_eq_none_iff, List.find?_eq_none]
  intro e he hk
  exact h e.2 (by have : e.1 = k := by simpa using hk
                  rw [← this]; exact he)

theorem any_allowed (cls : Dict V) (kw : Kwds V) : kw.any (fun e => (cls e.1).isNone) = false ↔ Allowed cls kw := by
  unfold Allowed
  rw [List.any_eq_false]
  constructor
  · intro h e he hc
    exact h e he (by rw [hc]; rfl)
  · intro h e he hc
    exact h e he (Option.isNone_iff_eq_none.1 hc)

/-- **C98** (where it holds) The first object of a class has the settings which the user gave, and the defaults. Missing: later objects, see
`C98_history`. -/
theorem C98_fresh_partial (default : Dict V) (kw : Kwds V) (hnd : (kw.map Prod.fst).Nodup) :
    (Allowed default kw → ∃ cls attrs, initParams default kw = .ok (cls, attrs) ∧ IsSetting default kw attrs) ∧
    (¬ Allowed default kw → initParams default kw = .error .notAllowed) := by
  constructor
  · intro h
    refine ⟨_, _, by unfold initParams; rw [if_neg (by rw [(any_allowed default kw).2 h]; simp)], ?_, ?_⟩
    · intro k v hk
      unfold upd
      rw [asDict_some kw hnd k v hk]; rfl
    · intro k hk
      unfold upd
      rw [asDict_none kw k hk]; rfl
  · intro h
    unfold initParams
    rw [if_pos]
    by_contra hc
    exact h ((any_allowed default kw).1 (by simpa using hc))

/-- **C98** (what `Pwscf` checks and completes) For attributes `s` which are the settings of the user and the defaults of the class: smearing and then
`xc` are refused; `pp`, `pseudo_dir`, `outdir` and `kpts` must be there; if all is well the attributes are the settings, except that
`ecutrho` is 4 times `ecutwfc` if it was not given. -/
theorem C98_pwscf (times4 : V → V) (cls : Dict V) (kw : Kwds V) (s : Dict V) (ha : Allowed cls kw) (hnd : (kw.map Prod.fst).Nodup)
    (hs : IsSetting cls kw s) :
    (attr s "smearing" ≠ none → (pwscfInit times4 cls kw).2 = .error .notImplemented) ∧
    (attr s "smearing" = none → attr s "xc" ≠ none → (pwscfInit times4 cls kw).2 = .error .useXc) ∧
    (attr s "smearing" = none → attr s "xc" = none → (attr s "pp" = none ∨ attr s "pseudo_dir" = none ∨ attr s "outdir" = none ∨ attr s "kpts" = none) →
      (pwscfInit times4 cls kw).2 = .error .assertion) ∧
    (attr s "smearing" = none → attr s "xc" = none → attr s "pp" ≠ none → attr s "pseudo_dir" ≠ none → attr s "outdir" ≠ none → attr s "kpts" ≠ none →
      ∃ d, (pwscfInit times4 cls kw).2 = .ok d ∧ (∀ k, k ≠ "ecutrho".toList → d k = s k) ∧
        (∀ x, attr s "ecutrho" = some x → attr d "ecutrho" = some x) ∧
        (attr s "ecutrho" = none → attr d "ecutrho" = (attr s "ecutwfc").map times4)) := by
  have he : upd cls (asDict kw) = s := by
    funext k
    by_cases h : ∃ v, (k, v) ∈ kw
    · obtain ⟨v, hv⟩ := h
      rw [hs.1 k v hv]
      unfold upd
      rw [asDict_some kw hnd k v hv]; rfl
    · rw [hs.2 k fun v hv => h ⟨v, hv⟩]
      unfold upd
      rw [asDict_none kw k fun v hv => h ⟨v, hv⟩]; rfl
  have hi : initParams cls kw = .ok (s, s) := by
    unfold initParams
    rw [if_neg (by rw [(any_allowed cls kw).2 ha]; simp), he]
  have hne : ∀ k : String, k.toList ≠ "ecutrho".toList → ∀ v, attr (Function.update s "ecutrho".toList v) k = attr s k := by
    intro k hk v
    unfold attr
    rw [Function.update_of_ne hk]
  have e1 : ∀ v, attr (Function.update s "ecutrho".toList v) "pp" = attr s "pp" := hne _ (by decide)
  have e2 : ∀ v, attr (Function.update s "ecutrho".toList v) "pseudo_dir" = attr s "pseudo_dir" := hne _ (by decide)
  have e3 : ∀ v, attr (Function.update s "ecutrho".toList v) "outdir" = attr s "outdir" := hne _ (by decide)
  have e4 : ∀ v, attr (Function.update s "ecutrho".toList v) "kpts" = attr s "kpts" := hne _ (by decide)
  unfold pwscfInit
  rw [hi]
  simp only [e1, e2, e3, e4]
  refine ⟨fun h => ?_, fun h h' => ?_, fun h h' hr => ?_, fun h h' h1 h2 h3 h4 => ?_⟩
  · rw [if_pos (Option.isSome_iff_ne_none.2 h)]
  · rw [h, if_neg (by simp), if_pos (Option.isSome_iff_ne_none.2 h')]
  · rw [h, h', if_neg (by simp), if_neg (by simp), if_pos]
    rcases hr with h | h | h | h <;> rw [h] <;> simp
  · rw [h, h', if_neg (by simp), if_neg (by simp), if_neg]
    · refine ⟨_, rfl, fun k hk => Function.update_of_ne hk _ _, fun x hx => ?_, fun hx => ?_⟩
      · unfold attr
        unfold attr at hx
        rw [Function.update_self, hx]; rfl
      · have : attr (Function.update s "ecutrho".toList (some ((attr s "ecutwfc").map times4))) "ecutrho" = (attr s "ecutwfc").map times4 := by
          unfold attr
          rw [Function.update_self]; rfl
        rw [hx]
        exact this
    · simp [Option.isNone_iff_eq_none, h1, h2, h3, h4]

/-- What a constructor does to the dict of the class: `update` with the keywords unless a key is not allowed. -/
def Updates (init : Dict V → Kwds V → Dict V × Except CErr (Dict V)) : Prop :=
  ∀ d kw, (Allowed d kw → (init d kw).1 = upd d (asDict kw)) ∧ (¬ Allowed d kw → (init d kw).1 = d)

theorem pwscf_updates (times4 : V → V) : Updates (pwscfInit times4) := by
  intro d kw
  constructor
  · intro h
    unfold pwscfInit initParams
    rw [if_neg (by rw [(any_allowed d kw).2 h]; simp)]
  · intro h
    unfold pwscfInit initParams
    rw [if_pos]
    by_contra hc
    exact h ((any_allowed d kw).1 (by simpa using hc))

theorem lammps_updates : Updates (lammpsInit (V := V)) := by
  intro d kw
  constructor
  · intro h
    unfold lammpsInit initParams
    rw [if_neg (by rw [(any_allowed d kw).2 h]; simp)]
  · intro h
    unfold lammpsInit initParams
    rw [if_pos]
    by_contra hc
    exact h ((any_allowed d kw).1 (by simpa using hc))

theorem allowed_upd (d : Dict V) (kw : Kwds V) (h : Allowed d kw) (k : Text) : upd d (asDict kw) k = none ↔ d k = none := by
  unfold upd
  rw [Option.or_eq_none_iff]
  constructor
  · exact fun h => h.2
  · intro hk
    refine ⟨asDict_none kw k ?_, hk⟩
    intro v hv
    exact h _ hv hk

/-- **C98** Which keys are allowed does not depend on the objects created before. -/
theorem C98_keys (init : Dict V → Kwds V → Dict V × Except CErr (Dict V)) (hinit : Updates init) (default : Dict V) (hist : List (Kwds V))
    (k : Text) : after init default hist k = none ↔ default k = none := by
  unfold after
  induction hist generalizing default with
  | nil => rfl
  | cons kw hist ih =>
    rw [List.foldl_cons, ih]
    by_cases h : Allowed default kw
    · rw [(hinit default kw).1 h, allowed_upd default kw h]
    · rw [(hinit default kw).2 h]

/-- **C98** (where it holds) A key which was never given before has its default value for the next object. -/
theorem C98_untouched_partial (init : Dict V → Kwds V → Dict V × Except CErr (Dict V)) (hinit : Updates init) (default : Dict V)
    (hist : List (Kwds V)) (k : Text) (h : ∀ kw ∈ hist, ∀ v, (k, v) ∉ kw) : after init default hist k = default k := by
  unfold after
  induction hist generalizing default with
  | nil => rfl
  | cons kw hist ih =>
    rw [List.foldl_cons, ih _ fun kw' hk => h kw' (by simp [hk])]
    by_cases ha : Allowed default kw
    · rw [(hinit default kw).1 ha]
      unfold upd
      rw [asDict_none kw k (h kw (by simp))]; rfl
    · rw [(hinit default kw).2 ha]

/-- **C98** is false: the value of a key in the last accepted call is the default of all later objects. (`hist` and `more` are the calls before
and after that one; in the later ones the key is not given.) -/
theorem C98_history (init : Dict V → Kwds V → Dict V × Except CErr (Dict V)) (hinit : Updates init) (default : Dict V)
    (hist more : List (Kwds V)) (kw : Kwds V) (hnd : (kw.map Prod.fst).Nodup) (k : Text) (v : Option V) (hk : (k, v) ∈ kw)
    (ha : Allowed default kw) (hmore : ∀ kw ∈ more, ∀ v, (k, v) ∉ kw) :
    after init default (hist ++ kw :: more) k = some v := by
  have e : after init default (hist ++ kw :: more) = after init (init (after init default hist) kw).1 more := by
    unfold after
    rw [List.foldl_append, List.foldl_cons]
  have ha' : Allowed (after init default hist) kw := by
    intro x hx hc
    exact ha x hx ((C98_keys init hinit default hist x.1).1 hc)
  rw [e, C98_untouched_partial init hinit _ more k hmore, (hinit _ kw).1 ha']
  unfold upd
  rw [asDict_some kw hnd k v hk]; rfl

/-- A call with `xc`, which is rejected, makes all later calls without `xc` fail. -/
theorem C98_poisoned (times4 : V → V) (default : Dict V) (hist more : List (Kwds V)) (bad kw : Kwds V) (x : V)
    (hnd : (bad.map Prod.fst).Nodup) (hk : ("xc".toList, some x) ∈ bad) (ha : Allowed default bad)
    (hmore : ∀ kw ∈ more, ∀ v, ("xc".toList, v) ∉ kw) (hkw : ∀ v, ("xc".toList, v) ∉ kw) :
    ∃ e, (pwscfInit times4 (after (pwscfInit times4) default (hist ++ bad :: more)) kw).2 = .error e := by
  have h := C98_history (pwscfInit times4) (pwscf_updates times4) default hist more bad hnd _ _ hk ha hmore
  set cls := after (pwscfInit times4) default (hist ++ bad :: more)
  unfold pwscfInit initParams
  by_cases hall : kw.any (fun e => (cls e.1).isNone) = true
  · rw [if_pos hall]; exact ⟨_, rfl⟩
  · rw [if_neg hall]
    have hx : attr (upd cls (asDict kw)) "xc" = some x := by
      unfold attr upd
      rw [asDict_none kw _ hkw, h]; rfl
    simp only [hx, Option.isSome_some, if_true]
    split
    · exact ⟨_, rfl⟩
    · exact ⟨_, rfl⟩

/-- Some of the default settings of `Pwscf`. -/
def exDefault : Dict Int := asDict [("ecutwfc".toList, some 80), ("ecutrho".toList, none), ("kpts".toList, some 5), ("smearing".toList, none),
  ("xc".toList, none), ("pp".toList, none), ("pseudo_dir".toList, none), ("outdir".toList, none)]

/-- The settings which a user has to give. -/
def exKw : Kwds Int := [("pp".toList, some 1), ("pseudo_dir".toList, some 2), ("outdir".toList, some 3)]

/-- What the constructor gives for a key. -/
def exAttr (hist : List (Kwds Int)) (kw : Kwds Int) (k : String) : Option Int :=
  match (pwscfInit (4 * ·) (after (pwscfInit (4 * ·)) exDefault hist) kw).2 with
  | .error _ => some (-1)
  | .ok d => attr d k

/-- The same call gives `ecutrho = 4*ecutwfc = 320`, but 200 after another object was created with 200; and it fails (`-1` here) after a call
with `xc` was rejected. -/
theorem C98_counterexample :
    exAttr [] exKw "ecutrho" = some 320 ∧ exAttr [("ecutrho".toList, some 200) :: exKw] exKw "ecutrho" = some 200 ∧
    exAttr [("xc".toList, some 7) :: exKw] exKw "ecutrho" = some (-1) := by
  decide +kernel

example : Allowed exDefault exKw ∧ (exKw.map Prod.fst).Nodup := by
  constructor
  · intro e he
    simp only [exKw, List.mem_cons, List.not_mem_nil, or_false] at he
    rcases he with h | h | h
    · rw [h]; decide +kernel
    · rw [h]; decide +kernel
    · rw [h]; decide +kernel
  · decide +kernel

/-! ## C99 -/

/-- **C99** A text `pp`: every species gets the file `<species>.<pp>`. -/
theorem C99_string (s : Text) (syms : List Text) :
    ∃ ps, pseudos (.str s) syms = .ok ps ∧ List.Forall₂ (fun sym p => p = sym ++ '.' :: s) syms ps := by
  refine ⟨_, rfl, ?_⟩
  induction syms with
  | nil => exact .nil
  | cons a l ih => exact .cons (by simp) ih

theorem prefix_dot (s t rest : Text) (hs : '.' ∉ s) (h : s <+: t ++ '.' :: rest) : s <+: t := by
  by_cases hl : s.length ≤ t.length
  · exact List.prefix_of_prefix_length_le h (List.prefix_append t _) hl
  · exfalso
    have h2 : t ++ ['.'] <+: t ++ '.' :: rest := ⟨rest, by simp⟩
    have h3 := List.prefix_of_prefix_length_le h2 h (by simp; omega)
    exact hs (h3.subset (by simp))

/-- **C99** A list `pp` (where it holds): if every file belongs to one of the species, and no symbol is the beginning of another one, then
every species gets its own file, in the order of the species. Missing: symbols like C and Ca, see `C99_counterexample`. -/
theorem C99_list_partial (l syms : List Text) (hlen : l.length = syms.length) (hdot : ∀ s ∈ syms, '.' ∉ s)
    (hown : ∀ s ∈ syms, ∃ p ∈ l, IsPseudoOf s p) (hof : ∀ p ∈ l, ∃ s ∈ syms, IsPseudoOf s p)
    (hpre : ∀ s ∈ syms, ∀ t ∈ syms, s <+: t → s = t) :
    ∃ ps, pseudos (.lst l) syms = .ok ps ∧ List.Forall₂ (fun sym p => p ∈ l ∧ IsPseudoOf sym p) syms ps := by
  have key : ∀ us : List Text, (∀ u ∈ us, u ∈ syms) →
      List.Forall₂ (fun sym p => p ∈ l ∧ IsPseudoOf sym p) us (us.filterMap fun sym => l.find? fun ppi => sym.isPrefixOf ppi) := by
    intro us
    induction us with
    | nil => intro _; exact .nil
    | cons u us ih =>
      intro hu
      obtain ⟨p, hp, rest, hr⟩ := hown u (hu u (by simp))
      obtain ⟨q, hq⟩ : ∃ q, l.find? (fun ppi => u.isPrefixOf ppi) = some q := by
        cases hf : l.find? (fun ppi => u.isPrefixOf ppi) with
        | some q => exact ⟨q, rfl⟩
        | none =>
          rw [List.find?_eq_none] at hf
          exact absurd (List.isPrefixOf_iff_prefix.2 ⟨_, hr.symm⟩) (hf p hp)
      rw [List.filterMap_cons, hq]
      refine .cons ⟨List.mem_of_find?_eq_some hq, ?_⟩ (ih fun v hv => hu v (by simp [hv]))
      obtain ⟨t, ht, r, hr'⟩ := hof q (List.mem_of_find?_eq_some hq)
      have h1 : u <+: q := List.isPrefixOf_iff_prefix.1 (List.find?_some hq)
      rw [hr'] at h1
      rw [hpre u (hu u (by simp)) t ht (prefix_dot u t r (hdot u (hu u (by simp))) h1)]
      exact ⟨r, hr'⟩
  have h := key syms fun _ h => h
  refine ⟨_, ?_, h⟩
  unfold pseudos
  simp only [hlen, ne_eq, not_true_eq_false, if_false]
  rw [if_neg (by rw [← h.length_eq]; simp)]

theorem filterMap_full {A B : Type} (f : A → Option B) (l : List A) (h : (l.filterMap f).length = l.length) :
    List.Forall₂ (fun a b => f a = some b) l (l.filterMap f) := by
  induction l with
  | nil => exact .nil
  | cons a l ih =>
    rw [List.filterMap_cons] at *
    cases hf : f a with
    | none =>
      rw [hf] at h
      have := List.length_filterMap_le f l
      simp only [List.length_cons] at h
      omega
    | some b =>
      rw [hf] at h
      exact .cons hf (ih (by simpa using h))

/-- **C99** Whenever a list of files is accepted, there is one file of the list for every species, and its name begins with the symbol. -/
theorem C99_accepted (l syms ps : List Text) (h : pseudos (.lst l) syms = .ok ps) :
    List.Forall₂ (fun sym p => p ∈ l ∧ sym <+: p) syms ps := by
  unfold pseudos at h
  simp only at h
  split at h
  · cases h
  · split at h
    · cases h
    · rename_i h1
      simp only [Except.ok.injEq] at h
      subst h
      refine (filterMap_full _ _ (by simpa using h1)).imp fun s p hs => ?_
      exact ⟨List.mem_of_find?_eq_some hs, List.isPrefixOf_iff_prefix.1 (List.find?_some hs)⟩

/-- **C99** is false for lists: with species C and Ca and the files `["Ca.UPF", "C.UPF"]`, carbon gets the file of calcium, and there is no
error. -/
theorem C99_counterexample :
    pseudos (.lst ["Ca.UPF".toList, "C.UPF".toList]) ["C".toList, "Ca".toList] = .ok ["Ca.UPF".toList, "Ca.UPF".toList] := by
  decide +kernel

/-- Al and N, files in another order. -/
theorem ex99 : pseudos (.lst ["N.UPF".toList, "Al.UPF".toList]) ["Al".toList, "N".toList] = .ok ["Al.UPF".toList, "N.UPF".toList] := by
  decide +kernel

theorem field_eq (env : Text → Option Text) (val key : Text) (hk : '}' ∉ key ∧ '{' ∉ key) (pre : Text)
    (he : env (pre.reverse ++ key) = some val) (rest : Text) :
    pyFormat env (some pre) (key ++ '}' :: rest) = (pyFormat env none rest).map (val ++ ·) := by
  induction key generalizing pre with
  | nil =>
    rw [List.append_nil] at he
    rw [List.nil_append, pyFormat, if_pos rfl, he]
    cases pyFormat env none rest <;> rfl
  | cons c key ih =>
    simp only [List.mem_cons, not_or] at hk
    rw [List.cons_append, pyFormat, if_neg (Ne.symm hk.1.1), if_neg (Ne.symm hk.2.1)]
    exact ih ⟨hk.1.2, hk.2.2⟩ (c :: pre) (by simpa using he)

theorem lit_eq (env : Text → Option Text) (t : Text) (ht : '}' ∉ t ∧ '{' ∉ t) (rest : Text) :
    pyFormat env none (t ++ rest) = (pyFormat env none rest).map (t ++ ·) := by
  induction t with
  | nil => simp
  | cons c t ih =>
    simp only [List.mem_cons, not_or] at ht
    rw [List.cons_append, pyFormat, if_neg (Ne.symm ht.2.1), if_neg (Ne.symm ht.1.1), ih ⟨ht.1.2, ht.2.2⟩, Option.map_map]
    rfl

/-- **C99** The input file is the template with every field replaced by its value: once and at the same time, so braces within the values
(e.g. of `pair_coeff`) do not matter. -/
theorem C99_template (env : Text → Option Text) (val : Text → Text) (ps : List Piece)
    (hlit : ∀ t, Piece.lit t ∈ ps → '}' ∉ t ∧ '{' ∉ t) (hfield : ∀ k, Piece.field k ∈ ps → ('}' ∉ k ∧ '{' ∉ k) ∧ env k = some (val k)) :
    pyFormat env none (templText ps) = some (filledText val ps) := by
  induction ps with
  | nil => rfl
  | cons p ps ih =>
    have ih' := ih (fun t h => hlit t (by simp [h])) (fun k h => hfield k (by simp [h]))
    unfold templText filledText at *
    rw [List.flatMap_cons, List.flatMap_cons]
    cases p with
    | lit t =>
      simp only
      rw [lit_eq env t (hlit t (by simp)), ih']
      rfl
    | field k =>
      obtain ⟨hk, he⟩ := hfield k (by simp)
      simp only [List.cons_append, List.append_assoc, List.nil_append]
      rw [pyFormat, if_pos rfl, field_eq env (val k) k hk [] (by simpa using he), ih']
      rfl

/-- **C99** An unknown field is an error. -/
theorem C99_template_error (env : Text → Option Text) (k : Text) (hk : '}' ∉ k ∧ '{' ∉ k) (he : env k = none) (t rest : Text)
    (ht : '}' ∉ t ∧ '{' ∉ t) : pyFormat env none (t ++ '{' :: k ++ '}' :: rest) = none := by
  have h : ∀ (key pre : Text), '}' ∉ key ∧ '{' ∉ key → env (pre.reverse ++ key) = none →
      pyFormat env (some pre) (key ++ '}' :: rest) = none := by
    intro key
    induction key with
    | nil =>
      intro pre _ he
      rw [List.append_nil] at he
      rw [List.nil_append, pyFormat, if_pos rfl, he]
    | cons c key ih =>
      intro pre hk he
      simp only [List.mem_cons, not_or] at hk
      rw [List.cons_append, pyFormat, if_neg (Ne.symm hk.1.1), if_neg (Ne.symm hk.2.1)]
      exact ih (c :: pre) ⟨hk.1.2, hk.2.2⟩ (by simpa using he)
  rw [List.append_assoc, lit_eq env t ht, List.cons_append, pyFormat, if_pos rfl, h k [] hk (by simpa using he)]
  rfl

/-- **C99** A field which is not closed, and a closing brace outside of a field, are errors. -/
theorem C99_template_unclosed (env : Text → Option Text) (k t rest : Text) (hk : '}' ∉ k) (ht : '}' ∉ t ∧ '{' ∉ t) :
    pyFormat env none (t ++ '{' :: k) = none ∧ pyFormat env none (t ++ '}' :: rest) = none := by
  have h : ∀ (key pre : Text), '}' ∉ key → pyFormat env (some pre) key = none := by
    intro key
    induction key with
    | nil => intro pre _; rfl
    | cons c key ih =>
      intro pre hk
      simp only [List.mem_cons, not_or] at hk
      rw [pyFormat, if_neg (Ne.symm hk.1)]
      by_cases hc : c = '{'
      · rw [if_pos hc]
      · rw [if_neg hc, ih _ hk.2]
  constructor
  · rw [lit_eq env t ht, pyFormat, if_pos rfl, h k [] hk]; rfl
  · rw [lit_eq env t ht, pyFormat, if_neg (by decide), if_pos rfl]; rfl

example : pyFormat (fun k => if k = "kpts".toList then some "{x}".toList else none) none "K {kpts} 0".toList = some "K {x} 0".toList := by
  decide +kernel

/-- **C99** The stress for ASE: Voigt order xx, yy, zz, yz, xz, xy, the sign of all components is changed, and so is the sign of the pressure. -/
theorem C99_stress (c : ℝ) (s : Fin 3 → Fin 3 → ℝ) :
    (stressAse c s 0 = -s 0 0 / c ∧ stressAse c s 1 = -s 1 1 / c ∧ stressAse c s 2 = -s 2 2 / c ∧ stressAse c s 3 = -s 1 2 / c ∧
      stressAse c s 4 = -s 0 2 / c ∧ stressAse c s 5 = -s 0 1 / c) ∧
    (stressAse c s 0 + stressAse c s 1 + stressAse c s 2) / 3 = -((s 0 0 + s 1 1 + s 2 2) / 3) / c := by
  refine ⟨⟨rfl, rfl, rfl, rfl, rfl, rfl⟩, ?_⟩
  show (-s 0 0 / c + -s 1 1 / c + -s 2 2 / c) / 3 = _
  ring

end Pwtools.Calc
