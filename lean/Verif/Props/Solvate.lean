import Verif.Spec.Solvate
/-!
# C178: `solvate.sh`
-/
namespace Pwtools.Solv
open Pwtools.Spec

variable {C : Type}

theorem hasSub_iff (p s : List Char) : hasSub p s = true ↔ p <:+: s := by
  induction s with
  | nil => simp [hasSub]
  | cons c s ih =>
    unfold hasSub
    rw [Bool.or_eq_true, ih, List.isPrefixOf_iff_prefix, List.infix_cons_iff]

theorem isRemoved_iff (f : Name) : isRemoved f = true ↔ LogOrBackup f := by
  unfold isRemoved LogOrBackup
  simp only [Bool.or_eq_true, Bool.and_eq_true, Bool.not_eq_true', List.isSuffixOf_iff_suffix, List.isPrefixOf_iff_prefix]
  rw [← Bool.not_eq_true, List.isPrefixOf_iff_prefix]

theorem removeFirst_pdb (name : Name) (h : ¬ ".pdb".toList <:+: name) : removeFirst ".pdb".toList (name ++ ".pdb".toList) = name := by
  induction name with
  | nil => decide
  | cons c s ih =>
    have hs : ¬ ".pdb".toList <:+: s := fun hh => h (List.infix_cons_iff.2 (.inr hh))
    show removeFirst _ (c :: (s ++ _)) = _
    unfold removeFirst
    rw [if_neg, ih hs]
    rw [List.isPrefixOf_iff_prefix]
    intro hp
    rcases s with _ | ⟨c1, _ | ⟨c2, _ | ⟨c3, s⟩⟩⟩
    · have : ".pdb".toList = ['.', 'p', 'd', 'b'] := by decide
      simp [this, List.cons_prefix_cons] at hp
    · have : ".pdb".toList = ['.', 'p', 'd', 'b'] := by decide
      simp [this, List.cons_prefix_cons] at hp
    · have : ".pdb".toList = ['.', 'p', 'd', 'b'] := by decide
      simp [this, List.cons_prefix_cons] at hp
    · apply h
      have : ".pdb".toList = ['.', 'p', 'd', 'b'] := by decide
      rw [this] at hp ⊢
      simp only [List.cons_append, List.cons_prefix_cons, List.nil_prefix, and_true] at hp
      obtain ⟨rfl, rfl, rfl, rfl⟩ := hp
      exact ⟨[], s, rfl⟩

variable (P : Progs C)

/-- **C178** (help). Without arguments, or with an argument which contains `-h`, nothing is changed. -/
theorem C178_usage (args : List Name) (d : Dir C) (h : args = [] ∨ ¬ NoHelp args) : (solvate P args d).1 ≠ .done ∧ (solvate P args d).2 = d := by
  rcases h with rfl | h
  · simp [solvate]
  · unfold NoHelp at h
    rw [Classical.not_not] at h
    rcases args with _ | ⟨a, opts⟩
    · simp [solvate]
    · have : hasSub "-h".toList (joinArgs (a :: opts)) = true := (hasSub_iff _ _).2 h
      unfold solvate
      dsimp only
      rw [this]
      simp

/-- The directory when gmx is started. -/
def prepared (given : Bool) (d : Dir C) : Dir C :=
  Dir.set (fun f => if isRemoved f then none else (if given then d else d.set "water.pdb".toList (some P.water)) f) "solvate.sh.log".toList (some P.log)

/-- The options of gmx. -/
def allOpts (given : Bool) (opts : List Name) : List Name := if given then opts else opts ++ ["-ci".toList, "water.pdb".toList]

/-- The three programs. -/
def pipe (name : Name) (opts : List Name) (d : Dir C) : Dir C :=
  let d1 := match P.gmx opts (d (name ++ ".pdb".toList)) ((ciFile opts).bind d) with
    | some c => d.set (name ++ "_gmx.pdb".toList) (some c)
    | none => d
  let d2 := match (d1 (name ++ "_gmx.pdb".toList)).bind P.pdb2cif with
    | some c => d1.set (name ++ "_gmx.cif".toList) (some c)
    | none => d1
  match (d2 (name ++ "_gmx.cif".toList)).bind P.cif2any with
  | some c => d2.set (name ++ "_gmx.cif".toList ++ ".txt".toList) (some c)
  | none => d2.set (name ++ "_gmx.cif".toList ++ ".txt".toList) (some P.empty)

/-- The last step. -/
def noBackups (d : Dir C) : Dir C := fun f => if "#".toList.isPrefixOf f then none else d f

theorem noBackups_ne (d : Dir C) (f : Name) (h : ¬ "#".toList <+: f) : noBackups d f = d f := by
  unfold noBackups
  rw [if_neg (by rw [List.isPrefixOf_iff_prefix]; exact h)]

theorem not_hash_append (name : Name) (c : Char) (x : List Char) (h : ¬ "#".toList <+: name) (hc : c ≠ '#') : ¬ "#".toList <+: name ++ c :: x := by
  have e : "#".toList = ['#'] := by decide
  rw [e] at h ⊢
  rcases name with _ | ⟨b, s⟩
  · simpa [List.cons_prefix_cons] using fun h => hc h.symm
  · simpa [List.cons_prefix_cons] using h

theorem map_outputs (name : Name) (d : Dir C) (h : ¬ "#".toList <+: name) : (outputs name).map (noBackups d) = (outputs name).map d := by
  have q : ∀ x : String, ∀ c l, x.toList = c :: l → c ≠ '#' → noBackups d (name ++ x.toList) = d (name ++ x.toList) := by
    intro x c l hx hc
    rw [hx]
    exact noBackups_ne _ _ (not_hash_append name c l h hc)
  simp only [outputs, List.map_cons, List.map_nil]
  rw [q "_gmx.pdb" '_' "gmx.pdb".toList (by decide) (by decide), q "_gmx.cif" '_' "gmx.cif".toList (by decide) (by decide),
    q "_gmx.cif.txt" '_' "gmx.cif.txt".toList (by decide) (by decide)]

open Classical in
theorem solvate_eq (a name : Name) (opts : List Name) (d : Dir C) (hn : PdbName a name) (hh : NoHelp (a :: opts)) :
    solvate P (a :: opts) d = (.done, noBackups
      (pipe P name (allOpts (decide (GivesCi (a :: opts))) opts) (prepared P (decide (GivesCi (a :: opts))) d))) := by
  have h1 : hasSub "-h".toList (joinArgs (a :: opts)) = false := by
    rw [← Bool.not_eq_true, hasSub_iff]; exact hh
  have h2 : hasSub "--help".toList (joinArgs (a :: opts)) = false := by
    rw [← Bool.not_eq_true, hasSub_iff]
    intro hc
    apply hh
    exact List.IsInfix.trans ⟨"-".toList, "elp".toList, by decide⟩ hc
  have h3 : hasSub "-ci ".toList (joinArgs (a :: opts)) = decide (GivesCi (a :: opts)) := by
    rw [Bool.eq_iff_iff, hasSub_iff, decide_eq_true_iff]; rfl
  have h4 : removeFirst ".pdb".toList a = name := by rw [hn.1]; exact removeFirst_pdb name hn.2
  unfold solvate
  dsimp only
  rw [h1, h2, h3, h4]
  rfl

theorem set_ne (d : Dir C) (f g : Name) (c : Option C) (h : g ≠ f) : d.set f c g = d g := by simp [Dir.set, h]
theorem set_eq (d : Dir C) (f : Name) (c : Option C) : d.set f c f = c := by simp [Dir.set]

theorem cif_txt (name : Name) : name ++ "_gmx.cif".toList ++ ".txt".toList = name ++ "_gmx.cif.txt".toList := by
  rw [List.append_assoc]; rfl

theorem pipe_frame (name : Name) (opts : List Name) (d : Dir C) (f : Name) (hf : f ∉ outputs name) : pipe P name opts d f = d f := by
  simp only [outputs, List.mem_cons, List.not_mem_nil, or_false, not_or] at hf
  obtain ⟨h1, h2, h3⟩ := hf
  unfold pipe
  have e1 : ∀ o : Option C, (match o with | some c => d.set (name ++ "_gmx.pdb".toList) (some c) | none => d) f = d f := by
    intro o; cases o
    · rfl
    · exact set_ne _ _ _ _ h1
  have e2 : ∀ (o : Option C) (d1 : Dir C), (match o with | some c => d1.set (name ++ "_gmx.cif".toList) (some c) | none => d1) f = d1 f := by
    intro o d1; cases o
    · rfl
    · exact set_ne _ _ _ _ h2
  have e3 : ∀ (o : Option C) (d1 : Dir C), (match o with
      | some c => d1.set (name ++ "_gmx.cif.txt".toList) (some c)
      | none => d1.set (name ++ "_gmx.cif.txt".toList) (some P.empty)) f = d1 f := by
    intro o d1; cases o <;> exact set_ne _ _ _ _ h3
  rw [cif_txt, e3, e2, e1]

theorem pipe_ok (name : Name) (opts : List Name) (d : Dir C) (g c t : C)
    (h : pipeline P opts (d (name ++ ".pdb".toList)) ((ciFile opts).bind d) = some (g, c, t)) :
    pipe P name opts d (name ++ "_gmx.pdb".toList) = some g ∧ pipe P name opts d (name ++ "_gmx.cif".toList) = some c ∧
    pipe P name opts d (name ++ "_gmx.cif.txt".toList) = some t := by
  unfold pipeline at h
  cases hg : P.gmx opts (d (name ++ ".pdb".toList)) ((ciFile opts).bind d) with
  | none => rw [hg] at h; simp at h
  | some g' =>
    rw [hg] at h
    dsimp only at h
    cases hc : P.pdb2cif g' with
    | none => rw [hc] at h; simp at h
    | some c' =>
      rw [hc] at h
      dsimp only at h
      cases ht : P.cif2any c' with
      | none => rw [ht] at h; simp at h
      | some t' =>
        rw [ht] at h
        simp only [Option.map_some, Option.some.injEq, Prod.mk.injEq] at h
        obtain ⟨rfl, rfl, rfl⟩ := h
        have n1 : name ++ "_gmx.pdb".toList ≠ name ++ "_gmx.cif".toList := by
          intro h; exact absurd (List.append_cancel_left h) (by decide)
        have n2 : name ++ "_gmx.pdb".toList ≠ name ++ "_gmx.cif.txt".toList := by
          intro h; exact absurd (List.append_cancel_left h) (by decide)
        have n3 : name ++ "_gmx.cif".toList ≠ name ++ "_gmx.cif.txt".toList := by
          intro h; exact absurd (List.append_cancel_left h) (by decide)
        have e : pipe P name opts d = ((d.set (name ++ "_gmx.pdb".toList) (some g')).set (name ++ "_gmx.cif".toList) (some c')).set
            (name ++ "_gmx.cif.txt".toList) (some t') := by
          unfold pipe
          dsimp only
          rw [hg, cif_txt]
          dsimp only
          rw [set_eq, Option.bind_some, hc]
          dsimp only
          rw [set_eq, Option.bind_some, ht]
        rw [e]
        refine ⟨?_, ?_, set_eq _ _ _⟩
        · rw [set_ne _ _ _ _ n2, set_ne _ _ _ _ n1, set_eq]
        · rw [set_ne _ _ _ _ n3, set_eq]

theorem prepared_frame (given : Bool) (d : Dir C) (f : Name) (h1 : ¬ LogOrBackup f) (h2 : given = false → f ≠ "water.pdb".toList) :
    prepared P given d f = d f := by
  have hl : f ≠ "solvate.sh.log".toList := by
    rintro rfl
    exact h1 (.inl ⟨⟨"solvate.sh".toList, by decide⟩, by decide⟩)
  unfold prepared
  rw [set_ne _ _ _ _ hl]
  have : isRemoved f = false := by rw [← Bool.not_eq_true, isRemoved_iff]; exact h1
  rw [this]
  cases given
  · exact set_ne _ _ _ _ (h2 rfl)
  · rfl

theorem prepared_water (d : Dir C) : prepared P false d "water.pdb".toList = some P.water := by
  unfold prepared
  rw [set_ne _ _ _ _ (by decide)]
  have : isRemoved "water.pdb".toList = false := by decide
  rw [this]
  show d.set "water.pdb".toList (some P.water) "water.pdb".toList = _
  exact set_eq _ _ _

/-- **C178** (other files; the full claim is that all files but the three outputs and the log of the script stay). All files which are not
outputs, not logs or backups, and (without `-ci`) not called `water.pdb`, are as before. -/
theorem C178_frame_partial (a name : Name) (opts : List Name) (d : Dir C) (hn : PdbName a name) (hh : NoHelp (a :: opts))
    (f : Name) (h1 : f ∉ outputs name) (h2 : ¬ LogOrBackup f) (h3 : ¬ GivesCi (a :: opts) → f ≠ "water.pdb".toList) :
    (solvate P (a :: opts) d).2 f = d f := by
  classical
  rw [solvate_eq P a name opts d hn hh]
  show noBackups (pipe P name _ _) f = d f
  rw [noBackups_ne _ _ (fun h => h2 (.inr h)), pipe_frame P name _ _ f h1, prepared_frame P _ d f h2 (fun h => h3 (by simpa using h))]

theorem pdb_not_output (name : Name) : name ++ ".pdb".toList ∉ outputs name := by
  simp only [outputs, List.mem_cons, List.not_mem_nil, or_false, not_or]
  refine ⟨?_, ?_, ?_⟩ <;> (intro h; exact absurd (List.append_cancel_left h) (by decide))

theorem pdb_not_log (name : Name) (h : ¬ "#".toList <+: name) : ¬ LogOrBackup (name ++ ".pdb".toList) := by
  rintro (⟨h1, _⟩ | h1)
  · obtain ⟨t, ht⟩ := h1
    have := congrArg List.reverse ht
    simp only [List.reverse_append] at this
    have e1 : ".log".toList.reverse = ['g', 'o', 'l', '.'] := by decide
    have e2 : ".pdb".toList.reverse = ['b', 'd', 'p', '.'] := by decide
    rw [e1, e2] at this
    simp at this
  · rcases name with _ | ⟨c, s⟩
    · revert h1; decide
    · apply h
      have e : "#".toList = ['#'] := by decide
      rw [e] at h1 ⊢
      simpa [List.cons_prefix_cons] using h1

/-- **C178** (input). The input file itself stays, unless it is called `water.pdb` and there is no `-ci`, or begins with `#`. -/
theorem C178_input (a name : Name) (opts : List Name) (d : Dir C) (hn : PdbName a name) (hh : NoHelp (a :: opts))
    (h1 : ¬ "#".toList <+: name) (h2 : ¬ GivesCi (a :: opts) → a ≠ "water.pdb".toList) : (solvate P (a :: opts) d).2 a = d a := by
  apply C178_frame_partial P a name opts d hn hh a
  · rw [hn.1]; exact pdb_not_output name
  · rw [hn.1]; exact pdb_not_log name h1
  · exact h2

theorem givesCi_of_ciFile (a : Name) (l : List Name) (m : Name) (h : ciFile l = some m) : GivesCi (a :: l) := by
  induction l generalizing a with
  | nil => simp [ciFile] at h
  | cons o l ih =>
    have hsuf : ∀ (b : Name) (x : List Name), x ≠ [] → joinArgs x <:+ joinArgs (b :: x) := by
      intro b x hx
      rcases x with _ | ⟨y, x⟩
      · exact absurd rfl hx
      · exact ⟨b ++ [' '], by simp [joinArgs]⟩
    rcases l with _ | ⟨p, l⟩
    · simp [ciFile] at h
    · refine List.IsInfix.trans ?_ (hsuf a _ (by simp)).isInfix
      unfold ciFile at h
      split at h
      · rename_i ho
        refine ⟨[], joinArgs (p :: l), ?_⟩
        rw [ho]
        show [] ++ "-ci ".toList ++ _ = "-ci".toList ++ ' ' :: _
        have : "-ci ".toList = "-ci".toList ++ [' '] := by decide
        rw [this]
        simp
      · exact ih o h

/-- **C178** (results). `solvate.sh foo.pdb [options]`: the three files have what the three programs make, one after the other, of the file
`foo.pdb` and the molecule of the option `-ci`, which is water if there is no such option; all options are passed on. -/
theorem C178_results (a name : Name) (opts : List Name) (d : Dir C) (hn : PdbName a name) (hh : NoHelp (a :: opts))
    (h1 : ¬ "#".toList <+: name) (g c t : C) :
    (GivesCi (a :: opts) → ∀ m, ciFile opts = some m → ¬ LogOrBackup m → pipeline P opts (d a) (d m) = some (g, c, t) →
      (outputs name).map (solvate P (a :: opts) d).2 = [some g, some c, some t]) ∧
    (¬ GivesCi (a :: opts) → a ≠ "water.pdb".toList → opts.getLast? ≠ some "-ci".toList →
      pipeline P (opts ++ ["-ci".toList, "water.pdb".toList]) (d a) (some P.water) = some (g, c, t) →
      (outputs name).map (solvate P (a :: opts) d).2 = [some g, some c, some t]) := by
  classical
  have hlog : ¬ LogOrBackup a := by rw [hn.1]; exact pdb_not_log name h1
  constructor
  · intro hg m hm hmlog hp
    rw [solvate_eq P a name opts d hn hh]
    dsimp only
    rw [map_outputs name _ h1]
    have hd : decide (GivesCi (a :: opts)) = true := decide_eq_true hg
    rw [hd]
    simp only [allOpts, if_true]
    have e1 : prepared P true d (name ++ ".pdb".toList) = d a := by
      rw [← hn.1]; exact prepared_frame P true d a hlog (by simp)
    have e2 : (ciFile opts).bind (prepared P true d) = d m := by
      rw [hm, Option.bind_some]; exact prepared_frame P true d m hmlog (by simp)
    obtain ⟨r1, r2, r3⟩ := pipe_ok P name opts (prepared P true d) g c t (by rw [e1, e2]; exact hp)
    simp only [outputs, List.map_cons, List.map_nil, r1, r2, r3]
  · intro hg hw hlast hp
    have hci : ciFile opts = none := by
      cases hc : ciFile opts with
      | none => rfl
      | some m => exact absurd (givesCi_of_ciFile a opts m hc) hg
    rw [solvate_eq P a name opts d hn hh]
    dsimp only
    rw [map_outputs name _ h1]
    have hd : decide (GivesCi (a :: opts)) = false := decide_eq_false hg
    rw [hd]
    simp only [allOpts, Bool.false_eq_true, if_false]
    have e0 : ∀ l : List Name, ciFile l = none → l.getLast? ≠ some "-ci".toList → ciFile (l ++ ["-ci".toList, "water.pdb".toList]) = some "water.pdb".toList := by
      intro l
      induction l with
      | nil => intro _ _; decide
      | cons o l ih =>
        intro h h'
        rcases l with _ | ⟨p, l⟩
        · have : o ≠ "-ci".toList := by simpa using h'
          show ciFile (o :: "-ci".toList :: ["water.pdb".toList]) = _
          unfold ciFile
          rw [if_neg this]
          decide
        · unfold ciFile at h
          show ciFile (o :: p :: (l ++ ["-ci".toList, "water.pdb".toList])) = _
          unfold ciFile
          split at h
          · simp at h
          · rename_i hne
            rw [if_neg hne]
            exact ih h (by simpa using h')
    have e1 : prepared P false d (name ++ ".pdb".toList) = d a := by
      rw [← hn.1]; exact prepared_frame P false d a hlog (fun _ => hw)
    have e2 : (ciFile (opts ++ ["-ci".toList, "water.pdb".toList])).bind (prepared P false d) = some P.water := by
      rw [e0 opts hci hlast, Option.bind_some]; exact prepared_water P d
    obtain ⟨r1, r2, r3⟩ := pipe_ok P name _ (prepared P false d) g c t (by rw [e1, e2]; exact hp)
    simp only [outputs, List.map_cons, List.map_nil, r1, r2, r3]

/-- **C178** (again). A second run with the same arguments gives the same results. -/
theorem C178_again (a name : Name) (opts : List Name) (d : Dir C) (hn : PdbName a name) (hh : NoHelp (a :: opts))
    (h1 : ¬ "#".toList <+: name) (g c t : C) (hg : GivesCi (a :: opts)) (m : Name) (hm : ciFile opts = some m) (hlog : ¬ LogOrBackup m)
    (hout : m ∉ outputs name) (hp : pipeline P opts (d a) (d m) = some (g, c, t)) :
    (outputs name).map (solvate P (a :: opts) (solvate P (a :: opts) d).2).2 = [some g, some c, some t] := by
  apply (C178_results P a name opts _ hn hh h1 g c t).1 hg m hm hlog
  rw [C178_input P a name opts d hn hh h1 (fun h => absurd hg h),
    C178_frame_partial P a name opts d hn hh m hout hlog (fun h => absurd hg h)]
  exact hp

/-! ## Cases in which the full claims fail -/

/-- Programs on numbers: gmx adds the molecule, the conversions count up. -/
def exP : Progs Nat := ⟨fun _ x m => do return (← x) + (← m), fun n => some (n + 1), fun n => some (n + 2), 100, 0, 7⟩

/-- Non-vacuity: `solvate.sh foo.pdb -nmol 18 -ci x.pdb`. -/
example : PdbName "foo.pdb".toList "foo".toList ∧ NoHelp ["foo.pdb".toList, "-nmol".toList, "18".toList, "-ci".toList, "x.pdb".toList] ∧
    GivesCi ["foo.pdb".toList, "-nmol".toList, "18".toList, "-ci".toList, "x.pdb".toList] ∧
    ciFile ["-nmol".toList, "18".toList, "-ci".toList, "x.pdb".toList] = some "x.pdb".toList ∧
    pipeline exP ["-nmol".toList, "18".toList, "-ci".toList, "x.pdb".toList] (some 1000) (some 5) = some (1005, 1006, 1008) := by
  refine ⟨⟨by decide, ?_⟩, ?_, ?_, by decide, rfl⟩
  · rw [← hasSub_iff]; decide
  · unfold NoHelp; rw [← hasSub_iff]; decide
  · unfold GivesCi; rw [← hasSub_iff]; decide

/-- Without `-ci` an input file called `water.pdb` is overwritten before it is read. -/
theorem C178_water_counterexample : ∃ d : Dir Nat, d "water.pdb".toList = some 1000 ∧
    (solvate exP ["water.pdb".toList] d).2 "water.pdb".toList = some 100 ∧
    (solvate exP ["water.pdb".toList] d).2 "water_gmx.pdb".toList = some 200 :=
  ⟨fun f => if f = "water.pdb".toList then some 1000 else none, by decide, by decide, by decide⟩

/-- Log files of other programs in the directory are deleted. -/
theorem C178_log_counterexample : ∃ d : Dir Nat, d "md.log".toList = some 1 ∧ (solvate exP ["foo.pdb".toList] d).2 "md.log".toList = none :=
  ⟨fun f => if f = "md.log".toList then some 1 else none, by decide, by decide⟩

/-- If gmx fails, the results of an earlier run are converted again as if they belonged to this one. -/
theorem C178_stale_counterexample : ∃ d : Dir Nat, exP.gmx ["-ci".toList, "water.pdb".toList] (d "foo.pdb".toList) (some 100) = none ∧
    (solvate exP ["foo.pdb".toList] d).1 = .done ∧ (solvate exP ["foo.pdb".toList] d).2 "foo_gmx.cif".toList = some 56 :=
  ⟨fun f => if f = "foo_gmx.pdb".toList then some 55 else none, by decide, by decide, by decide⟩

/-- A file whose name contains `-h` is not processed. -/
theorem C178_help_counterexample (d : Dir Nat) : solvate exP ["al-h2o.pdb".toList] d = (.usage, d) := by
  have : hasSub "-h".toList (joinArgs ["al-h2o.pdb".toList]) = true := by decide
  unfold solvate
  dsimp only
  rw [this]
  rfl

end Pwtools.Solv
