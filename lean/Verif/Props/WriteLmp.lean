import Verif.Spec.WriteLmp
import Verif.Props.Common
/-!
# C185: files of structures for LAMMPS
-/
namespace Pwtools.WriteLmp
open Pwtools.Spec

theorem dropWhile_name (f r : Text) (hf : '/' ∉ f) : ((f.reverse ++ r).dropWhile (fun c => c != '/')) = r.dropWhile (fun c => c != '/') := by
  rw [List.dropWhile_append_of_pos]
  intro c hc
  have : c ≠ '/' := fun h => hf (by rw [← h]; simpa using hc)
  simp [this]

theorem dirname_inDir (d f : Text) (hd : DirName d) (hf : PlainName f) : dirname (inDir d f) = d := by
  unfold dirname inDir
  dsimp only
  by_cases h0 : d = []
  · rw [if_pos h0, ← List.append_nil f.reverse, dropWhile_name f [] hf.2, h0]
    rfl
  · rw [if_neg h0]
    by_cases h1 : d = ['/']
    · rw [if_pos h1, List.reverse_cons, dropWhile_name f ['/'] hf.2, h1]
      rfl
    · rw [if_neg h1]
      have hl : d.getLast? ≠ some '/' := hd.resolve_left h1
      have e : (d ++ '/' :: f).reverse = f.reverse ++ ('/' :: d.reverse) := by simp
      have e2 : List.dropWhile (fun c => c != '/') ('/' :: d.reverse) = '/' :: d.reverse := by rw [List.dropWhile_cons]; simp
      rw [e, dropWhile_name f _ hf.2, e2]
      obtain ⟨c, t, hr⟩ : ∃ c t, d.reverse = c :: t := by
        cases h : d.reverse with
        | nil => exact absurd (by simpa using h) h0
        | cons c t => exact ⟨c, t, rfl⟩
      have hc : c ≠ '/' := by
        intro h
        apply hl
        rw [← List.head?_reverse, hr, h]
        rfl
      have hall : (('/' :: d.reverse).reverse).all (fun c => c == '/') = false := by
        rw [List.all_reverse, hr]
        simp [hc]
      rw [hall, if_neg (by simp), List.reverse_reverse, List.dropWhile_cons]
      simp only [beq_self_eq_true, if_true]
      rw [hr, List.dropWhile_cons, if_neg (by simp [hc]), ← hr, List.reverse_reverse]

theorem join_eq (d f : Text) (hd : DirName d) (hf : PlainName f) : join d f = inDir d f := by
  unfold join inDir
  have h1 : f.head? ≠ some '/' := by
    intro h
    cases f with
    | nil => cases h
    | cons c t => simp at h; exact hf.2 (by simp [h])
  rw [if_neg h1]
  by_cases h0 : d = []
  · simp [h0]
  · by_cases h2 : d = ['/']
    · simp [h2]
    · have := hd.resolve_left h2
      simp [h0, h2, this]

theorem inDir_inj (d d' f f' : Text) (hd : DirName d) (hd' : DirName d') (hf : PlainName f) (hf' : PlainName f') (h : inDir d f = inDir d' f') :
    d = d' ∧ f = f' := by
  have e : d = d' := by rw [← dirname_inDir d f hd hf, h, dirname_inDir d' f' hd' hf']
  subst e
  refine ⟨rfl, ?_⟩
  unfold inDir at h
  split_ifs at h
  · exact h
  · simpa using h
  · simpa using h

theorem symbolsName_plain : PlainName symbolsName := by
  constructor <;> decide

theorem run_append (d : Disk) (a b : List (Text × Text)) : run d (a ++ b) = run (run d a) b := by
  unfold run
  rw [List.foldl_append]

theorem run_other (d : Disk) (l : List (Text × Text)) (n : Text) (h : ∀ s ∈ l, s.1 ≠ n) : run d l n = d n := by
  unfold run
  induction l generalizing d with
  | nil => rfl
  | cons s l ih =>
    rw [List.foldl_cons, ih _ (fun x hx => h x (by simp [hx]))]
    rw [if_neg (fun e => h s (by simp) e.symm)]

theorem run_last (d : Disk) (l : List (Text × Text)) (n t : Text) : run d (l ++ [(n, t)]) n = some t := by
  rw [run_append]
  simp [run]

theorem inits_last (t : Text) : ∃ l, t.inits = l ++ [t] := by
  induction t with
  | nil => exact ⟨[], rfl⟩
  | cons c t ih =>
    obtain ⟨l, hl⟩ := ih
    refine ⟨[] :: l.map (List.cons c), ?_⟩
    rw [List.inits_cons, hl]
    simp

theorem write_same (d : Disk) (fn t : Text) : run d (writeSteps fn t) fn = some t := by
  obtain ⟨l, hl⟩ := inits_last t
  unfold writeSteps
  rw [hl, List.map_append]
  exact run_last d _ fn t

theorem write_other (d : Disk) (fn t n : Text) (h : n ≠ fn) : run d (writeSteps fn t) n = d n := by
  apply run_other
  intro s hs
  obtain ⟨_, _, rfl⟩ := List.mem_map.1 hs
  exact fun e => h e.symm

/-- C185: both files have the contents which they should have, the symbols file beside the data file, and all other files are as before. -/
theorem C185_files (d : Disk) (dir f base data : Text) (symbols : List Text) (hd : DirName dir) (hf : PlainName f) (hb : PlainName base) (hne : f ≠ base) :
    run d (writeLammps (inDir dir f) symbols data base) (inDir dir f) = some data ∧
    run d (writeLammps (inDir dir f) symbols data base) (inDir dir base) = some (joinSep ['\n'] symbols) ∧
    ∀ n, n ≠ inDir dir f → n ≠ inDir dir base → run d (writeLammps (inDir dir f) symbols data base) n = d n := by
  have hnb : inDir dir base ≠ inDir dir f := fun h => hne (inDir_inj _ _ _ _ hd hd hb hf h).2.symm
  unfold writeLammps
  dsimp only
  rw [dirname_inDir dir f hd hf, join_eq dir base hd hb]
  refine ⟨?_, ?_, ?_⟩
  · rw [run_append, write_same]
  · rw [run_append, write_other _ _ _ _ hnb, write_same]
  · intro n h1 h2
    rw [run_append, write_other _ _ _ _ h1, write_other _ _ _ _ h2]

theorem read_eq (d : Disk) (dir g : Text) (hd : DirName dir) (hg : PlainName g) : readSymbols d (inDir dir g) = (d (inDir dir symbolsName)).map splitWs := by
  unfold readSymbols
  rw [dirname_inDir dir g hd hg, join_eq dir _ hd symbolsName_plain]

theorem words (s : List Text) (h : GoodSymbols s) : splitWs (joinSep ['\n'] s) = s :=
  splitWs_join ['\n'] (by simp) (by decide) s h

/-- C185: a run whose log is in the directory of the data file gets the symbols of the structure, whatever was on the disk. -/
theorem C185_symbols (d : Disk) (dir f g data : Text) (symbols : List Text) (hd : DirName dir) (hf : PlainName f) (hg : PlainName g)
    (hne : f ≠ symbolsName) (hs : GoodSymbols symbols) :
    readSymbols (run d (writeLammps (inDir dir f) symbols data)) (inDir dir g) = some symbols := by
  rw [read_eq _ dir g hd hg, (C185_files d dir f symbolsName data symbols hd hf symbolsName_plain hne).2.1]
  simp [words symbols hs]

/-- One call of `write_lammps`: directory, name, symbols and text. -/
structure Call where
  dir : Text
  f : Text
  symbols : List Text
  data : Text

/-- All changes made by a history of calls. -/
def history (cs : List Call) : List (Text × Text) := cs.flatMap (fun c => writeLammps (inDir c.dir c.f) c.symbols c.data)

theorem run_skip (d : Disk) (cs : List Call) (dir n : Text) (hd : DirName dir) (hn : PlainName n)
    (hc : ∀ c ∈ cs, DirName c.dir ∧ PlainName c.f ∧ c.f ≠ symbolsName ∧ c.dir ≠ dir) : run d (history cs) (inDir dir n) = d (inDir dir n) := by
  induction cs generalizing d with
  | nil => rfl
  | cons c cs ih =>
    obtain ⟨h1, h2, h3, h4⟩ := hc c (by simp)
    unfold history
    rw [List.flatMap_cons, run_append]
    have := ih (run d (writeLammps (inDir c.dir c.f) c.symbols c.data)) (fun x hx => hc x (by simp [hx]))
    unfold history at this
    rw [this]
    apply (C185_files d c.dir c.f symbolsName c.data c.symbols h1 h2 symbolsName_plain h3).2.2
    · exact fun e => h4 (inDir_inj _ _ _ _ hd h1 hn h2 e).1.symm
    · exact fun e => h4 (inDir_inj _ _ _ _ hd h1 hn symbolsName_plain e).1.symm

/-- C185: after any history of calls, each directory gives the symbols of the structure written last to it. -/
theorem C185_history_partial (d : Disk) (before after : List Call) (c : Call) (g : Text) (hg : PlainName g)
    (hc : DirName c.dir ∧ PlainName c.f ∧ c.f ≠ symbolsName) (hs : GoodSymbols c.symbols)
    (ha : ∀ x ∈ after, DirName x.dir ∧ PlainName x.f ∧ x.f ≠ symbolsName ∧ x.dir ≠ c.dir) :
    readSymbols (run d (history (before ++ c :: after))) (inDir c.dir g) = some c.symbols ∧
    run d (history (before ++ c :: after)) (inDir c.dir c.f) = some c.data := by
  have e : history (before ++ c :: after) = history before ++ (writeLammps (inDir c.dir c.f) c.symbols c.data ++ history after) := by
    simp [history]
  rw [e, run_append, run_append, read_eq _ _ _ hc.1 hg, run_skip _ after c.dir _ hc.1 symbolsName_plain ha, run_skip _ after c.dir _ hc.1 hc.2.1 ha]
  refine ⟨?_, (C185_files _ c.dir c.f symbolsName c.data c.symbols hc.1 hc.2.1 symbolsName_plain hc.2.2).1⟩
  rw [← read_eq _ _ g hc.1 hg]
  exact C185_symbols _ c.dir c.f g c.data c.symbols hc.1 hc.2.1 hg hc.2.2 hs

/-- C185 is false for two structures in one directory: both data files are there, and runs of the first one get the symbols of the second. -/
theorem C185_shared_counterexample (d : Disk) (dir f f' g data data' : Text) (s s' : List Text) (hd : DirName dir) (hf : PlainName f)
    (hf' : PlainName f') (hg : PlainName g) (hne : f ≠ symbolsName) (hne' : f' ≠ symbolsName) (hff : f ≠ f') (hs : GoodSymbols s') (hss : s ≠ s') :
    run d (history [⟨dir, f, s, data⟩, ⟨dir, f', s', data'⟩]) (inDir dir f) = some data ∧
    readSymbols (run d (history [⟨dir, f, s, data⟩, ⟨dir, f', s', data'⟩])) (inDir dir g) ≠ some s := by
  have h := C185_history_partial d [⟨dir, f, s, data⟩] [] ⟨dir, f', s', data'⟩ g hg ⟨hd, hf', hne'⟩ hs (by simp)
  refine ⟨?_, ?_⟩
  · simp only [history, List.flatMap_cons, List.flatMap_nil, List.append_nil]
    rw [run_append, (C185_files _ dir f' symbolsName data' s' hd hf' symbolsName_plain hne').2.2 _
      (fun e => hff (inDir_inj _ _ _ _ hd hd hf hf' e).2) (fun e => hne (inDir_inj _ _ _ _ hd hd hf symbolsName_plain e).2)]
    exact (C185_files d dir f symbolsName data s hd hf symbolsName_plain hne).1
  · rw [show ([⟨dir, f, s, data⟩, ⟨dir, f', s', data'⟩] : List Call) = [⟨dir, f, s, data⟩] ++ [⟨dir, f', s', data'⟩] from rfl, h.1]
    exact fun e => hss (Option.some.inj e).symm

/-- C185: the symbols are complete before the data file is touched: wherever a call is killed, the data file is as before or the symbols are those of
the structure. -/
theorem C185_killed (d : Disk) (dir f g data : Text) (symbols : List Text) (hd : DirName dir) (hf : PlainName f) (hg : PlainName g)
    (hne : f ≠ symbolsName) (hs : GoodSymbols symbols) (done rest : List (Text × Text)) (h : writeLammps (inDir dir f) symbols data = done ++ rest) :
    (∀ n, n ≠ inDir dir f → n ≠ inDir dir symbolsName → run d done n = d n) ∧
    (run d done (inDir dir f) = d (inDir dir f) ∨ readSymbols (run d done) (inDir dir g) = some symbols) := by
  have hnb : inDir dir symbolsName ≠ inDir dir f := fun e => hne (inDir_inj _ _ _ _ hd hd symbolsName_plain hf e).2.symm
  have key : ∀ (fn t : Text) (p : List (Text × Text)), p <+: writeSteps fn t → ∀ s ∈ p, s.1 = fn := by
    intro fn t p hp s hs
    obtain ⟨_, _, rfl⟩ := List.mem_map.1 (hp.subset hs)
    rfl
  unfold writeLammps at h
  dsimp only at h
  rw [dirname_inDir dir f hd hf, join_eq dir _ hd symbolsName_plain] at h
  rw [read_eq _ dir g hd hg]
  rcases List.append_eq_append_iff.1 h with ⟨a, h1, h2⟩ | ⟨a, h1, h2⟩
  · have hk := key _ _ a ⟨rest, h2.symm⟩
    rw [h1, run_append]
    refine ⟨fun n n1 n2 => ?_, .inr ?_⟩
    · rw [run_other _ a n (fun s hs e => n1 (by rw [← e, hk s hs])), write_other _ _ _ _ n2]
    · rw [run_other _ a _ (fun s hs e => hnb (by rw [← e, hk s hs])), write_same]
      simp [words symbols hs]
  · have hk := key _ _ done ⟨a, h1.symm⟩
    exact ⟨fun n _ n2 => run_other _ _ _ (fun s hs e => n2 (by rw [← e, hk s hs])),
      .inl (run_other _ _ _ (fun s hs e => hnb (by rw [← e, hk s hs]; )))⟩

/-- C185 is false if a call is killed: the symbols file of an earlier call can be empty, and the earlier data file is read with no symbols at all. -/
theorem C185_killed_counterexample (d : Disk) (dir f f' g data data' : Text) (s s' : List Text) (hd : DirName dir) (hf : PlainName f)
    (hf' : PlainName f') (hg : PlainName g) (hne : f ≠ symbolsName) :
    ∃ done rest, writeLammps (inDir dir f') s' data' = done ++ rest ∧
      run (run d (writeLammps (inDir dir f) s data)) done (inDir dir f) = some data ∧
      readSymbols (run (run d (writeLammps (inDir dir f) s data)) done) (inDir dir g) = some [] := by
  have hnb : inDir dir f ≠ inDir dir symbolsName := fun e => hne (inDir_inj _ _ _ _ hd hd hf symbolsName_plain e).2
  have e : ∃ r, (joinSep ['\n'] s').inits = [] :: r := by
    cases joinSep ['\n'] s' with
    | nil => exact ⟨[], rfl⟩
    | cons c t => exact ⟨_, List.inits_cons c t⟩
  obtain ⟨r, hr⟩ := e
  refine ⟨[(inDir dir symbolsName, [])], r.map (fun t => (inDir dir symbolsName, t)) ++ writeSteps (inDir dir f') data', ?_, ?_, ?_⟩
  · unfold writeLammps
    dsimp only
    rw [dirname_inDir dir f' hd hf', join_eq dir _ hd symbolsName_plain]
    conv_lhs => unfold writeSteps
    rw [hr]
    rfl
  · rw [run_other _ _ _ (by intro s hs; simp at hs; rw [hs]; exact hnb.symm)]
    exact (C185_files d dir f symbolsName data s hd hf symbolsName_plain hne).1
  · rw [read_eq _ dir g hd hg]
    simp [run, splitWs, splitWsAux]

/-- C185 is false for a data file with the name of the symbols file: the symbols are lost, runs get the words of the data file. -/
theorem C185_name_counterexample (d : Disk) (dir g data : Text) (s : List Text) (hd : DirName dir) (hg : PlainName g) :
    readSymbols (run d (writeLammps (inDir dir symbolsName) s data)) (inDir dir g) = some (splitWs data) := by
  rw [read_eq _ dir g hd hg]
  unfold writeLammps
  dsimp only
  rw [dirname_inDir dir _ hd symbolsName_plain, join_eq dir _ hd symbolsName_plain, run_append, write_same]
  rfl

/-- A structure in `run/`, read with the log `run/log.lammps`. -/
example : DirName "run".toList ∧ PlainName "lmp.struct".toList ∧ PlainName "log.lammps".toList ∧ "lmp.struct".toList ≠ symbolsName ∧
    GoodSymbols ["Al".toList, "N".toList] ∧ inDir "run".toList "lmp.struct".toList = "run/lmp.struct".toList ∧
    readSymbols (run (fun _ => none) (writeLammps "run/lmp.struct".toList ["Al".toList, "N".toList] "x".toList)) "run/log.lammps".toList =
      some ["Al".toList, "N".toList] := by
  refine ⟨.inr (by decide), ⟨by decide, by decide⟩, ⟨by decide, by decide⟩, by decide, ?_, by decide, by decide⟩
  unfold GoodSymbols
  decide

end Pwtools.WriteLmp
