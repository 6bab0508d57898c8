import Verif.Spec.View
import Mathlib.Tactic.SplitIfs
import Mathlib.Tactic.Set
import Mathlib.Logic.Function.Iterate
import Mathlib.Tactic.DefEqTransformations
import Mathlib.Data.Set.Finite.Lattice
/-!
# Viewers: C170
-/
namespace Pwtools.View
open Pwtools.Spec

variable {D : Type}

theorem setDummy_eq (o : VObj D) : setDummy o = shownObj o := by
  unfold setDummy shownObj
  cases h : o.symbols with
  | none => rfl
  | some l => cases o; simp_all

theorem nameOr_cases (w : World D) (s : St D) (given : Option String) (dir pre suf : String) (s' : St D) (n : String)
    (h : nameOr w s given dir pre suf = (s', .ok n)) :
    (given = some n ∧ s' = s) ∨
    (given = none ∧ w.temp s.fs dir pre suf = some n ∧
      s' = { s with fs := Function.update s.fs n (some ""), fds := s.fds + 1 }) := by
  unfold nameOr at h
  cases given with
  | some m =>
    simp only [Prod.mk.injEq, Except.ok.injEq] at h
    exact Or.inl ⟨by rw [h.2], h.1.symm⟩
  | none =>
    simp only [mkstemp] at h
    split at h
    · simp at h
    · rename_i m hm
      simp only [Prod.mk.injEq, Except.ok.injEq] at h
      refine Or.inr ⟨rfl, ?_, ?_⟩
      · rw [hm, h.2]
      · rw [← h.1, h.2]

theorem finite_update (fs : FS) (n : String) (x : Option String) (h : FiniteFS fs) : FiniteFS (Function.update fs n x) := by
  apply (h.union (Set.finite_singleton n)).subset
  intro m hm
  by_cases hmn : m = n
  · right; exact hmn
  · left
    simp only [Set.mem_ofPred_eq, Function.update_of_ne hmn] at hm
    exact hm

/-- The state when the files have names, and these names. -/
theorem call_names (w : World D) (v : Viewer) (a : Args) (s : St D) (hw : FreshNames w) (hn : TwoNames w a)
    (ha : ¬ (v.assertStruct = true ∧ s.obj.isStruct = false))
    (ht : DirExists w a.tmpdir) (hfin : FiniteFS s.fs) :
    ∃ sf lf fs', call w v a s = callFiles w v a (if a.bg then false else a.wait) (if a.bg then true else a.keepfiles)
        { s with obj := shownObj s.obj, fs := fs',
                 fds := s.fds + (if a.structfile = none then 1 else 0) + (if a.logfile = none then 1 else 0) } sf lf ∧
      (∀ n, a.structfile = some n → sf = n) ∧ (∀ n, a.logfile = some n → lf = n) ∧
      sf ≠ lf ∧
      (a.structfile = none → s.fs sf = none ∧ fs' sf ≠ none) ∧
      (a.logfile = none → s.fs lf = none ∧ fs' lf ≠ none) ∧
      (∀ n, n ≠ sf → n ≠ lf → fs' n = s.fs n) := by
  unfold call
  rw [if_neg ha, setDummy_eq]
  dsimp only
  cases h1 : nameOr w { s with obj := shownObj s.obj } a.structfile a.tmpdir "pwtools_view_struct_" v.suffix with
  | mk s1 r1 =>
    cases r1 with
    | error e =>
      exfalso
      unfold nameOr at h1
      cases hs : a.structfile with
      | some n => rw [hs] at h1; simp at h1
      | none =>
        rw [hs] at h1
        simp only [mkstemp] at h1
        split at h1
        · rename_i h; exact ht _ hfin _ _ h
        · simp at h1
    | ok sf =>
      dsimp only
      cases h2 : nameOr w s1 a.logfile a.tmpdir "pwtools_view_log_" "" with
      | mk s2 r2 =>
        cases r2 with
        | error e =>
          exfalso
          unfold nameOr at h2
          cases hs : a.logfile with
          | some n => rw [hs] at h2; simp at h2
          | none =>
            rw [hs] at h2
            simp only [mkstemp] at h2
            split at h2
            · rename_i h
              refine ht _ ?_ _ _ h
              rcases nameOr_cases _ _ _ _ _ _ _ _ h1 with ⟨_, e1⟩ | ⟨_, _, e1⟩
              · rw [e1]; exact hfin
              · rw [e1]; exact finite_update _ _ _ hfin
            · simp at h2
        | ok lf =>
          dsimp only
          rcases nameOr_cases _ _ _ _ _ _ _ _ h1 with ⟨g1, e1⟩ | ⟨g1, t1, e1⟩ <;>
            rcases nameOr_cases _ _ _ _ _ _ _ _ h2 with ⟨g2, e2⟩ | ⟨g2, t2, e2⟩
          · subst e1 e2
            refine ⟨sf, lf, s.fs, ?_, ?_, ?_, ?_, ?_, ?_, ?_⟩
            · simp [g1, g2]
            · simp [g1]
            · simp [g2]
            · rintro rfl; exact hn.1 _ g1 g2
            · simp [g1]
            · simp [g2]
            · intro n _ _; rfl
          · subst e1 e2
            have f2 := hw _ _ _ _ _ t2
            refine ⟨sf, lf, Function.update s.fs lf (some ""), ?_, ?_, ?_, ?_, ?_, ?_, ?_⟩
            · simp [g1, g2]
            · simp [g1]
            · simp [g2]
            · rintro rfl; exact (hn.2 _ _ _ _ t2).1 g1
            · simp [g1]
            · intro _; exact ⟨f2, by simp⟩
            · intro n _ h; rw [Function.update_of_ne h]
          · subst e1 e2
            have f1 := hw _ _ _ _ _ t1
            refine ⟨sf, lf, Function.update s.fs sf (some ""), ?_, ?_, ?_, ?_, ?_, ?_, ?_⟩
            · simp [g1, g2]
            · simp [g1]
            · simp [g2]
            · rintro rfl; exact (hn.2 _ _ _ _ t1).2 g2
            · intro _; exact ⟨f1, by simp⟩
            · simp [g2]
            · intro n h _; rw [Function.update_of_ne h]
          · subst e1 e2
            have f1 := hw _ _ _ _ _ t1
            have f2 := hw _ _ _ _ _ t2
            have hne : lf ≠ sf := by
              rintro rfl; simp at f2
            have f2' : s.fs lf = none := by simpa [Function.update_of_ne hne] using f2
            refine ⟨sf, lf, Function.update (Function.update s.fs sf (some "")) lf (some ""), ?_, ?_, ?_, ?_, ?_, ?_, ?_⟩
            · simp [g1, g2]
            · simp [g1]
            · simp [g2]
            · exact hne.symm
            · intro _; exact ⟨f1, by rw [Function.update_of_ne hne.symm]; simp⟩
            · intro _; exact ⟨f2', by simp⟩
            · intro n h h'; rw [Function.update_of_ne h', Function.update_of_ne h]

/-- **C170** (normal call). A call with the default `wait=True, bg=False` whose two files have different names runs exactly one
command, the one of the docstring, at a time when the structure file holds the written object. If the command succeeds the
call succeeds; with `keepfiles=False` all files are then as before except that the two files do not exist (so temporary ones
leave no trace, and files of the user's with the given names are gone), with `keepfiles=True` the two files remain. Missing for
the full property: `bg`, failing viewers, open descriptors, symbols, see below. -/
theorem C170_normal_partial (w : World D) (v : Viewer) (a : Args) (s : St D) (hw : FreshNames w) (hn : TwoNames w a)
    (ha : ¬ (v.assertStruct = true ∧ s.obj.isStruct = false)) (ht : DirExists w a.tmpdir) (hfin : FiniteFS s.fs)
    (hbg : a.bg = false) (hwait : a.wait = true) (text : String) (htext : w.write (shownObj s.obj) = some text)
    (hcmd : ∀ sf lf, OnlyWrites w (shellLine v.cmd a.options sf lf a.disp) lf)
    (hok : ∀ sf lf fs, (w.shell (shellLine v.cmd a.options sf lf a.disp) fs).2 = 0) :
    ∃ sf lf fsRun, (∀ n, a.structfile = some n → sf = n) ∧ (∀ n, a.logfile = some n → lf = n) ∧ sf ≠ lf ∧
      (call w v a s).2 = none ∧
      (call w v a s).1.cmds = s.cmds ++ [(shellLine v.cmd a.options sf lf a.disp, fsRun)] ∧ fsRun sf = some text ∧
      (∀ n, n ≠ sf → n ≠ lf → (call w v a s).1.fs n = s.fs n) ∧
      (a.keepfiles = true → (call w v a s).1.fs sf = some text ∧ (call w v a s).1.fs lf ≠ none) ∧
      (a.keepfiles = false → (call w v a s).1.fs sf = none ∧ (call w v a s).1.fs lf = none) ∧
      (a.keepfiles = false → a.structfile = none → a.logfile = none → (call w v a s).1.fs = s.fs) := by
  obtain ⟨sf, lf, fs', h1, h2, h3, h4, h5, h6, h7⟩ := call_names w v a s hw hn ha ht hfin
  set fsR := Function.update fs' sf (some text) with hfsR
  have hfR : fsR sf = some text := by rw [hfsR]; simp
  obtain ⟨q1, q2⟩ := hcmd sf lf fsR
  have hsf : (w.shell (shellLine v.cmd a.options sf lf a.disp) fsR).1 sf = some text := by rw [q1 sf h4, hfR]
  have hres : call w v a s = (⟨if a.keepfiles then (w.shell (shellLine v.cmd a.options sf lf a.disp) fsR).1 else
        Function.update (Function.update (w.shell (shellLine v.cmd a.options sf lf a.disp) fsR).1 sf none) lf none,
      s.fds + (if a.structfile = none then 1 else 0) + (if a.logfile = none then 1 else 0),
      shownObj s.obj, s.cmds ++ [(shellLine v.cmd a.options sf lf a.disp, fsR)]⟩, none) := by
    rw [h1]
    have hc : cmdStr v a.options sf lf a.disp = shellLine v.cmd a.options sf lf a.disp := rfl
    unfold callFiles
    simp only [htext, hbg, hwait, system, hc, hok, ← hfsR]
    simp only [Bool.false_eq_true, Bool.true_eq_false, if_false, if_true]
    by_cases hk : a.keepfiles = true
    · simp only [hk, if_true]
    · simp only [hk]
      simp only [unlink, hsf]
      have : Function.update (w.shell (shellLine v.cmd a.options sf lf a.disp) fsR).1 sf none lf ≠ none := by
        rw [Function.update_of_ne h4.symm]; exact q2
      cases hx : Function.update (w.shell (shellLine v.cmd a.options sf lf a.disp) fsR).1 sf none lf with
      | none => exact absurd hx this
      | some y => simp
  have hout : ∀ n, n ≠ sf → n ≠ lf → (call w v a s).1.fs n = s.fs n := by
    intro n n1 n2
    rw [hres]
    dsimp only
    have : (w.shell (shellLine v.cmd a.options sf lf a.disp) fsR).1 n = s.fs n := by
      rw [q1 n n2, hfsR, Function.update_of_ne n1, h7 n n1 n2]
    split
    · exact this
    · rw [Function.update_of_ne n2, Function.update_of_ne n1, this]
  have hgone : a.keepfiles = false → (call w v a s).1.fs sf = none ∧ (call w v a s).1.fs lf = none := by
    intro hk
    rw [hres]
    dsimp only
    rw [if_neg (by simp [hk])]
    exact ⟨by rw [Function.update_of_ne h4]; simp, by simp⟩
  refine ⟨sf, lf, fsR, h2, h3, h4, by rw [hres], by rw [hres], hfR, hout, ?_, hgone, ?_⟩
  · intro hk
    rw [hres]
    dsimp only
    rw [if_pos hk]
    exact ⟨hsf, q2⟩
  · intro hk g1 g2
    funext n
    by_cases n1 : n = sf
    · rw [n1, (hgone hk).1, (h5 g1).1]
    · by_cases n2 : n = lf
      · rw [n2, (hgone hk).2, (h6 g2).1]
      · exact hout n n1 n2

/-- **C170** (a viewer for structures only). It refuses a trajectory before anything has been written or changed. -/
theorem C170_refuse (w : World D) (v : Viewer) (a : Args) (s : St D) (hv : v.assertStruct = true) (ho : s.obj.isStruct = false) :
    call w v a s = (s, some .assertion) := by
  unfold call
  rw [if_pos ⟨hv, ho⟩]

/-- **C170** fails for `bg=True` (and `wait=False`): no viewer is started, whatever the other arguments; the call fails with
`NotImplementedError` and the structure file, temporary or not, stays behind. -/
theorem C170_bg_counterexample (w : World D) (v : Viewer) (a : Args) (s : St D) (hw : FreshNames w) (hn : TwoNames w a)
    (ha : ¬ (v.assertStruct = true ∧ s.obj.isStruct = false)) (ht : DirExists w a.tmpdir) (hfin : FiniteFS s.fs)
    (hbg : a.bg = true ∨ a.wait = false) (text : String) (htext : w.write (shownObj s.obj) = some text) :
    (call w v a s).2 = some .notImplemented ∧ (call w v a s).1.cmds = s.cmds ∧
      ∃ sf, (a.structfile = none → s.fs sf = none) ∧ (call w v a s).1.fs sf = some text := by
  obtain ⟨sf, lf, fs', h1, h2, h3, h4, h5, h6, h7⟩ := call_names w v a s hw hn ha ht hfin
  have hwt : (if a.bg then false else a.wait) = false := by
    rcases hbg with h | h <;> simp [h]
  have hres : call w v a s = (⟨Function.update fs' sf (some text),
      s.fds + (if a.structfile = none then 1 else 0) + (if a.logfile = none then 1 else 0),
      shownObj s.obj, s.cmds⟩, some .notImplemented) := by
    rw [h1, hwt]
    unfold callFiles
    simp only [htext, system, if_true]
  rw [hres]
  exact ⟨rfl, rfl, sf, fun g => (h5 g).1, by simp⟩

/-- **C170** fails for viewers that end with a non-zero exit code: both temporary files stay behind although
`keepfiles=False`. -/
theorem C170_exit_counterexample (w : World D) (v : Viewer) (a : Args) (s : St D) (hw : FreshNames w) (hn : TwoNames w a)
    (ha : ¬ (v.assertStruct = true ∧ s.obj.isStruct = false)) (ht : DirExists w a.tmpdir) (hfin : FiniteFS s.fs)
    (hbg : a.bg = false) (hwait : a.wait = true) (text : String) (htext : w.write (shownObj s.obj) = some text)
    (hf : a.structfile = none ∧ a.logfile = none)
    (hcmd : ∀ sf lf, OnlyWrites w (shellLine v.cmd a.options sf lf a.disp) lf)
    (hbad : ∀ sf lf fs, (w.shell (shellLine v.cmd a.options sf lf a.disp) fs).2 ≠ 0) :
    (call w v a s).2 = some .calledProcess ∧ ∃ sf lf, sf ≠ lf ∧ s.fs sf = none ∧ s.fs lf = none ∧
      (call w v a s).1.fs sf = some text ∧ (call w v a s).1.fs lf ≠ none := by
  obtain ⟨sf, lf, fs', h1, h2, h3, h4, h5, h6, h7⟩ := call_names w v a s hw hn ha ht hfin
  set fsR := Function.update fs' sf (some text) with hfsR
  obtain ⟨q1, q2⟩ := hcmd sf lf fsR
  have hres : (call w v a s).2 = some .calledProcess ∧
      (call w v a s).1.fs = (w.shell (shellLine v.cmd a.options sf lf a.disp) fsR).1 := by
    rw [h1]
    have hc : cmdStr v a.options sf lf a.disp = shellLine v.cmd a.options sf lf a.disp := rfl
    unfold callFiles
    simp only [htext, hbg, hwait, system, hc, hbad, ← hfsR]
    simp
  refine ⟨hres.1, sf, lf, h4, (h5 hf.1).1, (h6 hf.2).1, ?_, ?_⟩
  · rw [hres.2, q1 sf h4, hfsR]; simp
  · rw [hres.2]; exact q2

/-! ### Descriptors and the object -/

theorem callFiles_keeps (w : World D) (v : Viewer) (a : Args) (b k : Bool) (s : St D) (sf lf : String) :
    (callFiles w v a b k s sf lf).1.fds = s.fds ∧ (callFiles w v a b k s sf lf).1.obj = s.obj := by
  unfold callFiles
  cases w.write s.obj with
  | none => exact ⟨rfl, rfl⟩
  | some text =>
    simp only [system]
    cases b with
    | false => simp
    | true =>
      simp only [Bool.true_eq_false, if_false]
      by_cases hz : (w.shell (cmdStr v a.options sf lf a.disp) (Function.update s.fs sf (some text))).2 = 0
      · simp only [hz, if_true]
        cases k with
        | true => simp
        | false =>
          simp only [Bool.false_eq_true, if_false, unlink]
          split
          · rename_i hx
            split at hx
            · simp only [Prod.mk.injEq] at hx
              rw [← hx.1]; exact ⟨rfl, rfl⟩
            · simp at hx
          · rename_i hx
            split at hx
            · simp at hx
            · simp only [Prod.mk.injEq] at hx
              rw [← hx.1]
              split <;> exact ⟨rfl, rfl⟩
      · simp [hz]

/-- **C170** fails for open descriptors and for objects without symbols, in every outcome after the assertion: each temporary
file costs one file descriptor for the rest of the process, and symbols that were `None` are "H" afterwards; objects with
symbols are not changed. -/
theorem C170_leak_counterexample (w : World D) (v : Viewer) (a : Args) (s : St D) (hw : FreshNames w) (hn : TwoNames w a)
    (ha : ¬ (v.assertStruct = true ∧ s.obj.isStruct = false)) (ht : DirExists w a.tmpdir) (hfin : FiniteFS s.fs) :
    (call w v a s).1.fds = s.fds + (if a.structfile = none then 1 else 0) + (if a.logfile = none then 1 else 0) ∧
    (s.obj.symbols ≠ none → (call w v a s).1.obj = s.obj) ∧
    (s.obj.symbols = none → (call w v a s).1.obj = { s.obj with symbols := some (List.replicate s.obj.natoms "H") }) := by
  obtain ⟨sf, lf, fs', h1, _⟩ := call_names w v a s hw hn ha ht hfin
  rw [h1]
  obtain ⟨k1, k2⟩ := callFiles_keeps w v a (if a.bg then false else a.wait) (if a.bg then true else a.keepfiles)
    { s with obj := shownObj s.obj, fs := fs',
             fds := s.fds + (if a.structfile = none then 1 else 0) + (if a.logfile = none then 1 else 0) } sf lf
  refine ⟨k1, ?_, ?_⟩
  · intro h
    rw [k2]
    show shownObj s.obj = s.obj
    obtain ⟨l, hl⟩ := Option.ne_none_iff_exists'.1 h
    unfold shownObj
    cases ho : s.obj
    rw [ho] at hl
    simp at hl
    simp [hl]
  · intro h
    rw [k2]
    show shownObj s.obj = _
    unfold shownObj
    rw [h]; rfl

theorem callFiles_finite (w : World D) (v : Viewer) (a : Args) (b k : Bool) (s : St D) (sf lf : String)
    (hsh : ∀ cmd fs, FiniteFS fs → FiniteFS (w.shell cmd fs).1) (h : FiniteFS s.fs) :
    FiniteFS (callFiles w v a b k s sf lf).1.fs := by
  have hu : ∀ (s : St D) n, FiniteFS s.fs → FiniteFS (unlink s n).1.fs := by
    intro s n h
    unfold unlink
    split
    · exact h
    · exact finite_update _ _ _ h
  unfold callFiles
  cases w.write s.obj with
  | none => exact h
  | some text =>
    have h1 := finite_update s.fs sf (some text) h
    dsimp only
    have hsys : ∀ (t : St D) c, FiniteFS t.fs → FiniteFS (system w t c b).1.fs := by
      intro t c ht
      unfold system
      split
      · exact ht
      · exact hsh _ _ ht
    have h2 := hsys { s with fs := Function.update s.fs sf (some text) } (cmdStr v a.options sf lf a.disp) h1
    generalize system w { s with fs := Function.update s.fs sf (some text) } (cmdStr v a.options sf lf a.disp) b = r at h2 ⊢
    obtain ⟨t, e⟩ := r
    cases e with
    | some e => exact h2
    | none =>
      dsimp only
      split
      · exact h2
      · have h3 := hu t sf h2
        generalize unlink t sf = q at h3 ⊢
        obtain ⟨u, e⟩ := q
        cases e with
        | some e => exact h3
        | none => exact hu u lf h3

/-- **C170** (many calls). After `k` calls with default files `2 k` more descriptors are open, whether or not they succeed. -/
theorem C170_leak_many (w : World D) (v : Viewer) (a : Args) (hw : FreshNames w) (hf : a.structfile = none ∧ a.logfile = none)
    (ht : DirExists w a.tmpdir) (hsh : ∀ cmd fs, FiniteFS fs → FiniteFS (w.shell cmd fs).1)
    (hv : v.assertStruct = false) (s : St D) (hfin : FiniteFS s.fs) (k : Nat) :
    (Nat.iterate (fun s => (call w v a s).1) k s).fds = s.fds + 2 * k := by
  have hn : TwoNames w a := ⟨by simp [hf.1], by simp [hf.1, hf.2]⟩
  have key : FiniteFS (Nat.iterate (fun s => (call w v a s).1) k s).fs ∧
      (Nat.iterate (fun s => (call w v a s).1) k s).fds = s.fds + 2 * k := by
    induction k with
    | zero => exact ⟨hfin, rfl⟩
    | succ k ih =>
      rw [Function.iterate_succ_apply']
      refine ⟨?_, ?_⟩
      · obtain ⟨sf, lf, fs', h1, _, _, _, _, _, h7⟩ := call_names w v a (Nat.iterate (fun s => (call w v a s).1) k s) hw hn
          (by simp [hv]) ht ih.1
        rw [h1]
        apply callFiles_finite _ _ _ _ _ _ _ _ hsh
        apply (ih.1.union ((Set.finite_singleton sf).union (Set.finite_singleton lf))).subset
        intro m hm
        by_cases h1 : m = sf
        · right; left; exact h1
        · by_cases h2 : m = lf
          · right; right; exact h2
          · left
            have hm' : fs' m ≠ none := hm
            rw [h7 m h1 h2] at hm'
            exact hm'
      · rw [(C170_leak_counterexample w v a _ hw hn (by simp [hv]) ht ih.1).1, ih.2, if_pos hf.1, if_pos hf.2]
        omega
  exact key.2

/-- Non-vacuity: a world with a directory for new files and a shell whose commands write one log file and succeed. -/
example : ∃ (w : World Unit) (s : St Unit), FreshNames w ∧ DirExists w "/tmp" ∧ FiniteFS s.fs ∧ TwoNames w {} ∧
    OnlyWrites w (shellLine "jmol" "" "s" "l" false) "l" ∧ w.write (shownObj s.obj) ≠ none := by
  classical
  have inf : ∀ fs : FS, FiniteFS fs → ∃ n, fs n = none := by
    intro fs h
    by_contra hc
    push Not at hc
    have huniv : {n | fs n ≠ none} = Set.univ := by ext n; simp [hc n]
    unfold FiniteFS at h
    rw [huniv] at h
    have hinj : Function.Injective (fun k : Nat => String.ofList (List.replicate k 'a')) := by
      intro i j hij
      have := congrArg (fun s : String => s.toList.length) hij
      simpa using this
    exact Set.infinite_range_of_injective hinj (h.subset (Set.subset_univ _))
  refine ⟨⟨fun _ fs => (Function.update fs "l" (some "log"), 0),
      fun fs _ _ _ => if h : FiniteFS fs then some (inf fs h).choose else none, fun _ => some "x"⟩,
    ⟨fun _ => none, 3, ⟨true, none, 2, ()⟩, []⟩, ?_, ?_, ?_, ?_, ?_, by simp⟩
  · intro fs dir pre suf n h
    simp only at h
    split at h
    · rename_i hf
      rw [Option.some.injEq] at h
      rw [← h]; exact (inf fs hf).choose_spec
    · simp at h
  · intro fs hf pre suf
    simp [hf]
  · simp [FiniteFS]
  · exact ⟨by simp, by simp⟩
  · intro fs
    exact ⟨fun n hn => by simp [Function.update_of_ne hn], by simp⟩

theorem name_assert (w : World D) (s : St D) (g : Option String) (d p q : String) : ∀ t, nameOr w s g d p q ≠ (t, .error .assertion) := by
  intro t h
  unfold nameOr mkstemp at h
  split at h
  · simp at h
  · split at h <;> simp at h

theorem unlink_assert (s : St D) (n : String) : (unlink s n).2 ≠ some .assertion := by
  unfold unlink
  split <;> simp

theorem system_assert (w : World D) (s : St D) (c : String) (wt : Bool) : (system w s c wt).2 ≠ some .assertion := by
  unfold system
  split
  · simp
  · dsimp only
    split <;> simp

theorem files_assert (w : World D) (v : Viewer) (a : Args) (wt k : Bool) (s : St D) (sf lf : String) :
    (callFiles w v a wt k s sf lf).2 ≠ some .assertion := by
  unfold callFiles
  split
  · simp
  · dsimp only
    split
    · rename_i h
      intro hc
      exact system_assert w _ _ wt (by rw [h]; exact hc)
    · split
      · simp
      · split
        · rename_i h
          intro hc
          exact unlink_assert _ _ (by rw [h]; exact hc)
        · exact unlink_assert _ _

theorem no_assert (w : World D) (v : Viewer) (a : Args) (s : St D) (hv : v.assertStruct = false) : (call w v a s).2 ≠ some .assertion := by
  unfold call
  rw [if_neg (by simp [hv])]
  dsimp only
  split
  · rename_i t e h
    intro hc
    cases hc
    exact name_assert w _ _ _ _ _ _ h
  · split
    · rename_i t e h
      intro hc
      cases hc
      exact name_assert w _ _ _ _ _ _ h
    · exact files_assert w v a _ _ _ _ _

/-- **C170**, the five viewers of the module: `view_jmol` and `view_avogadro`, which write cif files, refuse a trajectory and do nothing;
`view_xcrysden`, `view_vmd_axsf` and `view_vmd_xyz` never refuse an object. Temporary files have the suffix of the format. -/
theorem C170_viewers (w : World D) (a : Args) (s : St D) :
    (s.obj.isStruct = false → ∀ v ∈ [viewJmol, viewAvogadro], call w v a s = (s, some .assertion)) ∧
    (∀ v ∈ [viewXcrysden, viewVmdAxsf, viewVmdXyz], (call w v a s).2 ≠ some .assertion) ∧
    [viewXcrysden, viewVmdAxsf, viewVmdXyz, viewJmol, viewAvogadro].map Viewer.suffix = [".axsf", ".axsf", ".xyz", ".cif", ".cif"] := by
  refine ⟨fun h v hv => C170_refuse w v a s ?_ h, fun v hv => no_assert w v a s ?_, rfl⟩
  · simp only [List.mem_cons, List.not_mem_nil, or_false] at hv
    rcases hv with rfl | rfl <;> rfl
  · simp only [List.mem_cons, List.not_mem_nil, or_false] at hv
    rcases hv with rfl | rfl | rfl <;> rfl

end Pwtools.View
