import Verif.Spec.Dump
/-!
# C176: dumped objects
-/
namespace Pwtools.Dump
open Pwtools.Spec

variable {V : Type} (dumps : Obj V → Option (List Nat)) (loads : List Nat → Option (Obj V))

theorem run_append (s : Disk) (a b : List Ev) : s.run (a ++ b) = (s.run a).run b := by
  simp [Disk.run, List.foldl_append]

/-- Only directories. -/
def OnlyDirs (ds : List (List String)) (evs : List Ev) : Prop := ∀ e ∈ evs, ∃ d ∈ ds, e = .mkdir d

theorem makedirs_only (s : Disk) (ds : List (List String)) : OnlyDirs ds (makedirs s ds).1 := by
  induction ds with
  | nil => intro e he; simp [makedirs] at he
  | cons d ds ih =>
    intro e he
    unfold makedirs at he
    split at he
    · simp at he
    · dsimp only at he
      split at he
      · obtain ⟨d', hd', rfl⟩ := ih e he; exact ⟨d', List.mem_cons_of_mem _ hd', rfl⟩
      · rcases List.mem_cons.1 he with rfl | he
        · exact ⟨d, List.mem_cons_self, rfl⟩
        · obtain ⟨d', hd', rfl⟩ := ih e he; exact ⟨d', List.mem_cons_of_mem _ hd', rfl⟩

theorem run_dirs_file (s : Disk) (ds : List (List String)) (evs : List Ev) (h : OnlyDirs ds evs) : (s.run evs).file = s.file := by
  induction evs generalizing s with
  | nil => rfl
  | cons e evs ih =>
    obtain ⟨d, _, rfl⟩ := h e List.mem_cons_self
    exact ih _ (fun e he => h e (List.mem_cons_of_mem _ he))

theorem run_dirs_dir (s : Disk) (ds : List (List String)) (evs : List Ev) (h : OnlyDirs ds evs) (q : List String) :
    (s.run evs).dir q = (s.dir q || evs.any (fun e => match e with | .mkdir d => decide (d = q) | _ => false)) := by
  induction evs generalizing s with
  | nil => simp [Disk.run]
  | cons e evs ih =>
    obtain ⟨d, _, rfl⟩ := h e List.mem_cons_self
    have := ih (s.step (.mkdir d)) (fun e he => h e (List.mem_cons_of_mem _ he))
    show ((s.step (.mkdir d)).run evs).dir q = _
    rw [this]
    simp only [Disk.step, List.any_cons]
    by_cases hq : q = d
    · subst hq; simp
    · simp [hq, Ne.symm hq]

theorem take_only {ds : List (List String)} {evs : List Ev} (h : OnlyDirs ds evs) (k : Nat) : OnlyDirs ds (evs.take k) :=
  fun e he => h e (List.mem_of_mem_take he)

/-- The directory part of a dump. -/
def dirPart (s : Disk) (p : List String) (mkdir : Bool) : List Ev × Bool :=
  if mkdir && !p.dropLast.isEmpty then makedirs s (ancestors p.dropLast) else ([], true)

theorem dirPart_only (s : Disk) (p : List String) (mkdir : Bool) : OnlyDirs (ancestors p.dropLast) (dirPart s p mkdir).1 := by
  unfold dirPart
  split
  · exact makedirs_only _ _
  · intro e he; simp at he

theorem dump_cases (s : Disk) (o : Obj V) (p : List String) (mk : Bool) :
    dump dumps s o p mk = ((dirPart s p mk).1, false) ∨
    (dumps o = none ∧ dump dumps s o p mk = ((dirPart s p mk).1 ++ [.trunc p], false)) ∨
    ∃ b, dumps o = some b ∧ dump dumps s o p mk = ((dirPart s p mk).1 ++ [.trunc p] ++ b.map (.put p), true) := by
  unfold dump
  dsimp only
  rw [show (if mk && !p.dropLast.isEmpty then makedirs s (ancestors p.dropLast) else ([], true)) = dirPart s p mk from rfl]
  split
  · exact .inl rfl
  split
  · exact .inl rfl
  cases h : dumps o with
  | none => exact .inr (.inl ⟨rfl, rfl⟩)
  | some b => exact .inr (.inr ⟨b, rfl, rfl⟩)

theorem run_puts (s : Disk) (p : List String) (b c : List Nat) (h : s.file p = some c) :
    (s.run (b.map (.put p))).file p = some (c ++ b) ∧ (∀ q, q ≠ p → (s.run (b.map (.put p))).file q = s.file q) ∧
    (s.run (b.map (.put p))).dir = s.dir := by
  induction b generalizing s c with
  | nil => simp [Disk.run, h]
  | cons x b ih =>
    have h1 : (s.step (.put p x)).file p = some (c ++ [x]) := by simp [Disk.step, h]
    obtain ⟨a1, a2, a3⟩ := ih _ _ h1
    refine ⟨?_, fun q hq => ?_, ?_⟩
    · show ((s.step (.put p x)).run (b.map (.put p))).file p = _
      rw [a1]; simp
    · show ((s.step (.put p x)).run (b.map (.put p))).file q = _
      rw [a2 q hq]; simp [Disk.step, hq]
    · show ((s.step (.put p x)).run (b.map (.put p))).dir = _
      rw [a3]; rfl

/-- State after truncation and the bytes `b`. -/
theorem run_file (s : Disk) (p : List String) (evs : List Ev) (ds : List (List String)) (h : OnlyDirs ds evs) (b : List Nat) :
    (s.run (evs ++ [.trunc p] ++ b.map (.put p))).file p = some b ∧
    ∀ q, q ≠ p → (s.run (evs ++ [.trunc p] ++ b.map (.put p))).file q = s.file q := by
  rw [run_append, run_append]
  have h0 : (((s.run evs).run [.trunc p]).file p) = some [] := by simp [Disk.run, Disk.step]
  obtain ⟨a1, a2, _⟩ := run_puts _ p b [] h0
  refine ⟨by simpa using a1, fun q hq => ?_⟩
  rw [a2 q hq, ← run_dirs_file s ds evs h]
  simp [Disk.run, Disk.step, hq]

/-- **C176** (round trip). After a call of `dump` without exception `read_pickle` returns the object, whatever was in the
file before; all other files are as before. -/
theorem C176_roundtrip (hP : IsPickle dumps loads) (s : Disk) (o : Obj V) (p : List String) (mk : Bool)
    (h : (dump dumps s o p mk).2 = true) :
    readPickle loads (s.run (dump dumps s o p mk).1) p = some o ∧
    ∀ q, q ≠ p → (s.run (dump dumps s o p mk).1).file q = s.file q := by
  rcases dump_cases dumps s o p mk with e | ⟨_, e⟩ | ⟨b, hb, e⟩
  · rw [e] at h; simp at h
  · rw [e] at h; simp at h
  · rw [e]
    obtain ⟨h1, h2⟩ := run_file s p _ _ (dirPart_only s p mk) b
    refine ⟨?_, h2⟩
    unfold readPickle
    rw [h1]
    simpa using hP.restore o b [] hb

theorem mem_ancestors {d e : List String} : e ∈ ancestors d ↔ e ≠ [] ∧ e <+: d := by
  unfold ancestors
  constructor
  · intro h
    obtain ⟨i, hi, rfl⟩ := List.mem_map.1 h
    have hi := List.mem_range.1 hi
    refine ⟨?_, List.take_prefix _ _⟩
    intro h0
    have := congrArg List.length h0
    rw [List.length_take] at this
    simp at this
    subst this
    simp at hi
  · rintro ⟨h0, h1⟩
    have hl := h1.length_le
    have : 0 < e.length := List.length_pos_iff.2 h0
    refine List.mem_map.2 ⟨e.length - 1, List.mem_range.2 (by omega), ?_⟩
    rw [show e.length - 1 + 1 = e.length by omega]
    exact (List.prefix_iff_eq_take.1 h1).symm

theorem makedirs_ok (s : Disk) (ds : List (List String)) (h : ∀ d ∈ ds, s.file d = none) :
    (makedirs s ds).2 = true ∧ ∀ d ∈ ds, (s.run (makedirs s ds).1).dir d = true := by
  induction ds with
  | nil => simp [makedirs]
  | cons d ds ih =>
    obtain ⟨i1, i2⟩ := ih (fun d hd => h d (List.mem_cons_of_mem _ hd))
    have hd : (s.file d).isSome = false := by rw [h d List.mem_cons_self]; rfl
    have ho := makedirs_only s ds
    have hdir : ∀ q, (s.run (makedirs s ds).1).dir q = true → (s.run (makedirs s (d :: ds)).1).dir q = true := by
      intro q hq
      rw [run_dirs_dir s ds _ ho] at hq
      rw [run_dirs_dir s (d :: ds) _ (makedirs_only s (d :: ds))]
      unfold makedirs
      rw [hd]
      simp only [Bool.false_eq_true, if_false]
      split
      · exact hq
      · simp only [List.any_cons]
        rw [Bool.or_eq_true] at hq ⊢
        rcases hq with hq | hq
        · exact .inl hq
        · right; simp [hq]
    constructor
    · unfold makedirs
      rw [hd]
      simp only [Bool.false_eq_true, if_false]
      split <;> exact i1
    · intro q hq
      rcases List.mem_cons.1 hq with rfl | hq
      · rw [run_dirs_dir s (q :: ds) _ (makedirs_only s (q :: ds))]
        unfold makedirs
        rw [hd]
        simp only [Bool.false_eq_true, if_false]
        split
        · rename_i hh; simp [hh]
        · simp
      · exact hdir q (i2 q hq)

/-- **C176** (no exception). With `mkdir=True` the call works in every directory, existing or not, unless a file is where a
directory is needed, a directory is where the file goes, or the object cannot be pickled. The directories exist
afterwards. -/
theorem C176_ok (s : Disk) (o : Obj V) (p : List String) (hw : WayFree s p) (b : List Nat) (hb : dumps o = some b) :
    (dump dumps s o p true).2 = true ∧
    ∀ d, d <+: p → d ≠ p → (s.run (dump dumps s o p true).1).isDir d = true := by
  obtain ⟨hp, hd, hf⟩ := hw
  have hsub : p.dropLast <+: p := List.dropLast_prefix p
  have hne : p.dropLast ≠ p := by
    intro h0
    have := congrArg List.length h0
    have h1 : 0 < p.length := List.length_pos_iff.2 hp
    simp at this
    omega
  have hpre : ∀ d, d <+: p.dropLast → d <+: p ∧ d ≠ p := by
    intro d hd'
    refine ⟨hd'.trans hsub, ?_⟩
    intro h0
    subst h0
    exact hne (List.IsPrefix.eq_of_length_le hsub hd'.length_le)
  obtain ⟨m1, m2⟩ := makedirs_ok s (ancestors p.dropLast) (fun d hd' => by
    have := hpre d (mem_ancestors.1 hd').2
    exact hf d this.1 this.2)
  have hD : (dirPart s p true).2 = true ∧ ∀ d, d <+: p.dropLast → (s.run (dirPart s p true).1).isDir d = true := by
    unfold dirPart
    by_cases he : p.dropLast = []
    · rw [he]
      refine ⟨by simp, fun d hd' => ?_⟩
      have : d = [] := List.prefix_nil.1 hd'
      simp [this, Disk.isDir]
    · have : (true && !p.dropLast.isEmpty) = true := by simp [he]
      rw [this, if_pos rfl]
      refine ⟨m1, fun d hd' => ?_⟩
      by_cases h0 : d = []
      · simp [h0, Disk.isDir]
      · simp [Disk.isDir, m2 d (mem_ancestors.2 ⟨h0, hd'⟩)]
  have hpdir : (s.run (dirPart s p true).1).dir p = false := by
    rw [run_dirs_dir s _ _ (dirPart_only s p true), hd, Bool.false_or]
    rw [List.any_eq_false]
    intro e he
    obtain ⟨d, hd', rfl⟩ := dirPart_only s p true e he
    have := (hpre d (mem_ancestors.1 hd').2).2
    simpa using this
  have e : dump dumps s o p true = ((dirPart s p true).1 ++ [.trunc p] ++ b.map (.put p), true) := by
    unfold dump
    dsimp only
    rw [show (if true && !p.dropLast.isEmpty then makedirs s (ancestors p.dropLast) else ([], true)) = dirPart s p true from rfl]
    rw [hD.1, hpdir, hD.2 _ (List.prefix_refl _), hb]
    simp [hp]
  rw [e]
  refine ⟨rfl, fun d hd1 hd2 => ?_⟩
  have hdl : d <+: p.dropLast := by
    have hl : d.length < p.length := by
      rcases Nat.lt_or_ge d.length p.length with h | h
      · exact h
      · exact absurd (hd1.eq_of_length_le h) hd2
    rw [List.dropLast_eq_take]
    rw [List.prefix_iff_eq_take.1 hd1]
    exact List.take_prefix_take_left (by omega)
  have := hD.2 d hdl
  rw [run_append, run_append]
  unfold Disk.isDir at this ⊢
  have h0 : (((s.run (dirPart s p true).1).run [.trunc p]).file p) = some [] := by simp [Disk.run, Disk.step]
  rw [(run_puts _ p b [] h0).2.2]
  exact this

/-- **C176** (kill). The process is killed after any number of the changes a call of `dump` makes. Other files are as before.
`read_pickle` of the file returns what it returned before, the new object, or raises, never anything else; before the file
is opened it returns what it returned before. -/
theorem C176_kill (hP : IsPickle dumps loads) (s : Disk) (o : Obj V) (p : List String) (mk : Bool) (k : Nat) :
    let s' := s.run ((dump dumps s o p mk).1.take k)
    (∀ q, q ≠ p → s'.file q = s.file q) ∧
    (s'.file p = s.file p ∨ readPickle loads s' p = none ∨ readPickle loads s' p = some o) ∧
    (k ≤ (dirPart s p mk).1.length → s'.file p = s.file p) := by
  intro s'
  have hD := dirPart_only s p mk
  have early : ∀ j, (s.run ((dirPart s p mk).1.take j)).file = s.file := fun j => run_dirs_file s _ _ (take_only hD j)
  have key : ∀ b : List Nat, (∀ j, j ≤ b.length → loads (b.take j) = none ∨ loads (b.take j) = some o) →
      (dump dumps s o p mk).1 = (dirPart s p mk).1 ++ [.trunc p] ++ b.map (.put p) →
      (∀ q, q ≠ p → s'.file q = s.file q) ∧
      (s'.file p = s.file p ∨ readPickle loads s' p = none ∨ readPickle loads s' p = some o) ∧
      (k ≤ (dirPart s p mk).1.length → s'.file p = s.file p) := by
    intro b hb e
    rcases Nat.lt_or_ge (dirPart s p mk).1.length k with hk | hk
    · have e1 : (dump dumps s o p mk).1.take k = (dirPart s p mk).1 ++ [.trunc p] ++
          (b.take (k - ((dirPart s p mk).1.length + 1))).map (.put p) := by
        rw [e, List.take_append, List.take_of_length_le (by simp; omega), List.map_take]
        simp
      obtain ⟨h1, h2⟩ := run_file s p _ _ hD (b.take (k - ((dirPart s p mk).1.length + 1)))
      rw [← e1] at h1 h2
      refine ⟨h2, .inr ?_, fun h => by omega⟩
      unfold readPickle
      rw [show s'.file p = _ from h1]
      rcases Nat.le_total (k - ((dirPart s p mk).1.length + 1)) b.length with hj | hj
      · exact hb _ hj
      · rw [Option.bind_some, List.take_of_length_le hj]
        have := hb b.length (Nat.le_refl _)
        rwa [List.take_length] at this
    · have e1 : s'.file = s.file := by
        show (s.run ((dump dumps s o p mk).1.take k)).file = _
        rw [e, List.append_assoc, List.take_append_of_le_length hk]
        exact early k
      exact ⟨fun q _ => by rw [e1], .inl (by rw [e1]), fun _ => by rw [e1]⟩
  rcases dump_cases dumps s o p mk with e | ⟨_, e⟩ | ⟨b, hb, e⟩
  · have e1 : s'.file = s.file := by
      show (s.run ((dump dumps s o p mk).1.take k)).file = _
      rw [e]
      exact early k
    exact ⟨fun q _ => by rw [e1], .inl (by rw [e1]), fun _ => by rw [e1]⟩
  · apply key [] _ (by rw [e]; simp)
    intro j _
    exact .inl (by simpa using hP.empty)
  · apply key b _ (by rw [e])
    intro j hj
    by_cases hjb : b.take j = b
    · right
      rw [hjb]
      simpa using hP.restore o b [] hb
    · exact .inl (hP.incomplete o b _ hb (List.take_prefix _ _) hjb)

/-- **C176** (exceptions; the full claim is that the file keeps its content when `dump` raises). Proved for all objects which
can be pickled: an exception then comes from the directories, and all files are as before. -/
theorem C176_kept_partial (s : Disk) (o : Obj V) (p : List String) (mk : Bool) (h : (dump dumps s o p mk).2 = false)
    (ho : dumps o ≠ none) : (s.run (dump dumps s o p mk).1).file = s.file := by
  rcases dump_cases dumps s o p mk with e | ⟨h0, _⟩ | ⟨b, _, e⟩
  · rw [e]; exact run_dirs_file s _ _ (dirPart_only s p mk)
  · exact absurd h0 ho
  · rw [e] at h; simp at h

/-- **C176** (histories). After any sequence of calls, of which those for the file `p` do not raise, `read_pickle` of `p` returns
the object dumped last to `p`, and what it returned at the beginning if there is none. -/
theorem C176_history (hP : IsPickle dumps loads) (h : List (Obj V × List String × Bool)) (s : Disk) (p : List String)
    (hok : ∀ n (hn : n < h.length), h[n].2.1 = p →
      (dump dumps (dumpAll dumps s (h.take n)) h[n].1 h[n].2.1 h[n].2.2).2 = true) :
    readPickle loads (dumpAll dumps s h) p = lastDump p (readPickle loads s p) h := by
  induction h generalizing s with
  | nil => rfl
  | cons x h ih =>
    obtain ⟨o, q, mk⟩ := x
    unfold dumpAll lastDump
    rw [ih]
    · congr 1
      by_cases hq : q = p
      · subst hq
        rw [if_pos rfl]
        exact (C176_roundtrip dumps loads hP s o q mk (hok 0 (by simp) rfl)).1
      · rw [if_neg hq]
        unfold readPickle
        have := (C176_kill dumps loads hP s o q mk (dump dumps s o q mk).1.length).1 p (Ne.symm hq)
        rw [List.take_length] at this
        rw [this]
    · intro n hn hnp
      exact hok (n + 1) (by simpa using hn) hnp

/-- **C176** (load). `load` on any object gives each attribute of the dumped object its dumped value and keeps all other
attributes and the class. -/
theorem C176_load (s : Disk) (p : List String) (self o : Obj V) (h : readPickle loads s p = some o) :
    ∃ r, load loads s p self = some r ∧ r.cls = self.cls ∧ (∀ a v, o.attrs a = some v → r.attrs a = some v) ∧
      ∀ a, o.attrs a = none → r.attrs a = self.attrs a := by
  unfold load
  rw [h]
  refine ⟨_, rfl, rfl, fun a v hv => ?_, fun a ha => ?_⟩
  · simp [hv]
  · simp [ha]

/-- **C176** (load or read_pickle). `load` gives the same object as `read_pickle` exactly if it is called on an object of the same
class which has no attribute the dumped object does not have. -/
theorem C176_load_same (s : Disk) (p : List String) (self o : Obj V) (h : readPickle loads s p = some o) :
    load loads s p self = some o ↔ self.cls = o.cls ∧ ∀ a, o.attrs a = none → self.attrs a = none := by
  obtain ⟨r, hr, hc, h1, h2⟩ := C176_load loads s p self o h
  rw [hr]
  constructor
  · intro e
    obtain rfl : r = o := by simpa using e
    exact ⟨hc.symm, fun a ha => by rw [← h2 a ha]; exact ha⟩
  · rintro ⟨e1, e2⟩
    congr 1
    obtain ⟨rc, ra⟩ := r
    obtain ⟨oc, oa⟩ := o
    simp only [Obj.mk.injEq]
    refine ⟨by rw [show rc = self.cls from hc, e1], ?_⟩
    funext a
    cases ha : oa a with
    | none => rw [show ra a = _ from h2 a ha]; exact e2 a ha
    | some v => exact h1 a v ha

/-- **C176** (no parsing). On a restored object an attribute which was set when it was dumped is returned as dumped: the getter
machinery runs no getter for it, so no file is read. -/
theorem C176_no_reparse (hP : IsPickle dumps loads) (s : Disk) (o : Obj V) (p : List String) (mk : Bool)
    (h : (dump dumps s o p mk).2 = true) (isNone : V → Bool) (G : String → Prog String V) (fuel : Nat) (a : String) (v : V)
    (hv : o.attrs a = some v) (hn : isNone v = false) :
    ∃ r, readPickle loads (s.run (dump dumps s o p mk).1) p = some r ∧
      trySetAttr G fuel a (r.state isNone) = some (r.state isNone) ∧ (r.state isNone).attr a = some v ∧
      (r.state isNone).log = [] := by
  refine ⟨o, (C176_roundtrip dumps loads hP s o p mk h).1, ?_, ?_, rfl⟩
  · have : (o.state isNone).isSet a = true := by simp [GSt.isSet, Obj.state, hv, hn]
    cases fuel <;> simp [trySetAttr, this]
  · simp [Obj.state, hv, hn]

/-! ## A small pickle -/

/-- An object with one attribute. -/
def exO (n : Nat) : Obj Nat := ⟨"Structure", fun a => if a = "natoms" then some n else none⟩

open Classical in
/-- Objects like `exO n` can be pickled: one byte and a stop code. -/
noncomputable def exDumps (o : Obj Nat) : Option (List Nat) :=
  match o.attrs "natoms" with
  | some n => if o = exO n then some [n, 46] else none
  | none => none

def exLoads : List Nat → Option (Obj Nat)
  | n :: 46 :: _ => some (exO n)
  | _ => none

theorem exDumps_exO (n : Nat) : exDumps (exO n) = some [n, 46] := by simp [exDumps, exO]

theorem exDumps_some {o : Obj Nat} {b : List Nat} (h : exDumps o = some b) : ∃ n, o = exO n ∧ b = [n, 46] := by
  unfold exDumps at h
  split at h
  · rename_i n _
    split at h
    · exact ⟨n, by assumption, by simpa using h.symm⟩
    · simp at h
  · simp at h

theorem exPickle : IsPickle exDumps exLoads where
  restore o b t h := by
    obtain ⟨n, rfl, rfl⟩ := exDumps_some h
    rfl
  empty := rfl
  incomplete o b t h hp hne := by
    obtain ⟨n, rfl, rfl⟩ := exDumps_some h
    rcases t with _ | ⟨x, _ | ⟨y, t⟩⟩
    · rfl
    · rfl
    · exact absurd (hp.eq_of_length_le (by simp)) hne

/-- A working directory with one file. -/
def exDisk : Disk := ⟨fun _ => false, fun q => if q = ["a.pk"] then some [3, 46] else none⟩

/-- Non-vacuity: the file can be read, a second object goes to a new directory. -/
example : readPickle exLoads exDisk ["a.pk"] = some (exO 3) ∧ WayFree exDisk ["d", "e", "b.pk"] ∧
    (dump exDumps exDisk (exO 5) ["d", "e", "b.pk"] true).2 = true := by
  have hw : WayFree exDisk ["d", "e", "b.pk"] := by
    refine ⟨by simp, rfl, fun d h1 _ => ?_⟩
    obtain ⟨t, ht⟩ := h1
    have : d ≠ ["a.pk"] := by rintro rfl; simp at ht
    simp [exDisk, this]
  exact ⟨by simp [readPickle, exDisk, exLoads], hw, (C176_ok exDumps exDisk (exO 5) _ hw _ (exDumps_exO 5)).1⟩

/-- The code violates the full claim: `dump` of an object which cannot be pickled raises, and the dump which was in the
file before is gone. -/
theorem C176_lost_counterexample : ∃ o : Obj Nat, (dump exDumps exDisk o ["a.pk"] true).2 = false ∧
    readPickle exLoads exDisk ["a.pk"] = some (exO 3) ∧
    readPickle exLoads (exDisk.run (dump exDumps exDisk o ["a.pk"] true).1) ["a.pk"] = none := by
  have h : exDumps ⟨"Parser", fun _ => none⟩ = none := rfl
  refine ⟨⟨"Parser", fun _ => none⟩, ?_, by simp [readPickle, exDisk, exLoads], ?_⟩
  · simp [dump, h, exDisk, Disk.run, Disk.isDir]
  · simp [dump, h, exDisk, Disk.run, Disk.isDir, Disk.step, readPickle, exLoads]

end Pwtools.Dump
