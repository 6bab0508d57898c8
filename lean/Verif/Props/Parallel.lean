import Verif.Model.Pydos
/-!
# Parallel loops without common addresses

Threads which use disjoint sets of addresses give the result of the sequential program, for every schedule.
-/
namespace Pwtools.Dos

variable {α V : Type} [DecidableEq α]

/-- Sequential execution of a list of instructions. -/
def seqExec : List (Ins α V) → V → (α → V) → V × (α → V)
  | [], r, mem => (r, mem)
  | i :: is, r, mem => seqExec is (exec1 i r mem).1 (exec1 i r mem).2

theorem seqExec_append (a b : List (Ins α V)) (r : V) (mem : α → V) :
    seqExec (a ++ b) r mem = seqExec b (seqExec a r mem).1 (seqExec a r mem).2 := by
  induction a generalizing r mem with
  | nil => rfl
  | cons i is ih => simp only [List.cons_append, seqExec, ih]

theorem exec1_untouched (i : Ins α V) (r : V) (mem : α → V) (a : α) (h : a ≠ i.addr) : (exec1 i r mem).2 a = mem a := by
  cases i with
  | load b => rfl
  | store b f => simp only [exec1, Ins.addr] at h ⊢; rw [Function.update_of_ne h]

theorem seqExec_untouched (is : List (Ins α V)) (r : V) (mem : α → V) (a : α) (h : ∀ i ∈ is, a ≠ i.addr) :
    (seqExec is r mem).2 a = mem a := by
  induction is generalizing r mem with
  | nil => rfl
  | cons i is ih =>
    simp only [seqExec]
    rw [ih _ _ (fun j hj => h j (List.mem_cons_of_mem _ hj)), exec1_untouched i r mem a (h i List.mem_cons_self)]

/-- The effect on the own addresses depends only on the own addresses. -/
theorem seqExec_congr (is : List (Ins α V)) (r : V) (mem mem' : α → V) (h : ∀ i ∈ is, mem i.addr = mem' i.addr) :
    ∀ a, mem a = mem' a → (seqExec is r mem).2 a = (seqExec is r mem').2 a := by
  induction is generalizing r mem mem' with
  | nil => intro a ha; exact ha
  | cons i is ih =>
    intro a ha
    simp only [seqExec]
    have h0 := h i List.mem_cons_self
    have hr : (exec1 i r mem).1 = (exec1 i r mem').1 := by
      cases i with
      | load b => simpa only [exec1, Ins.addr] using h0
      | store b f => rfl
    have hm : ∀ b, mem b = mem' b → (exec1 i r mem).2 b = (exec1 i r mem').2 b := by
      intro b hb
      cases i with
      | load c => simpa only [exec1] using hb
      | store c f =>
        simp only [exec1, Function.update_apply]
        split
        · rfl
        · exact hb
    rw [hr]
    exact ih _ _ _ (fun j hj => hm _ (h j (List.mem_cons_of_mem _ hj))) a (hm a ha)

/-- Any interleaving. -/
theorem interleave {P : Nat} (sched : List (Fin P)) (s : Mach P α V)
    (hdis : ∀ p q, p ≠ q → ∀ i ∈ s.rest p, ∀ j ∈ s.rest q, i.addr ≠ j.addr)
    (hfin : ∀ p, (s.run sched).rest p = []) :
    (∀ a, (∀ p, ∀ i ∈ s.rest p, a ≠ i.addr) → (s.run sched).mem a = s.mem a) ∧
    (∀ p, ∀ i ∈ s.rest p, (s.run sched).mem i.addr = (seqExec (s.rest p) (s.reg p) s.mem).2 i.addr) := by
  induction sched generalizing s with
  | nil =>
    have h : ∀ p, s.rest p = [] := hfin
    refine ⟨fun a _ => rfl, fun p i hi => ?_⟩
    rw [h p] at hi
    cases hi
  | cons p sched ih =>
    have hrun : s.run (p :: sched) = (s.step p).run sched := rfl
    rw [hrun] at hfin ⊢
    cases hp : s.rest p with
    | nil =>
      have : s.step p = s := by unfold Mach.step; rw [hp]
      rw [this] at hfin ⊢
      exact ih s hdis hfin
    | cons i is =>
      have hmem : (s.step p).mem = (exec1 i (s.reg p) s.mem).2 := by unfold Mach.step; rw [hp]
      have hreg : (s.step p).reg = Function.update s.reg p (exec1 i (s.reg p) s.mem).1 := by unfold Mach.step; rw [hp]
      have hrest : (s.step p).rest = Function.update s.rest p is := by unfold Mach.step; rw [hp]
      have hsub : ∀ q, ∀ j ∈ (s.step p).rest q, j ∈ s.rest q := by
        intro q j hj
        rw [hrest, Function.update_apply] at hj
        split at hj
        · rename_i hq; subst hq; rw [hp]; exact List.mem_cons_of_mem _ hj
        · exact hj
      obtain ⟨ih1, ih2⟩ := ih (s.step p) (fun q q' hq j hj j' hj' => hdis q q' hq j (hsub q j hj) j' (hsub q' j' hj')) hfin
      refine ⟨?_, ?_⟩
      · intro a ha
        rw [ih1 a (fun q j hj => ha q j (hsub q j hj)), hmem]
        exact exec1_untouched i _ _ a (ha p i (by rw [hp]; exact List.mem_cons_self))
      · intro q j hj
        by_cases hq : q = p
        · subst hq
          have e : seqExec (s.rest q) (s.reg q) s.mem =
              seqExec is (exec1 i (s.reg q) s.mem).1 (exec1 i (s.reg q) s.mem).2 := by rw [hp]; rfl
          rw [e]
          by_cases hin : ∃ j' ∈ is, j'.addr = j.addr
          · obtain ⟨j', hj', he⟩ := hin
            have := ih2 q j' (by rw [hrest, Function.update_self]; exact hj')
            rw [hrest, Function.update_self, hreg, Function.update_self, hmem, he] at this
            exact this
          · rw [seqExec_untouched is _ _ _ (fun j' hj' he => hin ⟨j', hj', he.symm⟩), ih1, hmem]
            intro q' j' hj' he
            by_cases hq' : q' = q
            · subst hq'
              rw [hrest, Function.update_self] at hj'
              exact hin ⟨j', hj', he.symm⟩
            · exact hdis q q' (fun h => hq' h.symm) j hj j' (hsub q' j' hj') he
        · have h1 : (s.step p).rest q = s.rest q := by rw [hrest, Function.update_of_ne hq]
          have h2 := ih2 q j (by rw [h1]; exact hj)
          rw [h1, hreg, Function.update_of_ne hq, hmem] at h2
          rw [h2]
          have hne : ∀ j' ∈ s.rest q, (exec1 i (s.reg p) s.mem).2 j'.addr = s.mem j'.addr := by
            intro j' hj'
            exact exec1_untouched i _ _ _ (hdis q p hq j' hj' i (by rw [hp]; exact List.mem_cons_self))
          exact seqExec_congr _ _ _ _ hne _ (hne j hj)

/-- One thread: iterations with different addresses. -/
theorem seq_loop (body : Nat → List (Ins α V)) (it : α → Nat) (g : α → V → V) (hb : ∀ t, ∀ i ∈ body t, it i.addr = t)
    (hg : ∀ t r mem a, it a = t → (seqExec (body t) r mem).2 a = g a (mem a)) (ts : List Nat) (hn : ts.Nodup) (r : V)
    (mem : α → V) (a : α) :
    (seqExec (ts.flatMap body) r mem).2 a = if it a ∈ ts then g a (mem a) else mem a := by
  induction ts generalizing r mem with
  | nil => simp [seqExec]
  | cons t ts ih =>
    rw [List.flatMap_cons, seqExec_append, ih (List.nodup_cons.1 hn).2]
    by_cases h1 : it a = t
    · have h2 : it a ∉ ts := by rw [h1]; exact (List.nodup_cons.1 hn).1
      rw [if_neg h2, if_pos (by rw [h1]; exact List.mem_cons_self), hg t r mem a h1]
    · have h3 : (seqExec (body t) r mem).2 a = mem a :=
        seqExec_untouched _ _ _ _ (fun i hi he => h1 (by rw [he]; exact hb t i hi))
      rw [h3]
      by_cases h4 : it a ∈ ts
      · rw [if_pos h4, if_pos (List.mem_cons_of_mem _ h4)]
      · rw [if_neg h4, if_neg (by rw [List.mem_cons]; push Not; exact ⟨h1, h4⟩)]

/-- **A parallel loop whose iterations use different addresses has one result only**: that of the
sequential loop. -/
theorem parLoop_eq (n : Nat) (body : Nat → List (Ins α V)) (it : α → Nat) (g : α → V → V)
    (hb : ∀ t, ∀ i ∈ body t, it i.addr = t)
    (hg : ∀ t r mem a, it a = t → (seqExec (body t) r mem).2 a = g a (mem a)) (mem mem' : α → V)
    (h : ParLoop n body mem mem') (a : α) : mem' a = if it a < n then g a (mem a) else mem a := by
  obtain ⟨P, own, reg, sched, hperm, hfin, rfl⟩ := h
  set s : Mach P α V := ⟨mem, reg, fun p => (own p).flatMap body⟩ with hs
  have hnd : ((List.finRange P).flatMap own).Nodup := hperm.nodup_iff.2 List.nodup_range
  obtain ⟨hnd1, hnd2⟩ := List.nodup_flatMap.1 hnd
  have hne : ∀ p q : Fin P, p ≠ q → ∀ t ∈ own p, t ∉ own q := by
    intro p q hpq t ht ht'
    have hpw : (List.finRange P).Pairwise (fun a b => ∀ ⦃x⦄, x ∈ own a → x ∈ own b → False) := hnd2
    haveI : Std.Symm (fun a b : Fin P => ∀ ⦃x⦄, x ∈ own a → x ∈ own b → False) := ⟨fun x y hxy z h1 h2 => hxy h2 h1⟩
    have := hpw.forall (List.mem_finRange p) (List.mem_finRange q) hpq
    exact this ht ht'
  have hdis : ∀ p q, p ≠ q → ∀ i ∈ s.rest p, ∀ j ∈ s.rest q, i.addr ≠ j.addr := by
    intro p q hpq i hi j hj he
    obtain ⟨t, ht, hi'⟩ := List.mem_flatMap.1 hi
    obtain ⟨t', ht', hj'⟩ := List.mem_flatMap.1 hj
    have h1 := hb t i hi'
    have h2 := hb t' j hj'
    rw [he, h2] at h1
    subst h1
    exact hne p q hpq _ ht ht'
  obtain ⟨h1, h2⟩ := interleave sched s hdis hfin
  have hmemrange : ∀ t, (∃ p, t ∈ own p) ↔ t < n := by
    intro t
    rw [← List.mem_range, ← hperm.mem_iff, List.mem_flatMap]
    simp
  by_cases hin : it a < n
  · rw [if_pos hin]
    obtain ⟨p, hp⟩ := (hmemrange _).2 hin
    have hseq := seq_loop body it g hb hg (own p) (hnd1 p (List.mem_finRange p)) (reg p) mem a
    rw [if_pos hp] at hseq
    by_cases hu : ∃ i ∈ (own p).flatMap body, i.addr = a
    · obtain ⟨i, hi, rfl⟩ := hu
      rw [h2 p i hi]
      exact hseq
    · rw [h1 a, ← hseq, seqExec_untouched _ _ _ _ (fun i hi he => hu ⟨i, hi, he.symm⟩)]
      intro q i hi he
      obtain ⟨t, ht, hi'⟩ := List.mem_flatMap.1 hi
      have h3 := hb t i hi'
      rw [← he] at h3
      by_cases hq : p = q
      · subst hq; exact hu ⟨i, hi, he.symm⟩
      · exact hne p q hq _ hp (by rw [h3]; exact ht)
  · rw [if_neg hin, h1 a]
    intro p i hi he
    obtain ⟨t, ht, hi'⟩ := List.mem_flatMap.1 hi
    have h3 := hb t i hi'
    rw [← he] at h3
    exact hin ((hmemrange _).1 ⟨p, by rw [h3]; exact ht⟩)

/-- A schedule exists: one thread alone. -/
theorem parLoop_exists [Nonempty V] (n : Nat) (body : Nat → List (Ins α V)) (mem : α → V) : ∃ mem', ParLoop n body mem mem' := by
  obtain ⟨v⟩ := ‹Nonempty V›
  have key : ∀ (is : List (Ins α V)) (s : Mach 1 α V), s.rest 0 = is →
      ∀ p, (s.run (List.replicate is.length 0)).rest p = [] := by
    intro is
    induction is with
    | nil =>
      intro s hs p
      have : p = 0 := Subsingleton.elim _ _
      rw [this]; exact hs
    | cons i is ih =>
      intro s hs p
      have hrun : s.run (List.replicate (i :: is).length 0) = (s.step 0).run (List.replicate is.length 0) := rfl
      rw [hrun]
      apply ih
      unfold Mach.step
      rw [hs]
      simp
  refine ⟨_, 1, fun _ => List.range n, fun _ => v, List.replicate ((List.range n).flatMap body).length 0, ?_, ?_, rfl⟩
  · simp [List.finRange_succ]
  · exact key _ _ rfl

end Pwtools.Dos
