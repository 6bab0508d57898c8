import Verif.Model.DistTraj
import Verif.Props.Parallel
import Verif.Props.Pbc
/-!
# Distances along trajectories (C95)
-/
namespace Pwtools.Cry
open Dos

/-- One part of the routine: every address `b x` gets its value from `a x`. -/
theorem phase_eq {α V X : Type} [DecidableEq α] (a b : X → α) (f : X → V → V) (ps : List X)
    (hinj : ∀ x y, b x = b y → x = y) (hab : ∀ x y, a x ≠ b y) (r : V) (mem : α → V) :
    (∀ x ∈ ps, (seqExec (ps.flatMap fun x => [.load (a x), .store (b x) (f x)]) r mem).2 (b x) = f x (mem (a x))) ∧
    ∀ c, (∀ x ∈ ps, c ≠ b x) → (seqExec (ps.flatMap fun x => [.load (a x), .store (b x) (f x)]) r mem).2 c = mem c := by
  induction ps generalizing r mem with
  | nil => exact ⟨by simp, fun c _ => rfl⟩
  | cons x ps ih =>
    have e : (x :: ps).flatMap (fun x => [Ins.load (a x), .store (b x) (f x)]) =
        .load (a x) :: .store (b x) (f x) :: ps.flatMap (fun x => [Ins.load (a x), .store (b x) (f x)]) := by simp
    rw [e]
    simp only [seqExec, exec1]
    obtain ⟨h1, h2⟩ := ih (mem (a x)) (Function.update mem (b x) (f x (mem (a x))))
    have hm : ∀ y, Function.update mem (b x) (f x (mem (a x))) (a y) = mem (a y) := fun y => Function.update_of_ne (hab y x) _ _
    constructor
    · intro y hy
      by_cases hyp : y ∈ ps
      · rw [h1 y hyp, hm]
      · have hyx : y = x := by
          rcases List.mem_cons.1 hy with h | h
          · exact h
          · exact absurd h hyp
        rw [h2 (b y) fun z hz he => hyp (by rw [hinj _ _ he]; exact hz), hyx, Function.update_self]
    · intro c hc
      rw [h2 c fun z hz => hc z (by simp [hz]), Function.update_of_ne (hc x (by simp))]

theorem store_eq {α V X : Type} [DecidableEq α] (b : X → α) (v : X → V) (ps : List X) (hinj : ∀ x y, b x = b y → x = y) (r : V)
    (mem : α → V) :
    (∀ x ∈ ps, (seqExec (ps.flatMap fun x => [.store (b x) fun _ => v x]) r mem).2 (b x) = v x) ∧
    ∀ c, (∀ x ∈ ps, c ≠ b x) → (seqExec (ps.flatMap fun x => [.store (b x) fun _ => v x]) r mem).2 c = mem c := by
  induction ps generalizing r mem with
  | nil => exact ⟨by simp, fun c _ => rfl⟩
  | cons x ps ih =>
    have e : (x :: ps).flatMap (fun x => [Ins.store (b x) fun _ => v x]) =
        .store (b x) (fun _ => v x) :: ps.flatMap (fun x => [Ins.store (b x) fun _ => v x]) := by simp
    rw [e]
    simp only [seqExec, exec1]
    obtain ⟨h1, h2⟩ := ih r (Function.update mem (b x) (v x))
    constructor
    · intro y hy
      by_cases hyp : y ∈ ps
      · exact h1 y hyp
      · have hyx : y = x := by
          rcases List.mem_cons.1 hy with h | h
          · exact h
          · exact absurd h hyp
        rw [h2 (b y) fun z hz he => hyp (by rw [hinj _ _ he]; exact hz), hyx, Function.update_self]
    · intro c hc
      rw [h2 c fun z hz => hc z (by simp [hz]), Function.update_of_ne (hc x (by simp))]

theorem mem_pairs (n i j : Nat) : (i, j) ∈ atomPairs n ↔ i < n ∧ j < n := by
  unfold atomPairs
  rw [List.mem_flatMap]
  constructor
  · rintro ⟨j', hj, h⟩
    obtain ⟨i', hi, e⟩ := List.mem_map.1 h
    rw [List.mem_range] at hj hi
    simp only [Prod.mk.injEq] at e
    omega
  · rintro ⟨hi, hj⟩
    exact ⟨j, List.mem_range.2 hj, List.mem_map.2 ⟨i, List.mem_range.2 hi, rfl⟩⟩

variable (n : Nat) (cell : Nat → Cell) (d : Nat → Nat → Nat → V3)

/-- The parts before the last one: the squared distances of step `t` are in copy `c`; the result array is not touched. -/
theorem front_eq (c t : Nat) (r : V3) (mem : DAddr → V3) :
    (∀ i j, i < n → j < n → (seqExec (phaseFrac c n (d t) ++ phaseVec c n (cell t) ++ phaseSq c n) r mem).2 (.sq c i j) =
      fun _ => ∑ k, frac2cart (cell t) (d t i j) k ^ 2) ∧
    ∀ t' i j, (seqExec (phaseFrac c n (d t) ++ phaseVec c n (cell t) ++ phaseSq c n) r mem).2 (.out t' i j) = mem (.out t' i j) := by
  have p1 := store_eq (fun x : Nat × Nat => DAddr.frac c x.1 x.2) (fun x => d t x.1 x.2) (atomPairs n)
    (fun x y h => by simp only [DAddr.frac.injEq] at h; exact Prod.ext h.2.1 h.2.2)
  have p2 := phase_eq (fun x : Nat × Nat => DAddr.frac c x.1 x.2) (fun x : Nat × Nat => DAddr.vec c x.1 x.2)
    (fun _ => frac2cart (cell t)) (atomPairs n)
    (fun x y h => by simp only [DAddr.vec.injEq] at h; exact Prod.ext h.2.1 h.2.2) (fun x y h => by simp at h)
  have p3 := phase_eq (fun x : Nat × Nat => DAddr.vec c x.1 x.2) (fun x : Nat × Nat => DAddr.sq c x.1 x.2)
    (fun _ (v : V3) _ => ∑ k, v k ^ 2) (atomPairs n)
    (fun x y h => by simp only [DAddr.sq.injEq] at h; exact Prod.ext h.2.1 h.2.2) (fun x y h => by simp at h)
  rw [seqExec_append, seqExec_append]
  constructor
  · intro i j hi hj
    have hm : (i, j) ∈ atomPairs n := (mem_pairs n i j).2 ⟨hi, hj⟩
    have e3 := (p3 (seqExec (phaseVec c n (cell t)) (seqExec (phaseFrac c n (d t)) r mem).1 (seqExec (phaseFrac c n (d t)) r mem).2).1
      (seqExec (phaseVec c n (cell t)) (seqExec (phaseFrac c n (d t)) r mem).1 (seqExec (phaseFrac c n (d t)) r mem).2).2).1 (i, j) hm
    have e2 := (p2 (seqExec (phaseFrac c n (d t)) r mem).1 (seqExec (phaseFrac c n (d t)) r mem).2).1 (i, j) hm
    have e1 := (p1 r mem).1 (i, j) hm
    unfold phaseSq
    rw [e3]
    funext _
    apply Finset.sum_congr rfl
    intro k _
    unfold phaseVec
    rw [e2]
    unfold phaseFrac
    rw [e1]
  · intro t' i j
    unfold phaseSq
    rw [(p3 _ _).2 _ (by simp)]
    unfold phaseVec
    rw [(p2 _ _).2 _ (by simp)]
    unfold phaseFrac
    rw [(p1 _ _).2 _ (by simp)]

theorem out_eq (c t : Nat) (r : V3) (mem : DAddr → V3) :
    (∀ i j, i < n → j < n → (seqExec (phaseOut c t n) r mem).2 (.out t i j) = fun _ => Real.sqrt (mem (.sq c i j) 0)) ∧
    ∀ a, (∀ i j, a ≠ .out t i j) → (seqExec (phaseOut c t n) r mem).2 a = mem a := by
  have p := phase_eq (fun x : Nat × Nat => DAddr.sq c x.1 x.2) (fun x : Nat × Nat => DAddr.out t x.1 x.2)
    (fun _ (v : V3) _ => Real.sqrt (v 0)) (atomPairs n)
    (fun x y h => by simp only [DAddr.out.injEq] at h; exact Prod.ext h.2.1 h.2.2) (fun x y h => by simp at h) r mem
  exact ⟨fun i j hi hj => p.1 (i, j) ((mem_pairs n i j).2 ⟨hi, hj⟩), fun a ha => p.2 a fun x _ => ha x.1 x.2⟩

/-- One iteration. -/
theorem body_eq (c t : Nat) (r : V3) (mem : DAddr → V3) :
    (∀ i j, i < n → j < n → (seqExec (distBody n cell d c t) r mem).2 (.out t i j) = fun _ => distOf (cell t) (d t i j)) ∧
    ∀ t' i j, t' ≠ t → (seqExec (distBody n cell d c t) r mem).2 (.out t' i j) = mem (.out t' i j) := by
  unfold distBody
  rw [seqExec_append]
  obtain ⟨f1, f2⟩ := front_eq n cell d c t r mem
  obtain ⟨o1, o2⟩ := out_eq n c t (seqExec (phaseFrac c n (d t) ++ phaseVec c n (cell t) ++ phaseSq c n) r mem).1
    (seqExec (phaseFrac c n (d t) ++ phaseVec c n (cell t) ++ phaseSq c n) r mem).2
  constructor
  · intro i j hi hj
    rw [o1 i j hi hj, f1 i j hi hj]
    rfl
  · intro t' i j ht
    rw [o2 _ (fun i' j' h => ht (by simp only [DAddr.out.injEq] at h; exact h.1)), f2]

/-- Several iterations of one thread. -/
theorem bodies_eq (c : Nat) (ts : List Nat) (r : V3) (mem : DAddr → V3) (t i j : Nat) (ht : t ∈ ts) (hi : i < n) (hj : j < n) :
    (seqExec (ts.flatMap (distBody n cell d c)) r mem).2 (.out t i j) = fun _ => distOf (cell t) (d t i j) := by
  induction ts generalizing r mem with
  | nil => simp at ht
  | cons t0 ts ih =>
    rw [List.flatMap_cons, seqExec_append]
    by_cases h : t ∈ ts
    · exact ih _ _ h
    · have h0 : t = t0 := by
        rcases List.mem_cons.1 ht with h' | h'
        · exact h'
        · exact absurd h' h
      subst h0
      have hun : ∀ (us : List Nat) (r : V3) (mem : DAddr → V3), t ∉ us →
          (seqExec (us.flatMap (distBody n cell d c)) r mem).2 (.out t i j) = mem (.out t i j) := by
        intro us
        induction us with
        | nil => intro r mem _; rfl
        | cons u us ihu =>
          intro r mem hu
          rw [List.mem_cons, not_or] at hu
          rw [List.flatMap_cons, seqExec_append, ihu _ _ hu.2, (body_eq n cell d c u r mem).2 t i j hu.1]
      rw [hun ts _ _ h, (body_eq n cell d c t r mem).1 i j hi hj]

/-- The addresses which an iteration uses. -/
theorem body_addr (c t : Nat) : ∀ ins ∈ distBody n cell d c t,
    (∃ i j, ins.addr = .frac c i j) ∨ (∃ i j, ins.addr = .vec c i j) ∨ (∃ i j, ins.addr = .sq c i j) ∨ ∃ i j, ins.addr = .out t i j := by
  intro ins h
  simp only [distBody, phaseFrac, phaseVec, phaseSq, phaseOut, List.mem_append, List.mem_flatMap, List.mem_cons, List.not_mem_nil,
    or_false] at h
  rcases h with ((⟨x, -, rfl⟩ | ⟨x, -, rfl | rfl⟩) | ⟨x, -, rfl | rfl⟩) | ⟨x, -, rfl | rfl⟩
  · exact Or.inl ⟨_, _, rfl⟩
  · exact Or.inl ⟨_, _, rfl⟩
  · exact Or.inr (Or.inl ⟨_, _, rfl⟩)
  · exact Or.inr (Or.inl ⟨_, _, rfl⟩)
  · exact Or.inr (Or.inr (Or.inl ⟨_, _, rfl⟩))
  · exact Or.inr (Or.inr (Or.inl ⟨_, _, rfl⟩))
  · exact Or.inr (Or.inr (Or.inr ⟨_, _, rfl⟩))

theorem out_mem (c t i j : Nat) (hi : i < n) (hj : j < n) : ∃ ins ∈ distBody n cell d c t, ins.addr = .out t i j := by
  refine ⟨.store (.out t i j) fun v _ => Real.sqrt (v 0), ?_, rfl⟩
  simp only [distBody, phaseOut, List.mem_append, List.mem_flatMap]
  exact Or.inr ⟨(i, j), (mem_pairs n i j).2 ⟨hi, hj⟩, by simp⟩

/-- **C95** Whatever the number of threads and their speed: entry `[t,i,j]` is the distance of atoms `i` and `j` in the cell of step `t`. -/
theorem C95_schedule (nstep natoms : Nat) (cf : Nat → Nat → V3) (cell : Nat → Cell) (pbc : Bool) (dists : Nat → Nat → Nat → ℝ)
    (h : DistancesTraj privateCopy nstep natoms cf cell pbc dists) (t i j : Nat) (ht : t < nstep) (hi : i < natoms) (hj : j < natoms) :
    IsDist (cell t) pbc (cf t i) (cf t j) (dists t i j) := by
  obtain ⟨d, mem, mem', hd, ⟨P, own, reg, sched, hperm, hfin, rfl⟩, rfl⟩ := h
  set s : Mach P DAddr V3 := ⟨mem, reg, fun p => (own p).flatMap (distBody natoms cell d (privateCopy p))⟩ with hs
  have hnd : ((List.finRange P).flatMap own).Nodup := hperm.nodup_iff.2 List.nodup_range
  obtain ⟨-, hnd2⟩ := List.nodup_flatMap.1 hnd
  have hne : ∀ p q : Fin P, p ≠ q → ∀ t ∈ own p, t ∉ own q := by
    intro p q hpq t ht ht'
    have hpw : (List.finRange P).Pairwise (fun a b => ∀ ⦃x⦄, x ∈ own a → x ∈ own b → False) := hnd2
    haveI : Std.Symm (fun a b : Fin P => ∀ ⦃x⦄, x ∈ own a → x ∈ own b → False) := ⟨fun x y hxy z h1 h2 => hxy h2 h1⟩
    exact hpw.forall (List.mem_finRange p) (List.mem_finRange q) hpq ht ht'
  have hdis : ∀ p q, p ≠ q → ∀ i ∈ s.rest p, ∀ j ∈ s.rest q, i.addr ≠ j.addr := by
    intro p q hpq a ha b hb he
    obtain ⟨t1, ht1, ha⟩ := List.mem_flatMap.1 ha
    obtain ⟨t2, ht2, hb⟩ := List.mem_flatMap.1 hb
    have hpq' : (p : Nat) ≠ q := fun e => hpq (Fin.ext e)
    rcases body_addr natoms cell d _ _ a ha with ⟨_, _, h1⟩ | ⟨_, _, h1⟩ | ⟨_, _, h1⟩ | ⟨_, _, h1⟩ <;>
    rcases body_addr natoms cell d _ _ b hb with ⟨_, _, h2⟩ | ⟨_, _, h2⟩ | ⟨_, _, h2⟩ | ⟨_, _, h2⟩ <;>
    rw [h1, h2] at he <;> simp only [DAddr.frac.injEq, DAddr.vec.injEq, DAddr.sq.injEq, DAddr.out.injEq, privateCopy, reduceCtorEq] at he
    · exact hpq' he.1
    · exact hpq' he.1
    · exact hpq' he.1
    · exact hne p q hpq t1 ht1 (by rw [he.1]; exact ht2)
  obtain ⟨-, h2⟩ := interleave sched s hdis hfin
  obtain ⟨p, hp⟩ : ∃ p, t ∈ own p := by
    have : t ∈ (List.finRange P).flatMap own := hperm.mem_iff.2 (List.mem_range.2 ht)
    obtain ⟨p, -, hp⟩ := List.mem_flatMap.1 this
    exact ⟨p, hp⟩
  obtain ⟨ins, hins, ha⟩ := out_mem natoms cell d (privateCopy p) t i j hi hj
  have h3 := h2 p ins (List.mem_flatMap.2 ⟨t, hp, hins⟩)
  rw [ha] at h3
  refine ⟨d t i j, hd t i j, ?_⟩
  show (s.run sched).mem (.out t i j) 0 = _
  rw [h3]
  show (seqExec ((own p).flatMap (distBody natoms cell d (privateCopy p))) (reg p) mem).2 (.out t i j) 0 = _
  rw [bodies_eq natoms cell d (privateCopy p) (own p) (reg p) mem t i j hp hi hj]

/-! ## schedules -/

/-- A thread which runs alone for `k` instructions. -/
theorem run_alone {P : Nat} {α V : Type} [DecidableEq α] (p : Fin P) (is rest : List (Ins α V)) (s : Mach P α V)
    (h : s.rest p = is ++ rest) :
    s.run (List.replicate is.length p) =
      ⟨(seqExec is (s.reg p) s.mem).2, Function.update s.reg p (seqExec is (s.reg p) s.mem).1, Function.update s.rest p rest⟩ := by
  induction is generalizing s with
  | nil =>
    simp only [List.nil_append] at h
    have : s.run (List.replicate ([] : List (Ins α V)).length p) = s := rfl
    rw [this, ← h]
    simp [seqExec]
  | cons i is ih =>
    have hrun : s.run (List.replicate (i :: is).length p) = (s.step p).run (List.replicate is.length p) := rfl
    have hst : s.step p = ⟨(exec1 i (s.reg p) s.mem).2, Function.update s.reg p (exec1 i (s.reg p) s.mem).1,
        Function.update s.rest p (is ++ rest)⟩ := by
      unfold Mach.step
      rw [h]
      rfl
    rw [hrun, ih (s.step p) (by rw [hst]; simp), hst]
    simp [seqExec]

theorem run_append {P : Nat} {α V : Type} [DecidableEq α] (s : Mach P α V) (a b : List (Fin P)) : s.run (a ++ b) = (s.run a).run b := by
  unfold Mach.run
  rw [List.foldl_append]

theorem dvf_exists (pbc : Bool) (x y : V3) : ∃ v, DistVecFrac pbc x y v := by
  obtain ⟨r, ⟨v, hv, -⟩, -⟩ := C37_dist_exists (1 : Cell) pbc x y
  exact ⟨v, hv⟩

/-- Every call has a result. -/
theorem C95_result (nstep natoms : Nat) (cf : Nat → Nat → V3) (cell : Nat → Cell) (pbc : Bool) :
    ∃ dists, DistancesTraj privateCopy nstep natoms cf cell pbc dists := by
  choose d hd using fun t i j => dvf_exists pbc (cf t i) (cf t j)
  refine ⟨_, d, fun _ => 0, _, hd, ⟨1, fun _ => List.range nstep, fun _ => 0,
    List.replicate ((List.range nstep).flatMap (distBody natoms cell d (privateCopy (0 : Fin 1)))).length 0, ?_, ?_, rfl⟩, rfl⟩
  · simp [List.finRange_succ]
  · intro p
    have hp : p = 0 := Subsingleton.elim _ _
    subst hp
    rw [run_alone (0 : Fin 1) ((List.range nstep).flatMap (distBody natoms cell d (privateCopy (0 : Fin 1)))) [] _ (by simp)]
    simp

/-- The `private` clause is needed (`flib.f90:509`): with common work arrays and two threads, the distances of the second step can end up
in the first one. -/
theorem C95_private_needed (natoms : Nat) (cf : Nat → Nat → V3) (cell : Nat → Cell) (pbc : Bool) :
    ∃ dists, DistancesTraj sharedCopy 2 natoms cf cell pbc dists ∧
      ∀ i j, i < natoms → j < natoms → IsDist (cell 1) pbc (cf 1 i) (cf 1 j) (dists 0 i j) := by
  choose d hd using fun t i j => dvf_exists pbc (cf t i) (cf t j)
  set front := phaseFrac 0 natoms (d 0) ++ phaseVec 0 natoms (cell 0) ++ phaseSq 0 natoms with hfront
  have hb0 : distBody natoms cell d 0 0 = front ++ phaseOut 0 0 natoms := rfl
  set own : Fin 2 → List Nat := fun p => [(p : Nat)] with hown
  set s : Mach 2 DAddr V3 := ⟨fun _ => 0, fun _ => 0, fun p => (own p).flatMap (distBody natoms cell d (sharedCopy p))⟩ with hs
  set sched : List (Fin 2) := List.replicate front.length 0 ++ (List.replicate (distBody natoms cell d 0 1).length 1 ++
    List.replicate (phaseOut 0 0 natoms).length 0) with hsched
  have r0 : s.rest 0 = front ++ phaseOut 0 0 natoms := by
    simp [hs, hown, sharedCopy, hb0]
  have r1 : s.rest 1 = distBody natoms cell d 0 1 := by
    simp [hs, hown, sharedCopy]
  have e1 := run_alone (0 : Fin 2) front (phaseOut 0 0 natoms) s r0
  set s1 := s.run (List.replicate front.length 0) with hs1
  have e2 := run_alone (1 : Fin 2) (distBody natoms cell d 0 1) [] s1 (by rw [e1]; simp [r1])
  set s2 := s1.run (List.replicate (distBody natoms cell d 0 1).length 1) with hs2
  have e3 := run_alone (0 : Fin 2) (phaseOut 0 0 natoms) [] s2 (by rw [e2, e1]; simp)
  have er : s.run sched = s2.run (List.replicate (phaseOut 0 0 natoms).length 0) := by
    rw [hsched, run_append, run_append]
  refine ⟨_, ⟨d, fun _ => 0, _, hd, ⟨2, own, fun _ => 0, sched, ?_, ?_, rfl⟩, rfl⟩, ?_⟩
  · rfl
  · intro p
    change (s.run sched).rest p = []
    rw [er, e3]
    fin_cases p
    · simp
    · simp [e2]
  · intro i j hi hj
    refine ⟨d 1 i j, hd 1 i j, ?_⟩
    change (s.run sched).mem (.out 0 i j) 0 = _
    rw [er, e3]
    simp only
    rw [(out_eq natoms 0 0 _ _).1 i j hi hj, e2]
    simp only
    unfold distBody
    rw [seqExec_append, (out_eq natoms 0 1 _ _).2 _ (by simp), (front_eq natoms cell d 0 1 _ _).1 i j hi hj]
    rfl

/-- Two atoms, two steps, unit cells: the distance goes from 3/10 to 2/5. -/
example : ∃ dists, DistancesTraj privateCopy 2 2 (fun t i => ![(i : ℝ) * (3 + t) / 10, 0, 0]) (fun _ => 1) true dists ∧
    dists 1 0 1 = 2 / 5 := by
  obtain ⟨dists, h⟩ := C95_result 2 2 (fun t i => ![(i : ℝ) * (3 + t) / 10, 0, 0]) (fun _ => 1) true
  refine ⟨dists, h, ?_⟩
  have h1 := C95_schedule 2 2 _ _ true dists h 1 0 1 (by norm_num) (by norm_num) (by norm_num)
  have h2 : IsDist (1 : Cell) true ![((0 : Nat) : ℝ) * (3 + ((1 : Nat) : ℝ)) / 10, 0, 0] ![((1 : Nat) : ℝ) * (3 + ((1 : Nat) : ℝ)) / 10, 0, 0]
      (2 / 5) := by
    refine ⟨![-(2 / 5), 0, 0], ?_, ?_⟩
    · simp only [DistVecFrac, if_true]
      intro k
      rw [minImageF_char]
      fin_cases k
      · norm_num
      · norm_num
        exact ⟨0, by norm_num⟩
      · norm_num
        exact ⟨0, by norm_num⟩
    · have : ∑ k, frac2cart (1 : Cell) ![-(2 / 5), 0, 0] k ^ 2 = (2 / 5) ^ 2 := by
        simp [Fin.sum_univ_three, frac2cart, Matrix.vecMul, dotProduct]
      rw [distOf, this, Real.sqrt_sq (by norm_num)]
  exact (C37_dist_exists _ _ _ _).unique h1 h2

end Pwtools.Cry
