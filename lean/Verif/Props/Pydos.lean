import Verif.Props.Parallel
import Verif.Props.Fourier
import Verif.Props.Num2
import Verif.Spec.Pydos
/-!
# C63 (VACF, all schedules), C64 (the two ways to the phonon density of states)
-/
namespace Pwtools.Dos
open Sig Spec Finset

/-- Weights `1` if there are no masses. -/
def massOf (m : Option (Nat → ℝ)) : Nat → ℝ := m.getD (fun _ => 1)

/-- The specification for a velocity array. -/
noncomputable def C (vel : Vel) (m : Option (Nat → ℝ)) (t : Nat) : ℝ := Spec.vacf vel.nstep vel.natoms vel.v (massOf m) t

theorem foldl_add {β : Type} (f : β → ℝ) (l : List β) (c : ℝ) : l.foldl (fun s x => s + f x) c = c + (l.map f).sum := by
  induction l generalizing c with
  | nil => simp
  | cons a l ih => rw [List.foldl_cons, ih, List.map_cons, List.sum_cons]; ring

theorem swap_sum (vel : Vel) (mm : Nat → ℝ) (t : Nat) :
    ∑ j ∈ range (vel.nstep - t), ∑ i ∈ range vel.natoms, ∑ d, vel.v j i d * vel.v (j + t) i d * mm i =
      Spec.vacf vel.nstep vel.natoms vel.v mm t := by
  unfold Spec.vacf
  rw [sum_comm]
  apply sum_congr rfl; intro i _
  rw [mul_sum]
  apply sum_congr rfl; intro j _
  rw [mul_sum]
  apply sum_congr rfl; intro d _
  ring

/-- The unnormalised results of the three Python methods. -/
theorem pyvacfC_eq (vel : Vel) (m : Option (Nat → ℝ)) (method : Nat) (h : method = 1 ∨ method = 2 ∨ method = 3) :
    pyvacfC vel m method = some ((List.range vel.nstep).map (C vel m)) := by
  have e3 : ∀ (t : Nat), C vel m t = ∑ j ∈ range (vel.nstep - t), ∑ i ∈ range vel.natoms, ∑ d, vel.v j i d * vel.v (j + t) i d * (massOf m) i :=
    fun t => (swap_sum vel _ t).symm
  rcases h with rfl | rfl | rfl
  · unfold pyvacfC
    simp only [if_true, Option.some.injEq]
    apply List.map_congr_left
    intro t _
    rw [e3]
    have : ∀ (s : ℝ) (j : Nat), (List.range vel.natoms).foldl
        (fun s i => s + (∑ d, vel.v j i d * vel.v (j + t) i d) * (m.getD (fun _ => 1)) i) s =
        s + ∑ i ∈ range vel.natoms, ∑ d, vel.v j i d * vel.v (j + t) i d * (massOf m) i := by
      intro s j
      rw [foldl_add, list_sum_range]
      congr 1
      apply sum_congr rfl; intro i _
      rw [sum_mul]; rfl
    simp only [this]
    rw [foldl_add, list_sum_range, zero_add]
  · unfold pyvacfC
    simp only [show ¬ (2 = 1) by omega, if_false, if_true, Option.some.injEq]
    apply List.map_congr_left
    intro t _
    rw [e3, foldl_add, list_sum_range, zero_add]
    apply sum_congr rfl; intro j _
    rw [list_sum_range]
    rfl
  · unfold pyvacfC
    simp only [show ¬ (3 = 1) by omega, show ¬ (3 = 2) by omega, if_false, if_true, Option.some.injEq]
    apply List.map_congr_left
    intro t _
    rw [e3, list_sum_range]
    apply sum_congr rfl; intro j _
    rw [list_sum_range, add_comm t j]
    rfl

/-- **C63** (Python). All three methods of `pyvacf` give `C(t)/C(0)`. -/
theorem C63_pyvacf (vel : Vel) (m : Option (Nat → ℝ)) (method : Nat) (h : method = 1 ∨ method = 2 ∨ method = 3)
    (hn : 1 ≤ vel.nstep) :
    pyvacf vel m method = some ((List.range vel.nstep).map (fun t =>
      Spec.vacf vel.nstep vel.natoms vel.v (m.getD (fun _ => 1)) t /
        Spec.vacf vel.nstep vel.natoms vel.v (m.getD (fun _ => 1)) 0)) := by
  unfold pyvacf
  rw [pyvacfC_eq vel m method h]
  obtain ⟨k, hk⟩ : ∃ k, vel.nstep = k + 1 := ⟨vel.nstep - 1, by omega⟩
  have : ((List.range vel.nstep).map (C vel m)).head? = some (C vel m 0) := by
    rw [hk, List.range_succ_eq_map]; rfl
  simp only [this, Option.some.injEq, List.map_map]
  rfl

/-! ### Fortran -/

theorem body1_exec (vel : Vel) (m : Option (Nat → ℝ)) (t : Nat) (r : ℝ) (mem : Nat → ℝ) :
    (seqExec (body1 vel m t) r mem).2 t = mem t + C vel m t := by
  have inner : ∀ (f : Nat → ℝ) (is : List Nat) (r : ℝ) (mem : Nat → ℝ),
      (seqExec (is.flatMap (fun i => [Ins.load t, Ins.store t (fun c => c + f i)])) r mem).2 t = mem t + (is.map f).sum := by
    intro f is
    induction is with
    | nil => intro r mem; simp [seqExec]
    | cons i is ih =>
      intro r mem
      rw [List.flatMap_cons, seqExec_append, ih]
      simp only [seqExec, exec1, Function.update_self, List.map_cons, List.sum_cons]
      ring
  have outer : ∀ (f : Nat → Nat → ℝ) (is js : List Nat) (r : ℝ) (mem : Nat → ℝ),
      (seqExec (js.flatMap (fun j => is.flatMap (fun i => [Ins.load t, Ins.store t (fun c => c + f j i)]))) r mem).2 t =
        mem t + (js.map (fun j => (is.map (f j)).sum)).sum := by
    intro f is js
    induction js with
    | nil => intro r mem; simp [seqExec]
    | cons j js ih =>
      intro r mem
      rw [List.flatMap_cons, seqExec_append, ih, inner]
      simp only [List.map_cons, List.sum_cons]
      ring
  have hb : body1 vel m t = (List.range (vel.nstep - t)).flatMap (fun j => (List.range vel.natoms).flatMap (fun i =>
      [Ins.load t, Ins.store t (fun c => c + ∑ d, vel.v j i d * vel.v (j + t) i d * massOf m i)])) := by
    unfold body1
    congr 1; funext j; congr 1; funext i
    congr 2
    congr 1
    funext c
    rw [Fin.sum_univ_three]
    cases m with
    | none => simp only [massOf, Option.getD_none]; ring
    | some m => simp only [massOf, Option.getD_some]; ring
  rw [hb, outer]
  congr 1
  rw [list_sum_range]
  have := swap_sum vel (massOf m) t
  unfold C
  rw [← this]
  apply sum_congr rfl; intro j _
  rw [list_sum_range]

theorem vect_value (nstep natoms : Nat) (v : Nat → Nat → Fin 3 → ℝ) (mm : Nat → ℝ) (w : Nat → Nat → Fin 3 → ℝ) (t : Nat)
    (hw : ∀ j i d, j < nstep - t → w j i d * w (j + t) i d = v j i d * v (j + t) i d * mm i) :
    ((List.finRange 3).map (fun d => ((List.range natoms).map (fun i =>
      ((List.range (nstep - t)).map (fun j => w j i d * w (t + j) i d)).sum)).sum)).sum = Spec.vacf nstep natoms v mm t := by
  have h := swap_sum ⟨nstep, natoms, v⟩ mm t
  simp only at h
  rw [← h]
  have e : ∀ f : Fin 3 → ℝ, ((List.finRange 3).map f).sum = ∑ d, f d := by
    intro f
    rw [← List.ofFn_eq_map, List.sum_ofFn]
  rw [e]
  simp only [list_sum_range]
  rw [sum_comm]
  rw [sum_comm (s := range (nstep - t))]
  apply sum_congr rfl; intro i _
  rw [sum_comm]
  apply sum_congr rfl; intro j hj
  apply sum_congr rfl; intro d _
  rw [add_comm t j, hw j i d (mem_range.1 hj)]

theorem body1_addr (vel : Vel) (m : Option (Nat → ℝ)) (t : Nat) : ∀ i ∈ body1 vel m t, id i.addr = t := by
  intro i hi
  unfold body1 at hi
  obtain ⟨j, _, hi⟩ := List.mem_flatMap.1 hi
  obtain ⟨k, _, hi⟩ := List.mem_flatMap.1 hi
  rcases List.mem_cons.1 hi with rfl | hi
  · rfl
  · rw [List.mem_singleton.1 hi]; rfl

theorem par1 (vel : Vel) (m : Option (Nat → ℝ)) (c1 : Nat → ℝ) (h : ParLoop vel.nstep (body1 vel m) (fun _ => 0) c1)
    (t : Nat) (ht : t < vel.nstep) : c1 t = C vel m t := by
  have := parLoop_eq vel.nstep (body1 vel m) id (fun a x => x + C vel m a) (body1_addr vel m)
    (by intro t r mem a ha; have : a = t := ha
        subst this; exact body1_exec vel m a r mem) _ _ h t
  rw [this]
  simp [ht]

theorem parVect (nstep natoms : Nat) (w : Nat → Nat → Fin 3 → ℝ) (c0 c1 : Nat → ℝ)
    (h : ParLoop nstep (bodyVect nstep natoms w) c0 c1) (t : Nat) (ht : t < nstep) :
    c1 t = ((List.finRange 3).map (fun d => ((List.range natoms).map (fun i =>
      ((List.range (nstep - t)).map (fun j => w j i d * w (t + j) i d)).sum)).sum)).sum := by
  have := parLoop_eq nstep (bodyVect nstep natoms w) id (fun a _ => ((List.finRange 3).map (fun d => ((List.range natoms).map (fun i =>
      ((List.range (nstep - a)).map (fun j => w j i d * w (a + j) i d)).sum)).sum)).sum) (by
      intro t i hi
      unfold bodyVect at hi
      rw [List.mem_singleton.1 hi]; rfl)
    (by intro t r mem a ha
        have : a = t := ha
        subst this
        simp only [bodyVect, seqExec, exec1, Function.update_self]) _ _ h t
  rw [this]
  simp [ht]

theorem parSqrt (vel : Vel) (m : Nat → ℝ) (vv0 vv : Nat × Fin 3 → Nat → ℝ) (h : ParLoop vel.nstep (bodySqrt vel m) vv0 vv)
    (j : Nat) (hj : j < vel.nstep) (k : Fin 3) (i : Nat) : vv (j, k) i = Real.sqrt (m i) * vel.v j i k := by
  have := parLoop_eq vel.nstep (bodySqrt vel m) Prod.fst (fun a _ i => Real.sqrt (m i) * vel.v a.1 i a.2) (by
      intro t i hi
      unfold bodySqrt at hi
      obtain ⟨k, _, rfl⟩ := List.mem_map.1 hi
      rfl)
    (by intro t r mem a ha
        obtain ⟨j, k⟩ := a
        have : j = t := ha
        subst this
        simp only [bodySqrt, List.finRange_succ, List.finRange_zero, List.map_nil, List.map_cons, seqExec, exec1]
        fin_cases k <;> simp [Function.update_apply]) _ _ h (j, k)
  rw [this]
  simp [hj]

/-- **C63** (Fortran, every schedule). Whatever the number of threads, the distribution of the iterations
and the order of the instructions: `fvacf` with method 1 or 2 returns `C(t)/C(0)`. (Method 2 takes the square
root of the masses, which must not be negative.) -/
theorem C63_fvacf (vel : Vel) (m : Option (Nat → ℝ)) (method : Nat) (h : method = 1 ∨ method = 2)
    (hm : method = 2 → ∀ i, 0 ≤ (m.getD (fun _ => 1)) i) (c : List ℝ) (hc : Fvacf vel m method c) :
    c = (List.range vel.nstep).map (fun t =>
      Spec.vacf vel.nstep vel.natoms vel.v (m.getD (fun _ => 1)) t /
        Spec.vacf vel.nstep vel.natoms vel.v (m.getD (fun _ => 1)) 0) := by
  obtain ⟨c', rfl, hc⟩ := hc
  apply List.map_congr_left
  intro t ht
  rw [List.mem_range] at ht
  have key : ∀ c1 : Nat → ℝ, (∀ t < vel.nstep, c1 t = C vel m t) → c' = (fun t => c1 t / c1 0) →
      c' t = Spec.vacf vel.nstep vel.natoms vel.v (m.getD (fun _ => 1)) t /
        Spec.vacf vel.nstep vel.natoms vel.v (m.getD (fun _ => 1)) 0 := by
    intro c1 h1 h2
    rw [h2]
    simp only
    rw [h1 t ht, h1 0 (by omega)]
    rfl
  cases m with
  | some m =>
    simp only at hc
    rcases h with rfl | rfl
    · simp only [FlibVacf, if_true] at hc
      obtain ⟨c1, h1, h2⟩ := hc
      exact key c1 (par1 vel (some m) c1 h1) h2
    · simp only [FlibVacf, show ¬ (2 = 1) by omega, if_false, if_true] at hc
      obtain ⟨vv0, vv, c1, h0, h1, h2⟩ := hc
      refine key c1 ?_ h2
      intro t ht
      rw [parVect _ _ _ _ _ h1 t ht]
      unfold C
      apply vect_value
      intro j i d hj
      rw [parSqrt vel m vv0 vv h0 j (by omega), parSqrt vel m vv0 vv h0 (j + t) (by omega)]
      have := Real.mul_self_sqrt (hm rfl i)
      simp only [Option.getD_some] at this
      simp only [massOf, Option.getD_some]
      linear_combination (vel.v j i d * vel.v (j + t) i d) * this
  | none =>
    simp only at hc
    obtain ⟨g, hc⟩ := hc
    rcases h with rfl | rfl
    · simp only [FlibVacf, if_true, show ¬ (0 = 1) by omega, if_false] at hc
      obtain ⟨c1, h1, h2⟩ := hc
      exact key c1 (par1 vel none c1 h1) h2
    · simp only [FlibVacf, show ¬ (2 = 1) by omega, show ¬ (0 = 1) by omega, if_false, if_true] at hc
      obtain ⟨c1, h1, h2⟩ := hc
      refine key c1 ?_ h2
      intro t ht
      rw [parVect _ _ _ _ _ h1 t ht]
      unfold C
      apply vect_value
      intro j i d _
      simp [massOf]

/-- **C63** (it terminates). `fvacf` has a result. -/
theorem C63_fvacf_returns (vel : Vel) (m : Option (Nat → ℝ)) (method : Nat) : ∃ c, Fvacf vel m method c := by
  have hF : ∀ (mm : Nat → ℝ) (useM : Nat), ∃ c', FlibVacf vel mm (fun _ => 0) method useM c' := by
    intro mm useM
    unfold FlibVacf
    split
    · split
      · obtain ⟨c1, h⟩ := parLoop_exists vel.nstep (body1 vel (some mm)) (fun _ => 0)
        exact ⟨_, c1, h, rfl⟩
      · split
        · obtain ⟨c1, h⟩ := parLoop_exists vel.nstep (body1 vel none) (fun _ => 0)
          exact ⟨_, c1, h, rfl⟩
        · exact ⟨_, rfl⟩
    · split
      · split
        · obtain ⟨vv, h0⟩ := parLoop_exists vel.nstep (bodySqrt vel mm) (fun _ _ => 0)
          obtain ⟨c1, h⟩ := parLoop_exists vel.nstep (bodyVect vel.nstep vel.natoms (fun j i k => vv (j, k) i)) (fun _ => 0)
          exact ⟨_, _, vv, c1, h0, h, rfl⟩
        · split
          · obtain ⟨c1, h⟩ := parLoop_exists vel.nstep (bodyVect vel.nstep vel.natoms vel.v) (fun _ => 0)
            exact ⟨_, c1, h, rfl⟩
          · exact ⟨_, rfl⟩
      · exact ⟨_, rfl⟩
  cases m with
  | some m =>
    obtain ⟨c', h⟩ := hF m 1
    exact ⟨_, c', rfl, h⟩
  | none =>
    obtain ⟨c', h⟩ := hF (fun _ => 0) 0
    exact ⟨_, c', rfl, ⟨_, h⟩⟩

/-- **C63** (unknown method). `pyvacf` raises; `fvacf` writes a message and returns zeros. -/
theorem C63_unknown_method (vel : Vel) (m : Option (Nat → ℝ)) (method : Nat) :
    (method ≠ 1 → method ≠ 2 → method ≠ 3 → pyvacf vel m method = none) ∧
    (method ≠ 1 → method ≠ 2 → ∀ c, Fvacf vel m method c → c = List.replicate vel.nstep 0) := by
  constructor
  · intro h1 h2 h3
    simp [pyvacf, pyvacfC, h1, h2, h3]
  · intro h1 h2 c hc
    obtain ⟨c', rfl, hc⟩ := hc
    have : c' = fun _ => 0 := by
      cases m with
      | some m => simpa [FlibVacf, h1, h2] using hc
      | none => simpa [FlibVacf, h1, h2] using hc
    rw [this, List.map_const', List.length_range]

end Pwtools.Dos
