import Verif.Props.Pdos
import Verif.Spec.PdosInv
import Mathlib.Data.Matrix.Mul
import Mathlib.LinearAlgebra.Matrix.NonsingularInverse
/-!
# C158: VACF and phonon density of states do not depend on units, orientation, order of atoms, number of
copies and direction of time
-/
namespace Pwtools.Dos
open Sig Spec Finset

/-- Both velocity arrays give the same results: all methods of `pyvacf`, all possible results of `fvacf` (any
threads), `pdos(method='direct')` for all arguments, and all possible results of `vacf_pdos`. -/
def SameResults (vel : Vel) (m : Option (Nat → ℝ)) (vel' : Vel) (m' : Option (Nat → ℝ)) : Prop :=
  (∀ method, pyvacf vel' m' method = pyvacf vel m method) ∧
  (∀ method c, method = 1 ∨ method = 2 → (Fvacf vel' m' method c ↔ Fvacf vel m method c)) ∧
  (∀ dt area window npad tonext, pdosDirect vel' dt m' area window npad tonext = pdosDirect vel dt m area window npad tonext) ∧
  (∀ dt area window out, VacfPdos vel' dt m' area window out ↔ VacfPdos vel dt m area window out)

theorem fvacf_iff (vel : Vel) (m : Option (Nat → ℝ)) (hm : ∀ i, 0 ≤ massOf m i) (method : Nat) (h : method = 1 ∨ method = 2) (c : List ℝ) :
    Fvacf vel m method c ↔ c = (List.range vel.nstep).map (fun t => C vel m t / C vel m 0) := by
  constructor
  · exact C63_fvacf vel m method h (fun _ => hm) c
  · rintro rfl
    obtain ⟨c, hc⟩ := C63_fvacf_returns vel m method
    have := C63_fvacf vel m method h (fun _ => hm) c hc
    have e : c = (List.range vel.nstep).map (fun t => C vel m t / C vel m 0) := this
    rw [← e]; exact hc

/-- Correlations and spectra which agree up to a common factor give the same results. -/
theorem same_of_factor (vel vel' : Vel) (m m' : Option (Nat → ℝ)) (hn : vel'.nstep = vel.nstep)
    (hm : ∀ i, 0 ≤ massOf m i) (hm' : ∀ i, 0 ≤ massOf m' i) (a : ℝ) (ha : a ≠ 0)
    (hC : ∀ w, ∀ t < vel.nstep, C (windowed vel' w) m' t = a * C (windowed vel w) m t)
    (hD : ∀ w L k, vel.nstep ≤ L → directL (windowed vel' w) m' L k = a * directL (windowed vel w) m L k) :
    SameResults vel m vel' m' := by
  have hlist : ∀ w, (List.range vel'.nstep).map (fun t => C (windowed vel' w) m' t / C (windowed vel' w) m' 0) =
      (List.range vel.nstep).map (fun t => C (windowed vel w) m t / C (windowed vel w) m 0) := by
    intro w
    rw [hn]
    apply List.map_congr_left
    intro t ht
    have ht := List.mem_range.1 ht
    rw [hC w t ht, hC w 0 (by omega), mul_div_mul_left _ _ ha]
  have hlist0 := hlist false
  have hwf : ∀ v, windowed v false = v := fun v => rfl
  simp only [hwf] at hlist0
  refine ⟨?_, ?_, ?_, ?_⟩
  · intro method
    by_cases h : method = 1 ∨ method = 2 ∨ method = 3
    · by_cases h1 : 1 ≤ vel.nstep
      · rw [C63_pyvacf vel m method h h1, C63_pyvacf vel' m' method h (by omega)]
        exact congrArg some hlist0
      · have h0 : vel.nstep = 0 := by omega
        unfold pyvacf
        rw [pyvacfC_eq vel m method h, pyvacfC_eq vel' m' method h, hn, h0]
        rfl
    · push Not at h
      rw [(C63_unknown_method vel m method).1 h.1 h.2.1 h.2.2, (C63_unknown_method vel' m' method).1 h.1 h.2.1 h.2.2]
  · intro method c h
    rw [fvacf_iff vel m hm method h, fvacf_iff vel' m' hm' method h, hlist0]
  · intro dt area window npad tonext
    cases hp : padding vel.nstep npad tonext with
    | error e =>
      unfold pdosDirect
      rw [hn, hp]
    | ok k =>
      by_cases hk : k < 0
      · unfold pdosDirect
        rw [hn, hp]
        simp [hk]
      · obtain ⟨K, rfl⟩ := Int.eq_ofNat_of_zero_le (not_lt.1 hk)
        rw [pdosDirect_eq vel dt m area window npad tonext K hp,
          pdosDirect_eq vel' dt m' area window npad tonext K (by rw [hn]; exact hp), hn]
        have e : (List.range ((vel.nstep + K) / 2)).map (directL (windowed vel' window) m' (vel.nstep + K)) =
            ((List.range ((vel.nstep + K) / 2)).map (directL (windowed vel window) m (vel.nstep + K))).map (· * a) := by
          rw [List.map_map]
          apply List.map_congr_left
          intro k _
          rw [hD window _ k (by omega)]
          simp only [Function.comp]
          ring
        rw [e, normInt_const _ _ _ _ ha]
  · intro dt area window out
    unfold VacfPdos
    have e : ∀ c, Fvacf (windowed vel' window) m' 2 c ↔ Fvacf (windowed vel window) m 2 c := by
      intro c
      rw [fvacf_iff _ m hm 2 (Or.inr rfl), fvacf_iff _ m' hm' 2 (Or.inr rfl), (windowed_shape vel window).1,
        (windowed_shape vel' window).1, hlist window]
    simp only [e]

/-- The correlation in terms of the scalar products. -/
theorem C_prod (vel : Vel) (m : Option (Nat → ℝ)) (t : Nat) :
    C vel m t = ∑ s ∈ range (vel.nstep - t), velProd vel.natoms vel.v (massOf m) s (s + t) := by
  unfold C Spec.vacf velProd
  rw [sum_comm]
  simp only [mul_sum]

/-- The squared norm of a transform. -/
theorem normSq_sum (n L : Nat) (h : n ≤ L) (x : Nat → ℝ) (e : Nat → ℂ) :
    ‖∑ s ∈ range L, (if s < n then ((x s : ℝ) : ℂ) else 0) * e s‖ ^ 2 =
      ∑ s ∈ range n, ∑ s' ∈ range n, x s * x s' * ((e s).re * (e s').re + (e s).im * (e s').im) := by
  have h1 : ∑ s ∈ range L, (if s < n then ((x s : ℝ) : ℂ) else 0) * e s = ∑ s ∈ range n, ((x s : ℝ) : ℂ) * e s := by
    rw [← sum_subset (range_mono h) (fun s _ hs => by
      rw [if_neg (by simpa using hs), zero_mul])]
    exact sum_congr rfl (fun s hs => by rw [if_pos (mem_range.1 hs)])
  rw [h1, ← Complex.normSq_eq_norm_sq, Complex.normSq_apply]
  have hre : (∑ s ∈ range n, ((x s : ℝ) : ℂ) * e s).re = ∑ s ∈ range n, x s * (e s).re := by
    rw [Complex.re_sum]; exact sum_congr rfl (fun s _ => Complex.re_ofReal_mul _ _)
  have him : (∑ s ∈ range n, ((x s : ℝ) : ℂ) * e s).im = ∑ s ∈ range n, x s * (e s).im := by
    rw [Complex.im_sum]; exact sum_congr rfl (fun s _ => Complex.im_ofReal_mul _ _)
  rw [hre, him, sum_mul_sum, sum_mul_sum, ← sum_add_distrib]
  refine sum_congr rfl (fun s _ => ?_)
  rw [← sum_add_distrib]
  exact sum_congr rfl (fun s' _ => by ring)

/-- Cosine of the phase difference of two times. -/
noncomputable def phase (L k s s' : Nat) : ℝ :=
  (ee L (-((k : Int) * s))).re * (ee L (-((k : Int) * s'))).re + (ee L (-((k : Int) * s))).im * (ee L (-((k : Int) * s'))).im

theorem directL_prod (vel : Vel) (m : Option (Nat → ℝ)) (L k : Nat) (h : vel.nstep ≤ L) :
    directL vel m L k = ∑ s ∈ range vel.nstep, ∑ s' ∈ range vel.nstep,
      velProd vel.natoms vel.v (massOf m) s s' * phase L k s s' := by
  unfold directL F velProd
  simp only [normSq_sum _ _ h]
  simp only [mul_sum, sum_mul]
  have : ∀ i, ∑ d : Fin 3, ∑ s ∈ range vel.nstep, ∑ s' ∈ range vel.nstep, massOf m i * (vel.v s i d * vel.v s' i d * phase L k s s') =
      ∑ s ∈ range vel.nstep, ∑ s' ∈ range vel.nstep, ∑ d : Fin 3, massOf m i * (vel.v s i d * vel.v s' i d) * phase L k s s' := by
    intro i
    rw [sum_comm]
    refine sum_congr rfl (fun s _ => ?_)
    rw [sum_comm]
    exact sum_congr rfl (fun s' _ => sum_congr rfl (fun d _ => by ring))
  refine (sum_congr rfl (fun i _ => this i)).trans ?_
  rw [sum_comm]
  refine sum_congr rfl (fun s _ => ?_)
  rw [sum_comm]

/-- Weights of the window. -/
noncomputable def wgt (n : Nat) (w : Bool) (s : Nat) : ℝ := if w then (welch (K := ℝ) n true).getD s 0 else 1

theorem windowed_prod (vel : Vel) (w : Bool) (mm : Nat → ℝ) (s s' : Nat) :
    velProd (windowed vel w).natoms (windowed vel w).v mm s s' =
      wgt vel.nstep w s * wgt vel.nstep w s' * velProd vel.natoms vel.v mm s s' := by
  cases w
  · simp [windowed, wgt]
  · simp only [windowed, wgt, if_true, velProd, mul_sum]
    refine sum_congr rfl (fun i _ => sum_congr rfl (fun d _ => by ring))

/-- **C158** (master). Results depend only on the mass weighted scalar products of the velocities at two times, and
only up to a common factor. -/
theorem C158_products (vel vel' : Vel) (m m' : Option (Nat → ℝ)) (hn : vel'.nstep = vel.nstep)
    (hm : ∀ i, 0 ≤ (m.getD (fun _ => 1)) i) (hm' : ∀ i, 0 ≤ (m'.getD (fun _ => 1)) i) (a : ℝ) (ha : a ≠ 0)
    (h : ∀ s < vel.nstep, ∀ s' < vel.nstep, velProd vel'.natoms vel'.v (m'.getD (fun _ => 1)) s s' =
      a * velProd vel.natoms vel.v (m.getD (fun _ => 1)) s s') :
    SameResults vel m vel' m' := by
  have hw : ∀ w, ∀ s < vel.nstep, ∀ s' < vel.nstep,
      velProd (windowed vel' w).natoms (windowed vel' w).v (massOf m') s s' =
      a * velProd (windowed vel w).natoms (windowed vel w).v (massOf m) s s' := by
    intro w s hs s' hs'
    rw [windowed_prod, windowed_prod, hn]
    have := h s hs s' hs'
    unfold massOf
    rw [this]; ring
  refine same_of_factor vel vel' m m' hn hm hm' a ha ?_ ?_
  · intro w t ht
    rw [C_prod, C_prod, (windowed_shape vel w).1, (windowed_shape vel' w).1, hn, mul_sum]
    refine sum_congr rfl (fun s hs => ?_)
    have hs := mem_range.1 hs
    exact hw w s (by omega) (s + t) (by omega)
  · intro w L k hL
    rw [directL_prod _ _ _ _ (by rw [(windowed_shape vel' w).1, hn]; exact hL),
      directL_prod _ _ _ _ (by rw [(windowed_shape vel w).1]; exact hL), (windowed_shape vel w).1, (windowed_shape vel' w).1, hn, mul_sum]
    refine sum_congr rfl (fun s hs => ?_)
    rw [mul_sum]
    refine sum_congr rfl (fun s' hs' => ?_)
    rw [hw w s (mem_range.1 hs) s' (mem_range.1 hs')]; ring

/-- **C158** (units). Other units of velocity and mass: nothing changes. -/
theorem C158_units (vel : Vel) (m : Nat → ℝ) (hm : ∀ i, 0 ≤ m i) (a b : ℝ) (ha : a ≠ 0) (hb : 0 < b) :
    SameResults vel (some m) ⟨vel.nstep, vel.natoms, fun s i d => a * vel.v s i d⟩ (some (fun i => b * m i)) ∧
    SameResults vel none ⟨vel.nstep, vel.natoms, fun s i d => a * vel.v s i d⟩ none ∧
    SameResults vel none vel (some (fun _ => b)) := by
  refine ⟨C158_products _ _ _ _ rfl hm (fun i => mul_nonneg hb.le (hm i)) (b * a ^ 2) (mul_ne_zero hb.ne' (pow_ne_zero 2 ha)) ?_,
    C158_products _ _ _ _ rfl (fun _ => by simp) (fun _ => by simp) (a ^ 2) (pow_ne_zero 2 ha) ?_,
    C158_products _ _ _ _ rfl (fun _ => by simp) (fun _ => by simpa using hb.le) b hb.ne' ?_⟩
  all_goals
    intro s _ s' _
    simp only [velProd, mul_sum, Option.getD_some, Option.getD_none]
    exact sum_congr rfl (fun i _ => sum_congr rfl (fun d _ => by ring))

/-- **C158** (orientation). The velocities of each atom are rotated or reflected in the same way at all times, not
necessarily in the same way for all atoms. -/
theorem C158_rotation (vel : Vel) (m : Option (Nat → ℝ)) (hm : ∀ i, 0 ≤ (m.getD (fun _ => 1)) i)
    (R : Nat → Matrix (Fin 3) (Fin 3) ℝ) (hR : ∀ i, (R i).transpose * R i = 1) :
    SameResults vel m ⟨vel.nstep, vel.natoms, fun s i => (R i).mulVec (vel.v s i)⟩ m := by
  refine C158_products vel _ m m rfl hm hm 1 one_ne_zero ?_
  intro s _ s' _
  rw [one_mul]
  unfold velProd
  refine sum_congr rfl (fun i _ => ?_)
  have : (R i).mulVec (vel.v s i) ⬝ᵥ (R i).mulVec (vel.v s' i) = vel.v s i ⬝ᵥ vel.v s' i := by
    rw [Matrix.dotProduct_mulVec, ← Matrix.mulVec_transpose, Matrix.mulVec_mulVec, hR i, Matrix.one_mulVec]
  exact congrArg _ this

/-- **C158** (order). Another order of the atoms, with their masses. -/
theorem C158_order (vel : Vel) (m : Option (Nat → ℝ)) (hm : ∀ i, 0 ≤ (m.getD (fun _ => 1)) i) (σ : Equiv.Perm (Fin vel.natoms)) :
    let p : Nat → Nat := fun i => if h : i < vel.natoms then σ ⟨i, h⟩ else i
    SameResults vel m ⟨vel.nstep, vel.natoms, fun s i => vel.v s (p i)⟩ (m.map (fun f i => f (p i))) := by
  intro p
  have hmm : ∀ i, ((m.map (fun f i => f (p i))).getD (fun _ => 1)) i = (m.getD (fun _ => 1)) (p i) := by
    intro i; cases m <;> rfl
  refine C158_products vel _ m _ rfl hm (fun i => by rw [hmm]; exact hm _) 1 one_ne_zero ?_
  intro s _ s' _
  rw [one_mul]
  unfold velProd
  simp only [hmm]
  rw [← Fin.sum_univ_eq_sum_range (fun i => (m.getD (fun _ => 1)) (p i) * ∑ d, vel.v s (p i) d * vel.v s' (p i) d),
    ← Fin.sum_univ_eq_sum_range (fun i => (m.getD (fun _ => 1)) i * ∑ d, vel.v s i d * vel.v s' i d)]
  refine Fintype.sum_equiv σ _ _ (fun i => ?_)
  have : p i = σ i := by simp [p]
  rw [this]

/-- **C158** (copies). `N` copies of each atom, as in a supercell, all moving alike. -/
theorem C158_copies (vel : Vel) (m : Option (Nat → ℝ)) (hm : ∀ i, 0 ≤ (m.getD (fun _ => 1)) i) (N : Nat) (hN : 1 ≤ N) :
    SameResults vel m ⟨vel.nstep, vel.natoms * N, fun s i => vel.v s (i / N)⟩ (m.map (fun f i => f (i / N))) := by
  have hmm : ∀ i, ((m.map (fun f i => f (i / N))).getD (fun _ => 1)) i = (m.getD (fun _ => 1)) (i / N) := by
    intro i; cases m <;> rfl
  refine C158_products vel _ m _ rfl hm (fun i => by rw [hmm]; exact hm _) N (by positivity) ?_
  intro s _ s' _
  unfold velProd
  simp only [hmm]
  have key : ∀ (g : Nat → ℝ) (A : Nat), ∑ i ∈ range (A * N), g (i / N) = N * ∑ i ∈ range A, g i := by
    intro g A
    induction A with
    | zero => simp
    | succ A ih =>
      rw [Nat.succ_mul, sum_range_add, ih, sum_range_succ, mul_add]
      congr 1
      rw [sum_congr rfl (fun x hx => by
        rw [show (A * N + x) / N = A by
          rw [Nat.mul_comm, Nat.mul_add_div (by omega), Nat.div_eq_of_lt (mem_range.1 hx), add_zero]])]
      simp
  exact key (fun i => (m.getD (fun _ => 1)) i * ∑ d, vel.v s i d * vel.v s' i d) vel.natoms

/-- **C158** (rest). Additional atoms which do not move, with any masses, change nothing. -/
theorem C158_rest (vel : Vel) (m : Option (Nat → ℝ)) (hm : ∀ i, 0 ≤ (m.getD (fun _ => 1)) i) (more : Nat) :
    SameResults vel m ⟨vel.nstep, vel.natoms + more, fun s i d => if i < vel.natoms then vel.v s i d else 0⟩ m := by
  refine C158_products vel _ m m rfl hm hm 1 one_ne_zero ?_
  intro s _ s' _
  rw [one_mul]
  unfold velProd
  rw [sum_range_add]
  have : ∑ x ∈ range more, (m.getD (fun _ => 1)) (vel.natoms + x) * ∑ d : Fin 3,
      (if vel.natoms + x < vel.natoms then vel.v s (vel.natoms + x) d else 0) *
        (if vel.natoms + x < vel.natoms then vel.v s' (vel.natoms + x) d else 0) = 0 := by
    refine sum_eq_zero (fun x _ => ?_)
    simp
  rw [this, add_zero]
  refine sum_congr rfl (fun i hi => ?_)
  have hi := mem_range.1 hi
  simp [hi]

theorem wgt_symm (n : Nat) (w : Bool) (s : Nat) (hs : s < n) : wgt n w (n - 1 - s) = wgt n w s := by
  cases w
  · simp [wgt]
  · rcases Nat.lt_or_ge n 2 with h | h
    · have : s = 0 := by omega
      have : n = 1 := by omega
      subst_vars; rfl
    · have e : ∀ t < n, wgt n true t = 1 - (((t : ℝ) - ((n : ℝ) - 1) / 2) / (((n : ℝ) - 1) / 2)) ^ 2 := by
        intro t ht
        have := (C64_window ⟨n, 1, fun _ _ _ => 1⟩ h t ht 0 0).2
        simpa [windowed, wgt] using this
      rw [e _ (by omega), e _ hs]
      have : ((n - 1 - s : Nat) : ℝ) = (n : ℝ) - 1 - s := by
        rw [Nat.cast_sub (by omega), Nat.cast_sub (by omega)]; simp
      rw [this]
      ring

/-- **C158** (reversal). The motion run backwards gives the same results. -/
theorem C158_reversal (vel : Vel) (m : Option (Nat → ℝ)) (hm : ∀ i, 0 ≤ (m.getD (fun _ => 1)) i) :
    SameResults vel m ⟨vel.nstep, vel.natoms, fun s i d => -vel.v (vel.nstep - 1 - s) i d⟩ m := by
  set vel' : Vel := ⟨vel.nstep, vel.natoms, fun s i d => -vel.v (vel.nstep - 1 - s) i d⟩ with hv
  have hn' : vel'.nstep = vel.nstep := rfl
  have hp : ∀ w, ∀ s < vel.nstep, ∀ s' < vel.nstep,
      velProd (windowed vel' w).natoms (windowed vel' w).v (massOf m) s s' =
      velProd (windowed vel w).natoms (windowed vel w).v (massOf m) (vel.nstep - 1 - s) (vel.nstep - 1 - s') := by
    intro w s hs s' hs'
    rw [windowed_prod, windowed_prod, wgt_symm _ w s hs, wgt_symm _ w s' hs']
    congr 1
    simp [velProd, hv]
  refine same_of_factor vel vel' m m rfl hm hm 1 one_ne_zero ?_ ?_
  · intro w t ht
    rw [one_mul, C_prod, C_prod, (windowed_shape vel w).1, (windowed_shape vel' w).1, hn']
    rw [← sum_range_reflect]
    refine sum_congr rfl (fun s hs => ?_)
    have hs := mem_range.1 hs
    rw [hp w _ (by omega) _ (by omega)]
    rw [show vel.nstep - 1 - (vel.nstep - t - 1 - s) = s + t by omega, show vel.nstep - 1 - (vel.nstep - t - 1 - s + t) = s by omega]
    unfold velProd
    exact sum_congr rfl (fun i _ => congrArg _ (sum_congr rfl (fun d _ => mul_comm _ _)))
  · intro w L k hL
    rw [one_mul, directL_prod _ _ _ _ (by rw [(windowed_shape vel' w).1]; exact hL),
      directL_prod _ _ _ _ (by rw [(windowed_shape vel w).1]; exact hL), (windowed_shape vel w).1, (windowed_shape vel' w).1, hn']
    rw [← sum_range_reflect]
    refine sum_congr rfl (fun s hs => ?_)
    rw [← sum_range_reflect]
    refine sum_congr rfl (fun s' hs' => ?_)
    have hs := mem_range.1 hs
    have hs' := mem_range.1 hs'
    rw [hp w _ (by omega) _ (by omega)]
    rw [show vel.nstep - 1 - (vel.nstep - 1 - s) = s by omega, show vel.nstep - 1 - (vel.nstep - 1 - s') = s' by omega]
    congr 1
    have ph : ∀ a b : Nat, phase L k a b = (ee L ((k : Int) * ((b : Int) - a))).re := by
      intro a b
      rw [show ((k : Int) * ((b : Int) - a)) = -((k : Int) * a) + -(-((k : Int) * b)) by ring, ee_add, ee_neg L (-((k : Int) * b))]
      unfold phase
      simp [Complex.mul_re]
    rw [ph, ph]
    have e : ((k : Int) * (((vel.nstep - 1 - s' : Nat) : Int) - ((vel.nstep - 1 - s : Nat) : Int))) = -((k : Int) * ((s' : Int) - s)) := by
      have h1 : ((vel.nstep - 1 - s' : Nat) : Int) = (vel.nstep : Int) - 1 - s' := by omega
      have h2 : ((vel.nstep - 1 - s : Nat) : Int) = (vel.nstep : Int) - 1 - s := by omega
      rw [h1, h2]; ring
    rw [e, ee_neg]
    simp

/-- Non-vacuity: one atom with velocities 1, 2, 3 along x and mass 2: the correlation at `t = 0` is not zero, so
`pyvacf` divides by a non-zero number; a quarter turn about z is a rotation as in `C158_rotation`. -/
example : velProd 1 (fun s _ d => if d = 0 then (s : ℝ) + 1 else 0) (fun _ => 2) 1 2 = 12 ∧
    (!![0, -1, 0; 1, 0, 0; 0, 0, (1 : ℝ)]).transpose * !![0, -1, 0; 1, 0, 0; 0, 0, 1] = 1 := by
  refine ⟨by simp [velProd]; norm_num, ?_⟩
  ext i j
  fin_cases i <;> fin_cases j <;> simp [Matrix.mul_apply, Fin.sum_univ_three]

end Pwtools.Dos
