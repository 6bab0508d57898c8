import Verif.Props.Pdos
import Verif.Spec.PdosMode
import Mathlib.Algebra.Polynomial.Roots
/-!
# C166: the phonon density of states of harmonic motions, existence and sign
-/
namespace Pwtools.Dos
open Sig Spec Finset

/-! ### Simpson's rule on a uniform grid -/

/-- `n` points from `x0` with distance `h`. -/
def ugrid (h : ℝ) : ℝ → Nat → List ℝ
  | _, 0 => []
  | x0, n + 1 => x0 :: ugrid h (x0 + h) n

theorem ugrid_eq (h : ℝ) (n : Nat) (x0 : ℝ) : ugrid h x0 n = (List.range n).map (fun k : Nat => x0 + k * h) := by
  induction n generalizing x0 with
  | zero => rfl
  | succ n ih =>
    rw [ugrid, ih, List.range_succ_eq_map, List.map_cons, List.map_map]
    congr 1
    · simp
    · apply List.map_congr_left
      intro k _
      simp only [Function.comp]
      push_cast
      ring

theorem ugrid_take (h : ℝ) (n j : Nat) (x0 : ℝ) (hj : j ≤ n) : (ugrid h x0 n).take j = ugrid h x0 j := by
  rw [ugrid_eq, ugrid_eq, ← List.map_take, List.take_range, min_eq_left hj]

theorem ugrid_drop (h : ℝ) (n j : Nat) (x0 : ℝ) (hj : j ≤ n) : (ugrid h x0 n).drop j = ugrid h (x0 + j * h) (n - j) := by
  induction j generalizing n x0 with
  | zero => simp
  | succ j ih =>
    cases n with
    | zero => omega
    | succ n =>
      rw [ugrid, List.drop_succ_cons, ih n (x0 + h) (by omega), Nat.add_sub_add_right]
      congr 1
      push_cast
      ring

theorem simpsOdd_step (h : ℝ) (hh : 0 < h) (x0 : ℝ) (n : Nat) (y0 y1 y2 : ℝ) (ys : List ℝ) :
    Num.simpsOdd (y0 :: y1 :: y2 :: ys) (ugrid h x0 (n + 3)) =
      h / 3 * (y0 + 4 * y1 + y2) + Num.simpsOdd (y2 :: ys) (ugrid h (x0 + h + h) (n + 1)) := by
  simp only [ugrid, Num.simpsOdd]
  have e1 : x0 + h - x0 = h := by ring
  have e2 : x0 + h + h - (x0 + h) = h := by ring
  rw [e1, e2]
  congr 1
  field_simp
  ring

/-- Simpson's rule is not negative for values which are not negative, and positive if one of them is positive. -/
theorem simpsOdd_nonneg (h : ℝ) (hh : 0 < h) : ∀ (k : Nat) (x0 : ℝ) (y : List ℝ), y.length = 2 * k + 1 → (∀ v ∈ y, 0 ≤ v) →
    0 ≤ Num.simpsOdd y (ugrid h x0 y.length) ∧ (1 ≤ k → (∃ v ∈ y, 0 < v) → 0 < Num.simpsOdd y (ugrid h x0 y.length))
  | 0, x0, [y0], _, hp => by simp [Num.simpsOdd]
  | k + 1, x0, y0 :: y1 :: y2 :: ys, hl, hp => by
    have hl' : (y2 :: ys).length = 2 * k + 1 := by simp only [List.length_cons] at hl ⊢; omega
    have ih := simpsOdd_nonneg h hh k (x0 + h + h) (y2 :: ys) hl' (fun v hv => hp v (by simp only [List.mem_cons] at hv ⊢; tauto))
    have h0 := hp y0 (by simp)
    have h1 := hp y1 (by simp)
    have h2 := hp y2 (by simp)
    simp only [List.length_cons] at ih ⊢
    rw [simpsOdd_step h hh]
    refine ⟨add_nonneg (by positivity) ih.1, fun _ ⟨v, hv, hpos⟩ => ?_⟩
    simp only [List.mem_cons] at hv
    have hs : 0 < y0 + 4 * y1 + y2 → 0 < h / 3 * (y0 + 4 * y1 + y2) + Num.simpsOdd (y2 :: ys) (ugrid h (x0 + h + h) (ys.length + 1)) :=
      fun hx => add_pos_of_pos_of_nonneg (by positivity) ih.1
    rcases hv with rfl | rfl | rfl | hv
    · exact hs (by linarith)
    · exact hs (by linarith)
    · exact hs (by linarith)
    · refine add_pos_of_nonneg_of_pos (by positivity) (ih.2 ?_ ⟨v, by simp [hv], hpos⟩)
      have : 0 < ys.length := List.length_pos_of_mem hv
      simp only [List.length_cons] at hl'
      omega

/-- The same for the average rule with an even number of points. -/
theorem simps_pos (h : ℝ) (hh : 0 < h) (x0 : ℝ) (y : List ℝ) (hl : 2 ≤ y.length) (hp : ∀ v ∈ y, 0 ≤ v) (hpos : ∃ v ∈ y, 0 < v) :
    0 < Num.simps y (ugrid h x0 y.length) := by
  unfold Num.simps
  split
  · rename_i hodd
    exact (simpsOdd_nonneg h hh (y.length / 2) x0 y (by omega) hp).2 (by omega) hpos
  · rename_i hev
    obtain ⟨n, hn⟩ : ∃ n, y.length = n + 2 := ⟨y.length - 2, by omega⟩
    have hd2 : ∀ l : List ℝ, l.length = 2 → (∀ v ∈ l, 0 ≤ v) → ∀ x0, 0 ≤ Num.trapz l (ugrid h x0 2) ∧
        ((∃ v ∈ l, 0 < v) → 0 < Num.trapz l (ugrid h x0 2)) := by
      intro l hl hp x0
      match l, hl with
      | [a, b], _ =>
        have ha := hp a (by simp)
        have hb := hp b (by simp)
        have e : Num.trapz [a, b] (ugrid h x0 2) = h * (a + b) / 2 := by
          simp [Num.trapz, ugrid]
        rw [e]
        refine ⟨by positivity, ?_⟩
        rintro ⟨v, hv, hv0⟩
        simp only [List.mem_cons, List.not_mem_nil, or_false] at hv
        have : 0 < a + b := by rcases hv with rfl | rfl <;> linarith
        positivity
    simp only [hn, Nat.add_sub_cancel, show n + 2 - 1 = n + 1 by omega]
    rw [ugrid_take _ _ _ _ (by omega), ugrid_take _ _ _ _ (by omega), ugrid_drop _ _ _ _ (by omega), ugrid_drop _ _ _ _ (by omega)]
    have l1 : (y.take (n + 1)).length = n + 1 := by rw [List.length_take]; omega
    have l2 : (y.drop 1).length = n + 1 := by rw [List.length_drop]; omega
    have a1 := simpsOdd_nonneg h hh (n / 2) x0 (y.take (n + 1)) (by omega) (fun v hv => hp v (List.mem_of_mem_take hv))
    have a2 := simpsOdd_nonneg h hh (n / 2) (x0 + (1 : Nat) * h) (y.drop 1) (by omega) (fun v hv => hp v (List.mem_of_mem_drop hv))
    rw [l1] at a1
    rw [l2] at a2
    have b1 := hd2 (y.drop n) (by rw [List.length_drop]; omega) (fun v hv => hp v (List.mem_of_mem_drop hv)) (x0 + n * h)
    have b2 := hd2 (y.take 2) (by rw [List.length_take]; omega) (fun v hv => hp v (List.mem_of_mem_take hv)) x0
    rw [show n + 2 - n = 2 by omega, show n + 2 - 1 = n + 1 by omega]
    obtain ⟨v, hv, hv0⟩ := hpos
    have hy : y = y.take n ++ y.drop n := (List.take_append_drop n y).symm
    rw [hy] at hv
    rcases List.mem_append.1 hv with hv | hv
    · by_cases hn0 : n = 0
      · subst hn0; simp at hv
      · have : v ∈ y.take (n + 1) := by
          have := List.take_subset_take_left y (show n ≤ n + 1 by omega)
          exact this hv
        have := a1.2 (by omega) ⟨v, this, hv0⟩
        exact div_pos (add_pos_of_pos_of_nonneg (add_pos_of_pos_of_nonneg this b1.1) (add_nonneg a2.1 b2.1)) two_pos
    · have := b1.2 ⟨v, hv, hv0⟩
      exact div_pos (add_pos_of_pos_of_nonneg (add_pos_of_nonneg_of_pos a1.1 this) (add_nonneg a2.1 b2.1)) two_pos

/-! ### Existence and sign -/

theorem F_conj (L : Nat) (hL : L ≠ 0) (x : Nat → ℝ) (k : Nat) (hk : k ≤ L) :
    F L (fun s => (x s : ℂ)) (L - k) = (starRingEnd ℂ) (F L (fun s => (x s : ℂ)) k) := by
  unfold F
  rw [map_sum]
  apply sum_congr rfl
  intro s _
  rw [map_mul, Complex.conj_ofReal, ← ee_neg, neg_neg]
  congr 1
  have e : -(((L - k : Nat) : Int) * s) = (k : Int) * s + -((s : Int) * L) := by
    rw [Nat.cast_sub hk]; ring
  rw [e, ee_add]
  have : ee L (-((s : Int) * L)) = 1 := (ee_eq_one L hL _).2 (Dvd.dvd.neg_right (Dvd.intro_left _ rfl))
  rw [this, mul_one]

theorem freq_eq (L : Nat) (dt : ℝ) : (fftfreq L dt).take (L / 2) = ugrid (1 / (L * dt)) 0 (L / 2) := by
  rw [ugrid_eq]
  unfold fftfreq
  rw [← List.map_take, List.take_range, min_eq_left (by omega)]
  apply List.map_congr_left
  intro i hi
  rw [List.mem_range] at hi
  rw [if_pos (by omega), mul_comm dt]
  ring

theorem directL_nonneg (vel : Vel) (m : Option (Nat → ℝ)) (hm : ∀ i, 0 ≤ (m.getD (fun _ => 1)) i) (L k : Nat) : 0 ≤ directL vel m L k :=
  sum_nonneg (fun i _ => mul_nonneg (hm i) (sum_nonneg (fun d _ => by positivity)))

/-- A series of `n` real numbers, filled up with zeros to the length `L`, whose transform vanishes at the first `L/2` frequencies, is zero if
`n < 2 (L/2)`. -/
theorem series_zero (L n : Nat) (x : Nat → ℝ) (hn : n + 1 ≤ 2 * (L / 2)) (h : ∀ k < L / 2, F L (fun s => if s < n then (x s : ℂ) else 0) k = 0) :
    ∀ s < n, x s = 0 := by
  have hL : L ≠ 0 := by omega
  have hnL : n ≤ L := by omega
  set y : Nat → ℝ := fun s => if s < n then x s else 0 with hy
  have hyx : (fun s => if s < n then (x s : ℂ) else 0) = fun s => (y s : ℂ) := by
    funext s
    rw [hy]
    dsimp only
    split <;> simp
  rw [hyx] at h
  set P : Polynomial ℂ := ∑ s ∈ range n, Polynomial.monomial s (x s : ℂ) with hP
  have hev : ∀ k : Nat, P.eval (ee L (-(k : Int))) = F L (fun s => (y s : ℂ)) k := by
    intro k
    rw [hP, Polynomial.eval_finsetSum]
    unfold F
    rw [← sum_subset (s₁ := range n) (s₂ := range L) (by intro a ha; rw [mem_range] at *; omega)]
    · apply sum_congr rfl
      intro s hs
      rw [mem_range] at hs
      rw [Polynomial.eval_monomial, ← ee_nat_mul]
      simp only [hy, if_pos hs]
      congr 2
      ring
    · intro a _ ha
      rw [mem_range] at ha
      simp [hy, ha]
  let f : Fin n → Nat := fun j => if j.1 < L / 2 then j.1 else L - (j.1 - L / 2 + 1)
  have hf : ∀ j : Fin n, F L (fun s => (y s : ℂ)) (f j) = 0 := by
    intro j
    have := j.2
    simp only [f]
    split
    · exact h _ ‹_›
    · rw [F_conj L hL y _ (by omega), h _ (by omega), map_zero]
  have hlt : ∀ j, f j < L := by
    intro j
    have := j.2
    simp only [f]
    split <;> omega
  have hinj : Function.Injective (fun j => ee L (-(f j : Int))) := by
    intro j j' e
    have e' : ee L (-(f j : Int) + (f j' : Int)) = 1 := by
      have e2 : ee L (-(f j : Int)) = ee L (-(f j' : Int)) := e
      rw [ee_add, e2, ← ee_add, neg_add_cancel, ee_zero]
    rw [ee_eq_one L hL] at e'
    have h1 := hlt j
    have h2 := hlt j'
    have e3 : f j = f j' := by
      obtain ⟨c, hc⟩ := e'
      have hc0 : c = 0 := by
        by_contra hne
        rcases lt_or_gt_of_ne hne with h3 | h3
        · have : (L : Int) * c ≤ -L := by nlinarith
          omega
        · have : (L : Int) ≤ L * c := by nlinarith
          omega
      rw [hc0] at hc
      omega
    have hj := j.2
    have hj' := j'.2
    simp only [f] at e3
    apply Fin.ext
    split at e3 <;> split at e3 <;> omega
  have hP0 : P = 0 := by
    by_cases hn0 : n = 0
    · rw [hP, hn0]; simp
    refine Polynomial.eq_zero_of_natDegree_lt_card_of_eval_eq_zero P hinj (fun j => by rw [hev, hf]) ?_
    rw [Fintype.card_fin]
    have : P.natDegree ≤ n - 1 := by
      rw [hP]
      refine Polynomial.natDegree_sum_le_of_forall_le _ _ (fun s hs => ?_)
      rw [mem_range] at hs
      exact (Polynomial.natDegree_monomial_le _).trans (by omega)
    omega
  intro s hs
  have hc : P.coeff s = (x s : ℂ) := by
    rw [hP, Polynomial.finsetSum_coeff]
    simp only [Polynomial.coeff_monomial]
    rw [sum_ite_eq' (range n) s]
    simp [hs]
  rw [hP0, Polynomial.coeff_zero] at hc
  exact_mod_cast hc.symm

/-- A motion has a positive value at one of the frequencies of the result. -/
theorem directL_pos (vel : Vel) (m : Option (Nat → ℝ)) (hm : ∀ i, 0 ≤ (m.getD (fun _ => 1)) i) (L : Nat) (hL : vel.nstep + 1 ≤ 2 * (L / 2))
    (h : ∃ s < vel.nstep, ∃ i < vel.natoms, ∃ d, 0 < (m.getD (fun _ => 1)) i ∧ vel.v s i d ≠ 0) : ∃ k < L / 2, 0 < directL vel m L k := by
  obtain ⟨s, hs, i, hi, d, hmi, hv⟩ := h
  by_contra hc
  push Not at hc
  refine hv (series_zero L vel.nstep (fun s => vel.v s i d) hL (fun k hk => ?_) s hs)
  have h0 : directL vel m L k = 0 := le_antisymm (hc k hk) (directL_nonneg vel m hm L k)
  unfold directL at h0
  change ∑ i ∈ range vel.natoms, (m.getD (fun _ => 1)) i * ∑ d, ‖F L (fun s => if s < vel.nstep then (vel.v s i d : ℂ) else 0) k‖ ^ 2 = 0 at h0
  rw [sum_eq_zero_iff_of_nonneg (fun i _ => mul_nonneg (hm i) (sum_nonneg (fun d _ => by positivity)))] at h0
  have h1 := (mul_eq_zero.1 (h0 i (mem_range.2 hi))).resolve_left hmi.ne'
  rw [sum_eq_zero_iff_of_nonneg (fun d _ => by positivity)] at h1
  have h2 := h1 d (mem_univ _)
  exact norm_eq_zero.1 (pow_eq_zero_iff (two_ne_zero) |>.1 h2)

/-- **C166** (existence and sign). `direct_pdos` and `vacf_pdos` return a spectrum for each trajectory of three or more steps in which (after
multiplication with the window) an atom with positive mass moves. No value is negative, one is positive, and the integral is `area`. -/
theorem C166_returns (vel : Vel) (dt : ℝ) (hdt : 0 < dt) (m : Option (Nat → ℝ)) (hm : ∀ i, 0 ≤ (m.getD (fun _ => 1)) i) (area : ℝ)
    (ha : 0 < area) (window : Bool) (hn : 3 ≤ vel.nstep)
    (h : ∃ s < vel.nstep, ∃ i < vel.natoms, ∃ d, 0 < (m.getD (fun _ => 1)) i ∧ (windowed vel window).v s i d ≠ 0) :
    ∃ f p, directPdos vel dt m area window = some (f, p) ∧ (∀ out, VacfPdos vel dt m area window out → out = some (f, p)) ∧
      (∀ v ∈ p, 0 ≤ v) ∧ (∃ v ∈ p, 0 < v) ∧ Num.simps p f = area := by
  obtain ⟨hs1, hs2⟩ := windowed_shape vel window
  have hpad : padding vel.nstep (some 1) false = .ok ((vel.nstep - 1 : Nat) : Int) := by
    simp [padding, padNadd]
  set L := vel.nstep + (vel.nstep - 1) with hL
  have hdir := pdosDirect_eq vel dt m area window (some 1) false _ hpad
  rw [← hL, freq_eq] at hdir
  set y := (List.range (L / 2)).map (directL (windowed vel window) m L) with hy
  have hyl : y.length = L / 2 := by simp [hy]
  have hL0 : (0 : ℝ) < 1 / (L * dt) := by
    have : (0 : ℝ) < L := by exact_mod_cast (by omega : 0 < L)
    positivity
  have hyn : ∀ v ∈ y, 0 ≤ v := by
    intro v hv
    rw [hy] at hv
    obtain ⟨k, -, rfl⟩ := List.mem_map.1 hv
    exact directL_nonneg _ m hm L k
  have hyp : ∃ v ∈ y, 0 < v := by
    obtain ⟨k, hk, hp⟩ := directL_pos (windowed vel window) m hm L (by rw [hs1]; omega) (by rw [hs1, hs2]; exact h)
    exact ⟨_, List.mem_map.2 ⟨k, List.mem_range.2 hk, rfl⟩, hp⟩
  have hI := simps_pos _ hL0 0 y (by omega) hyn hyp
  rw [hyl] at hI
  rw [Num.normInt_eq _ Num.simps_homogeneous y _ area true hI.ne'] at hdir
  simp only [Option.map_some] at hdir
  refine ⟨_, _, hdir, ?_, ?_, ?_, ?_⟩
  · intro out ho
    rw [← C64_same_spectrum vel dt m area window (by omega) hm ?_ out ho]
    · exact hdir
    · have hv0 : Spec.vacf vel.nstep vel.natoms (windowed vel window).v (m.getD (fun _ => 1)) 0 =
          ∑ i ∈ range vel.natoms, (m.getD (fun _ => 1)) i * ∑ s ∈ range vel.nstep, ∑ d, (windowed vel window).v s i d ^ 2 := by
        unfold Spec.vacf
        simp only [Nat.sub_zero, Nat.add_zero, pow_two]
      rw [hv0]
      obtain ⟨s, hs, i, hi, d, hmi, hv⟩ := h
      refine (lt_of_lt_of_le ?_ (single_le_sum (f := fun i => (m.getD (fun _ => 1)) i * ∑ s ∈ range vel.nstep, ∑ d, (windowed vel window).v s i d ^ 2)
        (fun i _ => mul_nonneg (hm i) (sum_nonneg (fun s _ => sum_nonneg (fun d _ => sq_nonneg _)))) (mem_range.2 hi))).ne'
      refine mul_pos hmi (lt_of_lt_of_le ?_ (single_le_sum (f := fun s => ∑ d, (windowed vel window).v s i d ^ 2)
        (fun s _ => sum_nonneg (fun d _ => sq_nonneg _)) (mem_range.2 hs)))
      exact lt_of_lt_of_le (by positivity) (single_le_sum (f := fun d => (windowed vel window).v s i d ^ 2) (fun d _ => sq_nonneg _) (mem_univ d))
  · intro v hv
    obtain ⟨w, hw, rfl⟩ := List.mem_map.1 hv
    have := hyn w hw
    positivity
  · obtain ⟨w, hw, hw0⟩ := hyp
    exact ⟨_, List.mem_map.2 ⟨w, hw, rfl⟩, by positivity⟩
  · have := Num.simps_homogeneous (K := ℝ) y (ugrid (1 / (L * dt)) 0 (L / 2)) (area / Num.simps y (ugrid (1 / (L * dt)) 0 (L / 2))) 1 one_ne_zero
    simp only [div_one, List.map_id'] at this
    have e2 : (y.map fun v => v * area / Num.simps y (ugrid (1 / (L * dt)) 0 (L / 2))) =
        y.map (· * (area / Num.simps y (ugrid (1 / (L * dt)) 0 (L / 2)))) := by
      apply List.map_congr_left; intro v _; ring
    rw [e2, this]
    field_simp

/-- **C166** (short trajectories). With one or two steps the direct method has no result (one frequency; the integral is zero). -/
theorem C166_short (vel : Vel) (dt : ℝ) (m : Option (Nat → ℝ)) (area : ℝ) (window : Bool) (hn : vel.nstep = 1 ∨ vel.nstep = 2) :
    directPdos vel dt m area window = none := by
  have hpad : padding vel.nstep (some 1) false = .ok ((vel.nstep - 1 : Nat) : Int) := by
    simp [padding, padNadd]
  unfold directPdos
  rw [pdosDirect_eq vel dt m area window (some 1) false _ hpad, Num.C29_zero _ Num.simps_homogeneous]
  · rfl
  · rcases hn with h | h <;> rw [h] <;> simp [Num.simps, Num.simpsOdd, Num.trapz]

/-! ### Harmonic motion -/

theorem cos_ee (n : Nat) (k s : Nat) : ((Real.cos (2 * Real.pi * k * s / n) : ℝ) : ℂ) = (ee n (k * s) + ee n (-(k * s))) / 2 := by
  unfold ee
  rw [Complex.ofReal_cos, Complex.cos]
  congr 3
  · push_cast; ring
  · push_cast; ring

theorem sin_ee (n : Nat) (k s : Nat) : ((Real.sin (2 * Real.pi * k * s / n) : ℝ) : ℂ) = (ee n (-(k * s)) - ee n (k * s)) * Complex.I / 2 := by
  unfold ee
  rw [Complex.ofReal_sin, Complex.sin]
  congr 4
  · push_cast; ring
  · push_cast; ring

theorem small_dvd (n : Nat) (c : Int) (h1 : -(n : Int) < c) (h2 : c < n) : (n : Int) ∣ c ↔ c = 0 := by
  constructor
  · rintro ⟨e, rfl⟩
    by_contra hne
    have he : e ≠ 0 := fun h => hne (by rw [h, mul_zero])
    rcases lt_or_gt_of_ne he with h3 | h3
    · have : (n : Int) * e ≤ -n := by nlinarith
      omega
    · have : (n : Int) ≤ n * e := by nlinarith
      omega
  · rintro rfl; exact dvd_zero _

/-- The transform of a sum of oscillations. -/
theorem F_modes (n : Nat) (a b : Nat → ℝ) (k : Nat) (hk : k < n / 2) :
    F n (fun s => ((∑ j ∈ Ico 1 (n / 2), (a j * Real.cos (2 * Real.pi * j * s / n) + b j * Real.sin (2 * Real.pi * j * s / n)) : ℝ) : ℂ)) k =
      if k = 0 then 0 else (n : ℂ) / 2 * (a k - b k * Complex.I) := by
  have hn : n ≠ 0 := by omega
  unfold F
  have e1 : ∀ s ∈ range n, ((∑ j ∈ Ico 1 (n / 2), (a j * Real.cos (2 * Real.pi * j * s / n) + b j * Real.sin (2 * Real.pi * j * s / n)) : ℝ) : ℂ) *
      ee n (-((k : Int) * s)) = ∑ j ∈ Ico 1 (n / 2), ((a j - b j * Complex.I) / 2 * ee n ((s : Int) * ((j : Int) - k)) +
        (a j + b j * Complex.I) / 2 * ee n ((s : Int) * (-(j : Int) - k))) := by
    intro s _
    rw [Complex.ofReal_sum, sum_mul]
    apply sum_congr rfl
    intro j _
    rw [Complex.ofReal_add, Complex.ofReal_mul, Complex.ofReal_mul, cos_ee, sin_ee,
      show (s : Int) * ((j : Int) - k) = (j : Int) * s + -((k : Int) * s) by ring,
      show (s : Int) * (-(j : Int) - k) = -((j : Int) * s) + -((k : Int) * s) by ring, ee_add, ee_add]
    ring
  rw [sum_congr rfl e1, sum_comm]
  have e2 : ∀ j ∈ Ico 1 (n / 2), (∑ s ∈ range n, ((a j - b j * Complex.I) / 2 * ee n ((s : Int) * ((j : Int) - k)) +
        (a j + b j * Complex.I) / 2 * ee n ((s : Int) * (-(j : Int) - k)))) = if j = k then (n : ℂ) / 2 * (a k - b k * Complex.I) else 0 := by
    intro j hj
    rw [mem_Ico] at hj
    rw [sum_add_distrib, ← mul_sum, ← mul_sum, ee_sum n hn, ee_sum n hn]
    have h2 : ¬ (n : Int) ∣ (-(j : Int) - k) := by
      rw [small_dvd n _ (by omega) (by omega)]
      omega
    rw [if_neg h2, mul_zero, add_zero]
    by_cases hjk : j = k
    · subst hjk
      rw [if_pos (by simp), if_pos rfl]
      ring
    · rw [if_neg (by rw [small_dvd n _ (by omega) (by omega)]; omega), if_neg hjk, mul_zero]
  rw [sum_congr rfl e2, sum_ite_eq' (Ico 1 (n / 2)) k]
  by_cases h0 : k = 0
  · simp [h0]
  · rw [if_pos (by rw [mem_Ico]; omega), if_neg h0]

/-- The unnormalised spectrum of a harmonic motion. -/
theorem directL_modes (n natoms : Nat) (a b : Nat → Nat → Fin 3 → ℝ) (m : Option (Nat → ℝ)) (k : Nat) (hk : k < n / 2) :
    directL ⟨n, natoms, modeVel n (n / 2) a b⟩ m n k = modeWeight natoms (m.getD (fun _ => 1)) a b k * ((n : ℝ) ^ 2 / 4) := by
  unfold directL modeWeight
  have hF : ∀ i d, ‖F n (fun s => if s < n then ((modeVel n (n / 2) a b s i d : ℝ) : ℂ) else 0) k‖ ^ 2 =
      if k = 0 then 0 else (n : ℝ) ^ 2 / 4 * (a k i d ^ 2 + b k i d ^ 2) := by
    intro i d
    have e : F n (fun s => if s < n then ((modeVel n (n / 2) a b s i d : ℝ) : ℂ) else 0) k =
        F n (fun s => ((modeVel n (n / 2) a b s i d : ℝ) : ℂ)) k := by
      unfold F
      apply sum_congr rfl
      intro s hs
      beta_reduce
      rw [if_pos (mem_range.1 hs)]
    rw [e]
    unfold modeVel
    rw [F_modes n (fun j => a j i d) (fun j => b j i d) k hk]
    split
    · simp
    · rw [norm_mul, mul_pow, ← Complex.normSq_eq_norm_sq (_ - _)]
      have : Complex.normSq ((a k i d : ℂ) - b k i d * Complex.I) = a k i d ^ 2 + b k i d ^ 2 := by
        rw [Complex.normSq_apply]
        simp
        ring
      rw [this, norm_div, Complex.norm_natCast, Complex.norm_ofNat, div_pow]
      norm_num
  simp only [hF]
  split
  · simp
  · rw [sum_mul]
    apply sum_congr rfl
    intro i _
    rw [← mul_sum]
    unfold massOf
    ring

/-- **C166** (harmonic motion). For a motion which is a sum of modes with `k = 1, 2, ...` oscillations within the `n` steps, the spectrum without
padding and window consists of one line per mode, at its frequency `k/(n dt)`, with the weight of its kinetic energy, and nothing else. -/
theorem C166_modes (n natoms : Nat) (hn : 4 ≤ n) (a b : Nat → Nat → Fin 3 → ℝ) (dt : ℝ) (hdt : 0 < dt) (m : Option (Nat → ℝ))
    (hm : ∀ i, 0 ≤ (m.getD (fun _ => 1)) i) (area : ℝ) (tonext : Bool)
    (hw : ∃ k < n / 2, modeWeight natoms (m.getD (fun _ => 1)) a b k ≠ 0) :
    ∃ c, 0 < c ∧ pdosDirect ⟨n, natoms, modeVel n (n / 2) a b⟩ dt m area false none tonext =
      some ((List.range (n / 2)).map (fun k : Nat => (k : ℝ) / (n * dt)),
        (List.range (n / 2)).map (fun k => area * c * modeWeight natoms (m.getD (fun _ => 1)) a b k)) := by
  set vel : Vel := ⟨n, natoms, modeVel n (n / 2) a b⟩ with hvel
  have hpad : padding vel.nstep none tonext = .ok ((0 : Nat) : Int) := rfl
  have hdir := pdosDirect_eq vel dt m area false none tonext 0 hpad
  rw [show vel.nstep + 0 = n from rfl, freq_eq] at hdir
  set w := modeWeight natoms (m.getD (fun _ => 1)) a b with hwd
  have hnn : (0 : ℝ) < n := by exact_mod_cast (by omega : 0 < n)
  have hc : (n : ℝ) ^ 2 / 4 ≠ 0 := by positivity
  have hy : (List.range (n / 2)).map (directL (windowed vel false) m n) = ((List.range (n / 2)).map w).map (· * ((n : ℝ) ^ 2 / 4)) := by
    rw [List.map_map]
    apply List.map_congr_left
    intro k hk
    exact directL_modes n natoms a b m k (List.mem_range.1 hk)
  have hw0 : ∀ k, 0 ≤ w k := by
    intro k
    rw [hwd]
    unfold modeWeight
    split
    · exact le_rfl
    · exact sum_nonneg (fun i _ => mul_nonneg (hm i) (sum_nonneg (fun d _ => by positivity)))
  have hI := simps_pos (1 / (n * dt)) (by positivity) 0 ((List.range (n / 2)).map w) (by rw [List.length_map, List.length_range]; omega)
    (fun v hv => by obtain ⟨k, -, rfl⟩ := List.mem_map.1 hv; exact hw0 k)
    (by obtain ⟨k, hk, h⟩ := hw; exact ⟨_, List.mem_map.2 ⟨k, List.mem_range.2 hk, rfl⟩, lt_of_le_of_ne (hw0 k) (Ne.symm h)⟩)
  rw [List.length_map, List.length_range] at hI
  rw [hy, normInt_const _ _ _ _ hc, Num.normInt_eq _ Num.simps_homogeneous _ _ area true hI.ne'] at hdir
  refine ⟨(Num.simps ((List.range (n / 2)).map w) (ugrid (1 / (n * dt)) 0 (n / 2)))⁻¹, inv_pos.2 hI, ?_⟩
  rw [hdir]
  simp only [Option.map_some, Option.some.injEq, Prod.mk.injEq]
  constructor
  · rw [ugrid_eq]
    apply List.map_congr_left
    intro k _
    ring
  · rw [List.map_map]
    apply List.map_congr_left
    intro k _
    simp only [Function.comp]
    ring

theorem vacf_bound (vel : Vel) (m : Nat → ℝ) (hm : ∀ i, 0 ≤ m i) (t : Nat) :
    |Spec.vacf vel.nstep vel.natoms vel.v m t| ≤ Spec.vacf vel.nstep vel.natoms vel.v m 0 := by
  unfold Spec.vacf
  refine (abs_sum_le_sum_abs _ _).trans (sum_le_sum (fun i _ => ?_))
  rw [abs_mul, abs_of_nonneg (hm i)]
  refine mul_le_mul_of_nonneg_left ?_ (hm i)
  rw [sum_comm, sum_comm (s := range (vel.nstep - 0))]
  refine (abs_sum_le_sum_abs _ _).trans (sum_le_sum (fun d _ => ?_))
  have := C58_bound ((List.range vel.nstep).map (fun s => vel.v s i d)) t
  have e : ∀ t, autocorr ((List.range vel.nstep).map (fun s => vel.v s i d)) t = ∑ s ∈ range (vel.nstep - t), vel.v s i d * vel.v (s + t) i d := by
    intro t
    unfold autocorr
    rw [List.length_map, List.length_range]
    apply sum_congr rfl
    intro s hs
    rw [mem_range] at hs
    rw [List.getD_eq_getElem?_getD, List.getD_eq_getElem?_getD, List.getElem?_map, List.getElem?_map, List.getElem?_range (by omega),
      List.getElem?_range (by omega)]
    rfl
  rw [e, e] at this
  exact this

/-- **C166** (bound). The autocorrelation of the velocities returned by all methods of `pyvacf` and `fvacf`, with any threads, starts with 1
and lies between -1 and 1. -/
theorem C166_bound (vel : Vel) (m : Option (Nat → ℝ)) (hm : ∀ i, 0 ≤ (m.getD (fun _ => 1)) i) (method : Nat) (hn : 1 ≤ vel.nstep)
    (h0 : Spec.vacf vel.nstep vel.natoms vel.v (m.getD (fun _ => 1)) 0 ≠ 0) (c : List ℝ)
    (h : pyvacf vel m method = some c ∨ ((method = 1 ∨ method = 2) ∧ Fvacf vel m method c)) :
    c.length = vel.nstep ∧ c[0]? = some 1 ∧ ∀ x ∈ c, |x| ≤ 1 := by
  have hc : c = (List.range vel.nstep).map (fun t => Spec.vacf vel.nstep vel.natoms vel.v (m.getD (fun _ => 1)) t /
        Spec.vacf vel.nstep vel.natoms vel.v (m.getD (fun _ => 1)) 0) := by
    rcases h with h | ⟨h1, h2⟩
    · by_cases hmeth : method = 1 ∨ method = 2 ∨ method = 3
      · rw [C63_pyvacf vel m method hmeth hn] at h
        exact (Option.some.inj h).symm
      · push Not at hmeth
        rw [(C63_unknown_method vel m method).1 hmeth.1 hmeth.2.1 hmeth.2.2] at h
        cases h
    · exact C63_fvacf vel m method h1 (fun _ => hm) c h2
  have hb := vacf_bound vel _ hm
  have hpos : 0 < Spec.vacf vel.nstep vel.natoms vel.v (m.getD (fun _ => 1)) 0 :=
    lt_of_le_of_ne ((abs_nonneg _).trans (hb 0)) (Ne.symm h0)
  subst hc
  refine ⟨by simp, ?_, ?_⟩
  · rw [List.getElem?_map, List.getElem?_range (by omega), Option.map_some, div_self h0]
  · intro x hx
    obtain ⟨t, -, rfl⟩ := List.mem_map.1 hx
    rw [abs_div, abs_of_pos hpos, div_le_one hpos]
    exact hb t

/-- **C166** (uniform motion). If the velocities do not change, the autocorrelation at distance `t` is `1 - t/n`: it is a sum over pairs, not an average. -/
theorem C166_uniform (vel : Vel) (m : Option (Nat → ℝ)) (method : Nat) (h : method = 1 ∨ method = 2 ∨ method = 3) (hn : 1 ≤ vel.nstep)
    (u : Nat → Fin 3 → ℝ) (hu : ∀ s i d, vel.v s i d = u i d) (h0 : ∑ i ∈ range vel.natoms, (m.getD (fun _ => 1)) i * ∑ d, u i d ^ 2 ≠ 0) :
    pyvacf vel m method = some ((List.range vel.nstep).map (fun t : Nat => 1 - (t : ℝ) / vel.nstep)) := by
  rw [C63_pyvacf vel m method h hn]
  congr 1
  apply List.map_congr_left
  intro t ht
  rw [List.mem_range] at ht
  have e : ∀ t, t ≤ vel.nstep → Spec.vacf vel.nstep vel.natoms vel.v (m.getD (fun _ => 1)) t =
      ((vel.nstep : ℝ) - t) * ∑ i ∈ range vel.natoms, (m.getD (fun _ => 1)) i * ∑ d, u i d ^ 2 := by
    intro t ht
    unfold Spec.vacf
    simp only [hu, sum_const, card_range, nsmul_eq_mul, mul_sum]
    apply sum_congr rfl
    intro i _
    rw [Nat.cast_sub ht]
    apply sum_congr rfl
    intro d _
    ring
  have hnn : (vel.nstep : ℝ) ≠ 0 := by positivity
  rw [e t ht.le, e 0 (by omega)]
  push_cast
  rw [sub_zero, mul_div_mul_right _ _ h0, sub_div, div_self hnn]

/-- Non-vacuity: one atom which oscillates twice along x within eight steps. -/
example : ∃ k < 8 / 2, modeWeight 1 (fun _ => 1) (fun k _ d => if k = 2 ∧ d = 0 then 1 else 0) (fun _ _ _ => 0) k ≠ 0 :=
  ⟨2, by omega, by simp [modeWeight]⟩

/-- Non-vacuity: a moving atom, with and without window. -/
example : ∀ w, ∃ s < (⟨3, 1, fun _ _ _ => 1⟩ : Vel).nstep, ∃ i < 1, ∃ d, (0 : ℝ) < 1 ∧ (windowed ⟨3, 1, fun _ _ _ => 1⟩ w).v s i d ≠ 0 := by
  intro w
  refine ⟨1, by decide, 0, by omega, 0, by norm_num, ?_⟩
  cases w
  · simp [windowed]
  · rw [(C64_window ⟨3, 1, fun _ _ _ => 1⟩ (by decide) 1 (by decide) 0 0).2]
    norm_num

end Pwtools.Dos
