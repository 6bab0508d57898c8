import Verif.Props.Pydos
import Verif.Props.Signal
/-!
# C64: direct and VACF phonon density of states
-/
namespace Pwtools.Dos
open Sig Spec Finset Complex

/-- Pairs of times at distance `j - (n-1)`. -/
theorem pair_sum (n : Nat) (hn : 1 ≤ n) (x : Nat → ℝ) (j : Nat) (hj : j < 2 * n - 1) :
    ∑ p ∈ range n, ∑ q ∈ range n, (if p + (n - 1) = j + q then x p * x q else 0) =
      ∑ s ∈ range (n - (if n - 1 ≤ j then j - (n - 1) else n - 1 - j)),
        x s * x (s + (if n - 1 ≤ j then j - (n - 1) else n - 1 - j)) := by
  by_cases h : n - 1 ≤ j
  · simp only [if_pos h]
    obtain ⟨t, rfl⟩ : ∃ t, j = t + (n - 1) := ⟨j - (n - 1), by omega⟩
    rw [show t + (n - 1) - (n - 1) = t by omega, sum_comm]
    have hle : range (n - t) ⊆ range n := by
      intro a ha; rw [mem_range] at ha ⊢; omega
    rw [← sum_subset hle]
    · apply sum_congr rfl
      intro q hq
      rw [mem_range] at hq
      rw [sum_eq_single (q + t)]
      · rw [if_pos (by omega)]; ring
      · intro p _ hne; rw [if_neg (by omega)]
      · intro hc; rw [mem_range] at hc; omega
    · intro q hq hq'
      rw [mem_range] at hq hq'
      apply sum_eq_zero
      intro p hp
      rw [mem_range] at hp
      rw [if_neg (by omega)]
  · simp only [if_neg h]
    obtain ⟨t, ht⟩ : ∃ t, t = n - 1 - j := ⟨_, rfl⟩
    rw [← ht]
    have hle : range (n - t) ⊆ range n := by
      intro a ha; rw [mem_range] at ha ⊢; omega
    rw [← sum_subset hle]
    · apply sum_congr rfl
      intro p hp
      rw [mem_range] at hp
      rw [sum_eq_single (p + t)]
      · rw [if_pos (by omega)]
      · intro q _ hne; rw [if_neg (by omega)]
      · intro hc; rw [mem_range] at hc; omega
    · intro p hp hp'
      rw [mem_range] at hp hp'
      apply sum_eq_zero
      intro q hq
      rw [mem_range] at hq
      rw [if_neg (by omega)]

/-- Distance of the position `j` in the mirrored array from its centre. -/
def lag (n j : Nat) : Nat := if n - 1 ≤ j then j - (n - 1) else n - 1 - j

/-- The squared transform of one padded series is, up to a phase, the transform of its mirrored
autocorrelation. -/
theorem power_spectrum (n : Nat) (hn : 1 ≤ n) (x : Nat → ℝ) (k : Nat) :
    ((‖F (2 * n - 1) (fun s => if s < n then ((x s : ℝ) : ℂ) else 0) k‖ ^ 2 : ℝ) : ℂ) =
      ee (2 * n - 1) ((k : Int) * (n - 1 : Nat)) * ∑ j ∈ range (2 * n - 1),
        ((∑ s ∈ range (n - lag n j), x s * x (s + lag n j) : ℝ) : ℂ) * ee (2 * n - 1) (-((k : Int) * j)) := by
  set L := 2 * n - 1 with hL
  have hle : range n ⊆ range L := by intro a ha; rw [mem_range] at ha ⊢; omega
  have hF : F L (fun s => if s < n then ((x s : ℝ) : ℂ) else 0) k =
      ∑ p ∈ range n, (x p : ℂ) * ee L (-((k : Int) * p)) := by
    unfold F
    rw [← sum_subset hle]
    · apply sum_congr rfl
      intro p hp
      rw [mem_range] at hp
      simp only [hp, if_true]
    · intro p _ hp
      rw [mem_range] at hp
      simp only [hp, if_false, zero_mul]
  have h1 : ((‖F L (fun s => if s < n then ((x s : ℝ) : ℂ) else 0) k‖ ^ 2 : ℝ) : ℂ) =
      ∑ p ∈ range n, ∑ q ∈ range n, ((x p * x q : ℝ) : ℂ) * ee L ((k : Int) * ((q : Int) - p)) := by
    have : ((‖F L (fun s => if s < n then ((x s : ℝ) : ℂ) else 0) k‖ ^ 2 : ℝ) : ℂ) =
        F L (fun s => if s < n then ((x s : ℝ) : ℂ) else 0) k *
          (starRingEnd ℂ) (F L (fun s => if s < n then ((x s : ℝ) : ℂ) else 0) k) := by
      rw [Complex.mul_conj, Complex.normSq_eq_norm_sq]
    rw [this, hF, map_sum, sum_mul_sum]
    apply sum_congr rfl; intro p _
    apply sum_congr rfl; intro q _
    rw [map_mul, ← ee_neg, neg_neg, Complex.conj_ofReal]
    have : (k : Int) * ((q : Int) - p) = -((k : Int) * p) + (k : Int) * q := by ring
    rw [this, ee_add]
    push_cast
    ring
  rw [h1, mul_sum]
  have h2 : ∀ p ∈ range n, ∀ q ∈ range n, ((x p * x q : ℝ) : ℂ) * ee L ((k : Int) * ((q : Int) - p)) =
      ∑ j ∈ range L, (((if p + (n - 1) = j + q then x p * x q else 0 : ℝ)) : ℂ) *
        (ee L ((k : Int) * (n - 1 : Nat)) * ee L (-((k : Int) * j))) := by
    intro p hp q hq
    rw [mem_range] at hp hq
    rw [sum_eq_single (p + (n - 1) - q)]
    · rw [if_pos (by omega), ← ee_add]
      congr 2
      have : ((p + (n - 1) - q : Nat) : Int) = (p : Int) + (n - 1 : Nat) - q := by omega
      rw [this]; ring
    · intro j _ hne
      rw [if_neg (by omega)]; simp
    · intro hc; rw [mem_range] at hc; omega
  have h3 : ∑ p ∈ range n, ∑ q ∈ range n, ((x p * x q : ℝ) : ℂ) * ee L ((k : Int) * ((q : Int) - p)) =
      ∑ p ∈ range n, ∑ q ∈ range n, ∑ j ∈ range L, (((if p + (n - 1) = j + q then x p * x q else 0 : ℝ)) : ℂ) *
        (ee L ((k : Int) * (n - 1 : Nat)) * ee L (-((k : Int) * j))) :=
    sum_congr rfl (fun p hp => sum_congr rfl (fun q hq => h2 p hp q hq))
  rw [h3]
  have h4 : ∀ p ∈ range n, ∑ q ∈ range n, ∑ j ∈ range L, (((if p + (n - 1) = j + q then x p * x q else 0 : ℝ)) : ℂ) *
        (ee L ((k : Int) * (n - 1 : Nat)) * ee L (-((k : Int) * j))) =
      ∑ j ∈ range L, ∑ q ∈ range n, (((if p + (n - 1) = j + q then x p * x q else 0 : ℝ)) : ℂ) *
        (ee L ((k : Int) * (n - 1 : Nat)) * ee L (-((k : Int) * j))) := fun p _ => sum_comm
  rw [sum_congr rfl h4, sum_comm]
  apply sum_congr rfl
  intro j hj
  rw [mem_range] at hj
  have h5 := pair_sum n hn x j hj
  have h6 : ∑ p ∈ range n, ∑ q ∈ range n, (((if p + (n - 1) = j + q then x p * x q else 0 : ℝ)) : ℂ) =
      ((∑ s ∈ range (n - lag n j), x s * x (s + lag n j) : ℝ) : ℂ) := by
    unfold lag
    rw [← h5]
    push_cast
    rfl
  rw [← h6]
  have h7 : ∀ p ∈ range n, ∑ q ∈ range n, (((if p + (n - 1) = j + q then x p * x q else 0 : ℝ)) : ℂ) *
        (ee L ((k : Int) * (n - 1 : Nat)) * ee L (-((k : Int) * j))) =
      (∑ q ∈ range n, (((if p + (n - 1) = j + q then x p * x q else 0 : ℝ)) : ℂ)) *
        (ee L ((k : Int) * (n - 1 : Nat)) * ee L (-((k : Int) * j))) := fun p _ => (sum_mul _ _ _).symm
  rw [sum_congr rfl h7, ← sum_mul]
  ring

theorem ee_norm (L : Nat) (m : Int) : ‖ee L m‖ = 1 := by
  unfold ee
  have : (2 * Real.pi * I * (m : ℂ) / (L : ℂ)) = ((2 * Real.pi * m / L : ℝ) : ℂ) * I := by push_cast; ring
  rw [this, Complex.norm_exp_ofReal_mul_I]

/-- The sum of the squared transforms over atoms and directions, of the series padded to length `L`. -/
noncomputable def directL (vel : Vel) (m : Option (Nat → ℝ)) (L k : Nat) : ℝ :=
  ∑ i ∈ range vel.natoms, massOf m i * ∑ d,
    ‖F L (fun s => if s < vel.nstep then ((vel.v s i d : ℝ) : ℂ) else 0) k‖ ^ 2

/-- The same for the default padding. -/
noncomputable def direct (vel : Vel) (m : Option (Nat → ℝ)) (k : Nat) : ℝ := directL vel m (2 * vel.nstep - 1) k

theorem direct_eq (vel : Vel) (m : Option (Nat → ℝ)) (hm : ∀ i, 0 ≤ massOf m i) (hn : 1 ≤ vel.nstep) (k : Nat) :
    direct vel m k = ‖∑ j ∈ range (2 * vel.nstep - 1), ((C vel m (lag vel.nstep j) : ℝ) : ℂ) * ee (2 * vel.nstep - 1) (-((k : Int) * j))‖ := by
  set L := 2 * vel.nstep - 1 with hL
  have h1 : ((direct vel m k : ℝ) : ℂ) = ee L ((k : Int) * (vel.nstep - 1 : Nat)) *
      ∑ j ∈ range L, ((C vel m (lag vel.nstep j) : ℝ) : ℂ) * ee L (-((k : Int) * j)) := by
    unfold direct directL
    rw [Complex.ofReal_sum]
    have e1 : ∀ i ∈ range vel.natoms, ((massOf m i * ∑ d,
        ‖F L (fun s => if s < vel.nstep then ((vel.v s i d : ℝ) : ℂ) else 0) k‖ ^ 2 : ℝ) : ℂ) =
        ∑ j ∈ range L, ee L ((k : Int) * (vel.nstep - 1 : Nat)) * ee L (-((k : Int) * j)) * ((massOf m i *
          ∑ s ∈ range (vel.nstep - lag vel.nstep j), ∑ d, vel.v s i d * vel.v (s + lag vel.nstep j) i d : ℝ) : ℂ) := by
      intro i _
      rw [Complex.ofReal_mul, Complex.ofReal_sum]
      have e2 : ∀ d ∈ (univ : Finset (Fin 3)), ((‖F L (fun s => if s < vel.nstep then ((vel.v s i d : ℝ) : ℂ) else 0) k‖ ^ 2 : ℝ) : ℂ) =
          ∑ j ∈ range L, ee L ((k : Int) * (vel.nstep - 1 : Nat)) * ee L (-((k : Int) * j)) *
            ((∑ s ∈ range (vel.nstep - lag vel.nstep j), vel.v s i d * vel.v (s + lag vel.nstep j) i d : ℝ) : ℂ) := by
        intro d _
        rw [power_spectrum vel.nstep hn (fun s => vel.v s i d) k, mul_sum]
        apply sum_congr rfl
        intro j _
        ring
      rw [sum_congr rfl e2, sum_comm, mul_sum]
      apply sum_congr rfl
      intro j _
      rw [← mul_sum, ← Complex.ofReal_sum, sum_comm, Complex.ofReal_mul]
      ring
    rw [sum_congr rfl e1, sum_comm, mul_sum]
    apply sum_congr rfl
    intro j _
    rw [← mul_sum, ← Complex.ofReal_sum]
    unfold C Spec.vacf
    try ring
  have h2 : 0 ≤ direct vel m k := by
    unfold direct directL
    exact sum_nonneg (fun i _ => mul_nonneg (hm i) (sum_nonneg (fun d _ => sq_nonneg _)))
  have h3 := congrArg norm h1
  rw [norm_mul, ee_norm, one_mul, Complex.norm_real, Real.norm_of_nonneg h2] at h3
  exact h3

theorem mirrorL_get (c : List ℝ) (j : Nat) (hj : j < 2 * c.length - 1) :
    (mirrorL c)[j]? = c[lag c.length j]? := by
  unfold mirrorL lag
  by_cases h : c.length - 1 ≤ j
  · rw [if_pos h]
    by_cases h0 : j < c.length
    · have : j = c.length - 1 := by omega
      rw [List.getElem?_append_left (by simpa using h0), List.getElem?_reverse h0, this]
    · rw [List.getElem?_append_right (by simp; omega), List.getElem?_drop, List.length_reverse]
      congr 1; omega
  · rw [if_neg h, List.getElem?_append_left (by simp; omega), List.getElem?_reverse (by omega)]

theorem mirrorL_length (c : List ℝ) (h : 1 ≤ c.length) : (mirrorL c).length = 2 * c.length - 1 := by
  unfold mirrorL; simp; omega

theorem normInt_const (y x : List ℝ) (a area : ℝ) (ha : a ≠ 0) :
    Num.normInt Num.simps (y.map (· * a)) x area true = Num.normInt Num.simps y x area true := by
  have hf := Num.simps_homogeneous (K := ℝ)
  have h1 : Num.simps (y.map (· * a)) x = Num.simps y x * a := by
    have := hf y x a 1 one_ne_zero
    simpa using this
  by_cases hI : Num.simps y x = 0
  · rw [Num.C29_zero _ hf y x area true hI, Num.C29_zero _ hf _ x area true (by rw [h1, hI, zero_mul])]
  · rw [Num.normInt_eq _ hf y x area true hI, Num.normInt_eq _ hf _ x area true (by rw [h1]; exact mul_ne_zero hI ha),
      List.map_map, h1]
    congr 1
    apply List.map_congr_left
    intro v _
    simp only [Function.comp]
    field_simp

theorem windowed_shape (vel : Vel) (w : Bool) : (windowed vel w).nstep = vel.nstep ∧ (windowed vel w).natoms = vel.natoms := by
  cases w <;> simp [windowed]

/-- The direct method in terms of the transforms. -/
theorem pdosDirect_eq (vel : Vel) (dt : ℝ) (m : Option (Nat → ℝ)) (area : ℝ) (window : Bool) (npad : Option Nat)
    (tonext : Bool) (K : Nat) (hpad : padding vel.nstep npad tonext = .ok (K : Int)) :
    pdosDirect vel dt m area window npad tonext =
      (Num.normInt Num.simps ((List.range ((vel.nstep + K) / 2)).map (directL (windowed vel window) m (vel.nstep + K)))
        ((fftfreq (vel.nstep + K) dt).take ((vel.nstep + K) / 2)) area true).map
        (fun p => ((fftfreq (vel.nstep + K) dt).take ((vel.nstep + K) / 2), p)) := by
  obtain ⟨hs1, hs2⟩ := windowed_shape vel window
  set vel2 := windowed vel window with hv2
  set n := vel.nstep with hnn
  set L := n + K with hL
  have hser : ∀ i d, (series vel2 K i d).length = L := by
    intro i d; unfold series; rw [List.length_map, List.length_range, hs1]
  have hfs : ∀ i d k, k < L / 2 → (((fft (series vel2 K i d)).map (fun z => ‖z‖ ^ 2)).take (L / 2))[k]? =
      some (‖F L (fun s => if s < vel2.nstep then ((vel2.v s i d : ℝ) : ℂ) else 0) k‖ ^ 2) := by
    intro i d k hk
    rw [List.getElem?_take_of_lt hk, List.getElem?_map, fft_get _ k (by rw [hser]; omega), hser]
    simp only [Option.map_some, Option.some.injEq]
    congr 2
    unfold F
    apply sum_congr rfl
    intro s hs
    rw [mem_range] at hs
    congr 1
    unfold series
    beta_reduce
    rw [List.getD_eq_getElem?_getD, List.getElem?_map, List.getElem?_range (by rw [hs1]; omega)]
    rfl
  have e3 : ∀ f : Fin 3 → ℝ, ((List.finRange 3).map f).sum = ∑ d, f d := by
    intro f; rw [← List.ofFn_eq_map, List.sum_ofFn]
  unfold pdosDirect
  simp only [← hnn, hpad]
  rw [if_neg (by omega)]
  simp only [Int.toNat_natCast, ← hL, ← hv2]
  have hp : (List.range (L / 2)).map (fun s => ((List.range vel.natoms).map (fun i => ((List.finRange 3).map (fun d =>
      (timesMass m i (((fft (series vel2 K i d)).map (fun z => ‖z‖ ^ 2)).take (L / 2))).getD s 0)).sum)).sum) =
      (List.range (L / 2)).map (directL vel2 m L) := by
    apply List.map_congr_left
    intro k hk
    rw [List.mem_range] at hk
    unfold directL
    rw [list_sum_range, hs2]
    apply sum_congr rfl
    intro i _
    rw [e3, mul_sum]
    apply sum_congr rfl
    intro d _
    rw [List.getD_eq_getElem?_getD]
    cases m with
    | none =>
      simp only [timesMass]
      rw [hfs i d k hk]
      simp [massOf]
    | some m =>
      simp only [timesMass]
      rw [List.getElem?_map, hfs i d k hk]
      simp only [Option.map_some, Option.getD_some, massOf]
      rw [mul_comm]
  rw [hp]
  cases Num.normInt Num.simps ((List.range (L / 2)).map (directL vel2 m L)) ((fftfreq L dt).take (L / 2)) area true <;> rfl

/-- The length after padding: `n + (n-1) npad`, or the smallest power of two which is not smaller
(`tonext=True`). -/
theorem padding_eq (n np : Nat) (hn : 1 ≤ n) (tonext : Bool) (K : Int) (h : padding n (some np) tonext = .ok K) :
    (tonext = false → K = ((n - 1) * np : Nat)) ∧
    (tonext = true → ∃ e, n + K = 2 ^ e ∧ ((n + (n - 1) * np : Nat) : Int) ≤ 2 ^ e ∧
      ∀ e', ((n + (n - 1) * np : Nat) : Int) ≤ 2 ^ e' → (2 : Int) ^ e ≤ 2 ^ e') := by
  constructor
  · rintro rfl
    simp [padding, padNadd] at h
    rw [← h]
    push_cast; ring
  · rintro rfl
    simp only [padding, if_true] at h
    unfold padNadd at h
    simp only [reduceCtorEq, if_false, if_true, Option.some.injEq, Bool.true_eq_false, Option.getD_some] at h
    rw [if_pos (by norm_num)] at h
    split at h
    · rename_i hle
      injection h with h
      have hlast : twoPowers.getLastD 0 = 2 ^ 29 := by decide
      rw [hlast] at hle
      obtain ⟨e, h1, h2, h3⟩ := searchsorted_two _ hle
      refine ⟨e, ?_, h2, ?_⟩
      · rw [← h, h1]; ring
      · intro e' he'
        exact pow_le_pow_right₀ (by norm_num) (h3 e' he')
    · cases h

/-- **C64**. `direct_pdos` and `vacf_pdos` with the same arguments (also `window`) give the same
frequencies and the same normalised spectrum, for all velocities and masses which are not negative, unless
the (windowed) velocities are all zero. -/
theorem C64_same_spectrum (vel : Vel) (dt : ℝ) (m : Option (Nat → ℝ)) (area : ℝ) (window : Bool)
    (hn : 1 ≤ vel.nstep) (hm : ∀ i, 0 ≤ (m.getD (fun _ => 1)) i)
    (h0 : Spec.vacf vel.nstep vel.natoms (windowed vel window).v (m.getD (fun _ => 1)) 0 ≠ 0)
    (out : Option (List ℝ × List ℝ)) (h : VacfPdos vel dt m area window out) :
    directPdos vel dt m area window = out := by
  obtain ⟨c, hc, rfl⟩ := h
  have hc' := C63_fvacf (windowed vel window) m 2 (Or.inr rfl) (fun _ => hm) c hc
  obtain ⟨hs1, hs2⟩ := windowed_shape vel window
  set vel2 := windowed vel window with hv2
  have hcl : c.length = vel.nstep := by rw [hc', List.length_map, List.length_range, hs1]
  set n := vel.nstep with hnn
  set L := 2 * n - 1 with hL
  have hC0 : C vel2 m 0 ≠ 0 := by unfold C; rw [hs1, hs2]; exact h0
  have hcget : ∀ t < n, c[t]? = some (C vel2 m t / C vel2 m 0) := by
    intro t ht
    rw [hc', List.getElem?_map, List.getElem?_range (by rw [hs1]; exact ht)]
    rfl
  -- the fft of the mirrored vacf
  have hml : ((mirrorL c).map (fun r : ℝ => (r : ℂ))).length = L := by
    rw [List.length_map, mirrorL_length c (by omega), hcl]
  have hfl : (fft ((mirrorL c).map (fun r : ℝ => (r : ℂ)))).length = L := by
    unfold fft; rw [List.length_map, List.length_range, hml]
  have hfft : ∀ k < L, (fft ((mirrorL c).map (fun r : ℝ => (r : ℂ))))[k]? =
      some (1 / ((C vel2 m 0 : ℝ) : ℂ) * ∑ j ∈ range L, ((C vel2 m (lag n j) : ℝ) : ℂ) * ee L (-((k : Int) * j))) := by
    intro k hk
    rw [fft_get _ k (by rw [hml]; exact hk), hml]
    congr 1
    unfold F
    rw [mul_sum]
    apply sum_congr rfl
    intro j hj
    rw [mem_range] at hj
    have hlag : lag n j < n := by unfold lag; split <;> omega
    beta_reduce
    rw [List.getD_eq_getElem?_getD, List.getElem?_map, mirrorL_get c j (by rw [hcl]; exact hj), hcl, hcget _ hlag]
    simp only [Option.map_some, Option.getD_some]
    push_cast
    ring
  have habs : ∀ k < L, ‖(1 / ((C vel2 m 0 : ℝ) : ℂ) * ∑ j ∈ range L, ((C vel2 m (lag n j) : ℝ) : ℂ) * ee L (-((k : Int) * j)))‖ =
      direct vel2 m k / |C vel2 m 0| := by
    intro k _
    rw [direct_eq vel2 m hm (by rw [hs1]; exact hn) k, hs1, norm_mul, norm_div, norm_one, Complex.norm_real, Real.norm_eq_abs]
    ring
  -- the two spectra before normalisation
  set yV := ((fft ((mirrorL c).map (fun r : ℝ => (r : ℂ)))).map (fun z => ‖z‖)).take (L / 2) with hyV
  have hyVl : yV.length = L / 2 := by rw [hyV, List.length_take, List.length_map, hfl]; omega
  have hyVget : ∀ k < L / 2, yV[k]? = some (direct vel2 m k / |C vel2 m 0|) := by
    intro k hk
    rw [hyV, List.getElem?_take_of_lt hk, List.getElem?_map, hfft k (by omega)]
    simp only [Option.map_some, Option.some.injEq]
    exact habs k (by omega)
  have hpad : padding vel.nstep (some 1) false = .ok ((n - 1 : Nat) : Int) := by
    simp [padding, padNadd, hnn]
  have hdir : directPdos vel dt m area window =
      (Num.normInt Num.simps ((List.range (L / 2)).map (direct vel2 m)) ((fftfreq L dt).take (L / 2)) area true).map
        (fun p => ((fftfreq L dt).take (L / 2), p)) := by
    unfold directPdos
    rw [pdosDirect_eq vel dt m area window (some 1) false (n - 1) hpad, show vel.nstep + (n - 1) = L by omega]
    have : directL vel2 m L = direct vel2 m := by
      funext k; unfold direct; rw [hs1]
    rw [← hv2, this]
  have hvac : pdosVacf c dt area true =
      (Num.normInt Num.simps yV ((fftfreq L dt).take (L / 2)) area true).map
        (fun p => ((fftfreq L dt).take (L / 2), p)) := by
    unfold pdosVacf
    simp only [if_true, hfl]
    rw [← hyV]
    cases Num.normInt Num.simps yV ((fftfreq L dt).take (L / 2)) area true <;> rfl
  have hyy : (List.range (L / 2)).map (direct vel2 m) = yV.map (· * |C vel2 m 0|) := by
    apply List.ext_getElem?
    intro k
    by_cases hk : k < L / 2
    · rw [List.getElem?_map, List.getElem?_range hk, List.getElem?_map, hyVget k hk]
      simp only [Option.map_some, Option.some.injEq]
      rw [div_mul_cancel₀ _ (abs_ne_zero.2 hC0)]
    · rw [List.getElem?_eq_none (by simp; omega), List.getElem?_eq_none (by rw [List.length_map, hyVl]; omega)]
  rw [hdir, hvac, hyy, normInt_const _ _ _ _ (abs_ne_zero.2 hC0)]

/-- **C64** (direct). For every `npad`: the result of `pdos(method='direct')` consists of the frequencies
`k/(L dt)` for `k < L/2`, where `L` is `n + (n-1) npad` or (`tonext=True`) the next power of two, and of a
multiple of `Σ_i m_i Σ_d |F(v_id)(k)|²`, the transform being that of the series filled up with zeros to the length
`L`; its integral is `area`. -/
theorem C64_direct (vel : Vel) (hn : 1 ≤ vel.nstep) (dt : ℝ) (m : Option (Nat → ℝ)) (area : ℝ) (window : Bool) (np : Nat)
    (tonext : Bool) (f p : List ℝ) (h : pdosDirect vel dt m area window (some np) tonext = some (f, p)) :
    ∃ L c, (tonext = false → L = vel.nstep + (vel.nstep - 1) * np) ∧
      (tonext = true → ∃ e, L = 2 ^ e ∧ vel.nstep + (vel.nstep - 1) * np ≤ 2 ^ e ∧
        ∀ e', vel.nstep + (vel.nstep - 1) * np ≤ 2 ^ e' → 2 ^ e ≤ 2 ^ e') ∧
      f = (List.range (L / 2)).map (fun k : Nat => (k : ℝ) / (L * dt)) ∧
      p = (List.range (L / 2)).map (fun k => c * ∑ i ∈ range vel.natoms, (m.getD (fun _ => 1)) i * ∑ d,
        ‖fourier ((List.range L).map (fun s => if s < vel.nstep then (((windowed vel window).v s i d : ℝ) : ℂ) else 0)) k‖ ^ 2) ∧
      Num.simps p f = area := by
  obtain ⟨hs1, hs2⟩ := windowed_shape vel window
  cases hp : padding vel.nstep (some np) tonext with
  | error e => simp [pdosDirect, hp] at h
  | ok k =>
    have hk : 0 ≤ k := by
      by_contra hc
      simp only [pdosDirect, hp, if_pos (not_le.1 hc)] at h
      cases h
    obtain ⟨K, rfl⟩ := Int.eq_ofNat_of_zero_le hk
    obtain ⟨p1, p2⟩ := padding_eq vel.nstep np hn tonext K hp
    rw [pdosDirect_eq vel dt m area window (some np) tonext K hp] at h
    set L := vel.nstep + K with hL
    set y := (List.range (L / 2)).map (directL (windowed vel window) m L) with hy
    set x := (fftfreq L dt).take (L / 2) with hx
    have hI : Num.simps y x ≠ 0 := by
      intro h0
      rw [Num.C29_zero _ Num.simps_homogeneous y x area true h0] at h
      cases h
    rw [Num.normInt_eq _ Num.simps_homogeneous y x area true hI] at h
    simp only [Option.map_some, Option.some.injEq, Prod.mk.injEq] at h
    obtain ⟨rfl, rfl⟩ := h
    have hxe : x = (List.range (L / 2)).map (fun k : Nat => (k : ℝ) / (L * dt)) := by
      rw [hx]
      unfold fftfreq
      rw [← List.map_take, List.take_range, min_eq_left (by omega)]
      apply List.map_congr_left
      intro i hi
      rw [List.mem_range] at hi
      rw [if_pos (by omega), mul_comm dt]
    refine ⟨L, area / Num.simps y x, ?_, ?_, hxe, ?_, ?_⟩
    · intro ht
      have := p1 ht
      omega
    · intro ht
      obtain ⟨e, h1, h2, h3⟩ := p2 ht
      refine ⟨e, ?_, ?_, ?_⟩
      · have : ((L : Nat) : Int) = ((2 ^ e : Nat) : Int) := by push_cast [hL]; exact h1
        exact_mod_cast this
      · exact_mod_cast h2
      · intro e' he'
        have := h3 e' (by exact_mod_cast he')
        exact_mod_cast this
    · rw [hy, List.map_map]
      apply List.map_congr_left
      intro k _
      simp only [Function.comp, directL, hs1, hs2]
      have : ∀ i d, F L (fun s => if s < vel.nstep then (((windowed vel window).v s i d : ℝ) : ℂ) else 0) k =
          fourier ((List.range L).map (fun s => if s < vel.nstep then (((windowed vel window).v s i d : ℝ) : ℂ) else 0)) k := by
        intro i d
        unfold F fourier
        rw [List.length_map, List.length_range]
        apply sum_congr rfl
        intro s hs
        rw [mem_range] at hs
        rw [List.getD_eq_getElem?_getD, List.getElem?_map, List.getElem?_range hs]
        simp only [Option.map_some, Option.getD_some]
        congr 1
        unfold ee
        congr 1
        push_cast
        ring
      simp only [this, massOf]
      ring
    · have := Num.simps_homogeneous (K := ℝ) y x (area / Num.simps y x) 1 one_ne_zero
      simp only [div_one, List.map_id'] at this
      have e2 : (y.map fun v => v * area / Num.simps y x) = y.map (· * (area / Num.simps y x)) := by
        apply List.map_congr_left; intro v _; ring
      rw [e2, this]
      field_simp

/-- **C64** (window). With `window=True` the velocities at time `s` are multiplied with the Welch window
`1 - ((s - (n-1)/2)/((n-1)/2))²`, which is one in the middle and zero at both ends. -/
theorem C64_window (vel : Vel) (hn : 2 ≤ vel.nstep) (s : Nat) (hs : s < vel.nstep) (i : Nat) (d : Fin 3) :
    (windowed vel false).v s i d = vel.v s i d ∧
    (windowed vel true).v s i d =
      vel.v s i d * (1 - (((s : ℝ) - ((vel.nstep : ℝ) - 1) / 2) / (((vel.nstep : ℝ) - 1) / 2)) ^ 2) := by
  refine ⟨rfl, ?_⟩
  simp only [windowed, if_true]
  congr 1
  unfold welch
  rw [if_neg (by omega), if_neg (by omega)]
  simp only [Bool.not_true, Bool.false_and, Bool.false_eq_true, if_false]
  rw [List.getD_eq_getElem?_getD, List.getElem?_map, List.getElem?_range (by omega)]
  simp only [Option.map_some, Option.getD_some, Int.cast_natCast]
  ring

/-- **C64** (they return). With a positive density the two functions do return a result. -/
theorem C64_vacf_returns (vel : Vel) (dt : ℝ) (m : Option (Nat → ℝ)) (area : ℝ) (window : Bool) :
    ∃ out, VacfPdos vel dt m area window out := by
  obtain ⟨c, hc⟩ := C63_fvacf_returns (windowed vel window) m 2
  exact ⟨_, c, hc, rfl⟩

/-- Non-vacuity: one atom which moves along x with the velocities 1, 2, 3, without window. -/
example : Spec.vacf 3 1 (fun s _ d => if d = 0 then (s : ℝ) + 1 else 0) (fun _ => 1) 0 ≠ 0 := by
  simp [Spec.vacf, Finset.sum_range_succ]
  norm_num

end Pwtools.Dos
