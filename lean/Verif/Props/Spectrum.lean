import Verif.Props.Fourier
/-!
# C177: what the transforms of `signal` say about a signal

No new model: Model/Signal.
-/
namespace Pwtools.Sig
open Nd Spec Complex Finset

theorem fourier_F (a : List ℂ) (k : Nat) : fourier a k = F a.length (fun n => a.getD n 0) k := by
  unfold fourier F ee
  apply sum_congr rfl
  intro n _
  congr 2
  push_cast
  ring

/-- What `dft` returns, if it does not raise. -/
theorem dft_some {a A : List ℂ} {m : String} (h : dft a m = some A) : A = (List.range a.length).map (fourier a) := by
  by_cases h1 : m = "loop"
  · subst h1; rw [(C62_dft a).1] at h; simpa using h.symm
  by_cases h2 : m = "matmul"
  · subst h2; rw [(C62_dft a).2] at h; simpa using h.symm
  · rw [C62_error a m h1 h2] at h; simp at h

theorem dft_get {a A : List ℂ} {m : String} (h : dft a m = some A) (k : Nat) (hk : k < a.length) : A.getD k 0 = fourier a k := by
  rw [dft_some h, List.getD_eq_getElem?_getD, List.getElem?_map, List.getElem?_range hk]; rfl

theorem dft_length {a A : List ℂ} {m : String} (h : dft a m = some A) : A.length = a.length := by
  rw [dft_some h]; simp

/-- **C177** (energy). The sum of the squared magnitudes of the transform is `N` times that of the signal (Parseval). -/
theorem C177_parseval (a A : List ℂ) (m : String) (h : dft a m = some A) :
    ∑ k ∈ range a.length, ‖A.getD k 0‖ ^ 2 = a.length * ∑ n ∈ range a.length, ‖a.getD n 0‖ ^ 2 := by
  rcases Nat.eq_zero_or_pos a.length with h0 | h0
  · simp [h0]
  have hL : a.length ≠ 0 := by omega
  have hL' : (a.length : ℂ) ≠ 0 := by exact_mod_cast hL
  have w := wiener_khinchin a.length hL (fun n => a.getD n 0) 0
  have e1 : ∀ k ∈ range a.length, (((‖F a.length (fun n => a.getD n 0) k‖ ^ 2 : ℝ)) : ℂ) * ee a.length ((k : Int) * 0) =
      ((‖A.getD k 0‖ ^ 2 : ℝ) : ℂ) := by
    intro k hk
    rw [mul_zero, ee_zero, mul_one, dft_get h k (mem_range.1 hk), fourier_F]
  have e2 : ∀ i ∈ range a.length, (∑ n ∈ range a.length, if (a.length : Int) ∣ (i : Int) + 0 - n then
      a.getD n 0 * (starRingEnd ℂ) (a.getD i 0) else 0) = ((‖a.getD i 0‖ ^ 2 : ℝ) : ℂ) := by
    intro i hi
    have hi := mem_range.1 hi
    rw [sum_eq_single i]
    · rw [if_pos (by simp), Complex.mul_conj, Complex.normSq_eq_norm_sq]
    · intro n hn hne
      have hn := mem_range.1 hn
      rw [if_neg]
      intro hd
      have := Int.eq_zero_of_abs_lt_dvd hd (by rw [abs_lt]; constructor <;> omega)
      omega
    · intro h'; exact absurd (mem_range.2 hi) h'
  rw [sum_congr rfl e1, sum_congr rfl e2] at w
  have : ((∑ k ∈ range a.length, ‖A.getD k 0‖ ^ 2 : ℝ) : ℂ) = ((a.length * ∑ n ∈ range a.length, ‖a.getD n 0‖ ^ 2 : ℝ) : ℂ) := by
    push_cast
    push_cast at w
    rw [← w]
    field_simp
  exact_mod_cast this

/-- **C177** (real signals). The second half of the transform of a real signal is the complex conjugate of the first in reverse
order, so the first half, which `ezfft` returns, determines all magnitudes. -/
theorem C177_real (v : List ℝ) (A : List ℂ) (m : String) (h : dft (v.map (fun x : ℝ => (x : ℂ))) m = some A) (k : Nat) (h1 : 0 < k) (hk : k < v.length) :
    A.getD (v.length - k) 0 = (starRingEnd ℂ) (A.getD k 0) ∧ (A.getD 0 0).im = 0 := by
  have hl : (v.map (fun x : ℝ => (x : ℂ))).length = v.length := by simp
  have hg : ∀ n, (v.map (fun x : ℝ => (x : ℂ))).getD n 0 = ((v.getD n 0 : ℝ) : ℂ) := by
    intro n
    simp only [List.getD_eq_getElem?_getD, List.getElem?_map]
    cases v[n]? <;> simp
  have e : ∀ j, j < v.length → A.getD j 0 = F v.length (fun n => ((v.getD n 0 : ℝ) : ℂ)) j := by
    intro j hj
    rw [dft_get h j (by omega), fourier_F, hl]
    unfold F
    exact sum_congr rfl (fun n _ => by beta_reduce; rw [hg])
  constructor
  · rw [e _ (by omega), e k hk]
    unfold F
    rw [map_sum]
    apply sum_congr rfl
    intro n _
    rw [map_mul, Complex.conj_ofReal, ← ee_neg, neg_neg]
    congr 1
    rw [show (-(((v.length - k : Nat) : Int) * (n : Int))) = (k : Int) * n + (n : Int) * (-(v.length : Int)) by
      push_cast [Nat.cast_sub hk.le]; ring, ee_add, (ee_eq_one v.length (by omega) ((n : Int) * (-(v.length : Int)))).2 (Dvd.dvd.mul_left (by simp) _), mul_one]
  · rw [e 0 (by omega)]
    unfold F
    simp [ee_zero]

theorem F_rotate (a : List ℂ) (k : Nat) :
    F a.length (fun n => (a.rotate 1).getD n 0) k = ee a.length k * F a.length (fun n => a.getD n 0) k := by
  rcases a with _ | ⟨x, t⟩
  · simp [F]
  have hr : (x :: t).rotate 1 = t ++ [x] := by simp
  rw [hr]
  unfold F
  rw [List.length_cons, sum_range_succ, sum_range_succ', mul_add, mul_sum]
  congr 1
  · apply sum_congr rfl
    intro n hn
    have hn := mem_range.1 hn
    have e1 : (t ++ [x]).getD n 0 = t.getD n 0 := by
      simp [List.getD_eq_getElem?_getD, List.getElem?_append_left hn]
    have e2 : (x :: t).getD (n + 1) 0 = t.getD n 0 := by simp
    beta_reduce
    rw [e1, e2]
    rw [show (-((k : Int) * (n : Int))) = (k : Int) + -((k : Int) * ((n + 1 : Nat) : Int)) by push_cast; ring, ee_add]
    ring
  · have e1 : (t ++ [x]).getD t.length 0 = x := by simp
    have e2 : (x :: t).getD 0 0 = x := by simp
    beta_reduce
    rw [e1, e2]
    rw [show (-((k : Int) * (t.length : Int))) = (k : Int) + (-(k : Int)) * ((t.length + 1 : Nat) : Int) by push_cast; ring, ee_add,
      (ee_eq_one (t.length + 1) (by omega) ((-(k : Int)) * ((t.length + 1 : Nat) : Int))).2 (Dvd.intro_left _ rfl)]
    simp [ee_zero]
    ring

/-- **C177** (choice of the time origin). For a periodic signal which starts `s` steps later the transform at `k` is multiplied
with the phase `exp(2πi s k/N)`; the magnitudes do not change. -/
theorem C177_delay (a A A' : List ℂ) (m m' : String) (s : Nat) (h : dft a m = some A) (h' : dft (a.rotate s) m' = some A') (k : Nat)
    (hk : k < a.length) :
    A'.getD k 0 = Complex.exp (2 * Real.pi * I * s * k / a.length) * A.getD k 0 ∧ ‖A'.getD k 0‖ = ‖A.getD k 0‖ := by
  have key : ∀ s, F a.length (fun n => (a.rotate s).getD n 0) k = ee a.length ((s : Int) * k) * F a.length (fun n => a.getD n 0) k := by
    intro s
    induction s with
    | zero => simp [ee_zero]
    | succ s ih =>
      have := F_rotate (a.rotate s) k
      rw [List.rotate_rotate, List.length_rotate, ih] at this
      rw [this, ← mul_assoc, ← ee_add]
      congr 2
      push_cast
      ring
  have e : A'.getD k 0 = Complex.exp (2 * Real.pi * I * s * k / a.length) * A.getD k 0 := by
    rw [dft_get h' k (by simpa using hk), dft_get h k hk, fourier_F, fourier_F, List.length_rotate, key s]
    congr 1
    unfold ee
    congr 1
    push_cast
    ring
  refine ⟨e, ?_⟩
  rw [e, norm_mul]
  have : 2 * (Real.pi : ℂ) * I * s * k / a.length = ((2 * Real.pi * s * k / a.length : ℝ) : ℂ) * I := by
    push_cast; ring
  rw [this, Complex.norm_exp_ofReal_mul_I, one_mul]

/-- **C177** (zero padding). If zeros are added at the end such that the length is `r` times the old one, all old frequencies and
values of `ezfft` are there, at `r` times their position; the new ones are between them. -/
theorem C177_padding (a : List ℂ) (r : Nat) (hr : 1 ≤ r) (dt : ℝ) (k : Nat) (hk : k < a.length / 2) :
    let y := a ++ List.replicate ((r - 1) * a.length) 0
    (ezfft y dt).1.getD (r * k) 0 = (ezfft a dt).1.getD k 0 ∧ (ezfft y dt).2.getD (r * k) 0 = (ezfft a dt).2.getD k 0 := by
  intro y
  have hl : y.length = r * a.length := by
    simp only [y, List.length_append, List.length_replicate]
    obtain ⟨q, rfl⟩ : ∃ q, r = q + 1 := ⟨r - 1, by omega⟩
    simp; ring
  have hk2 : r * k < y.length / 2 := by
    rw [hl]
    have h1 : 2 * (k + 1) ≤ a.length := by omega
    have h2 : r * (2 * (k + 1)) ≤ r * a.length := Nat.mul_le_mul_left _ h1
    have h3 : r * (2 * (k + 1)) = 2 * (r * k) + 2 * r := by ring
    omega
  have ha : (a.length : ℝ) ≠ 0 := by
    have : a.length ≠ 0 := by omega
    exact_mod_cast this
  have hr' : (r : ℝ) ≠ 0 := by
    have : r ≠ 0 := by omega
    exact_mod_cast this
  rw [C62_ezfft, C62_ezfft]
  simp only [List.getD_eq_getElem?_getD, List.getElem?_map, List.getElem?_range hk2, List.getElem?_range hk, Option.map_some, Option.getD_some]
  constructor
  · rw [hl]; push_cast; field_simp
  · unfold fourier
    rw [hl]
    obtain ⟨q, rfl⟩ : ∃ q, r = q + 1 := ⟨r - 1, by omega⟩
    rw [show (q + 1) * a.length = a.length + q * a.length by ring, sum_range_add]
    have hz : ∑ x ∈ range (q * a.length), y.getD (a.length + x) 0 *
        Complex.exp (-2 * Real.pi * I * ((a.length + x : Nat) : ℂ) * (((q + 1) * k : Nat) : ℂ) / ((a.length + q * a.length : Nat) : ℂ)) = 0 := by
      apply sum_eq_zero
      intro x hx
      have : y.getD (a.length + x) 0 = 0 := by
        simp only [y, List.getD_eq_getElem?_getD]
        rw [List.getElem?_append_right (by omega)]
        cases h : (List.replicate ((q + 1 - 1) * a.length) (0 : ℂ))[a.length + x - a.length]? with
        | none => rfl
        | some z =>
          have := List.mem_of_getElem? h
          simpa using (List.eq_of_mem_replicate this)
      rw [this, zero_mul]
    rw [hz, add_zero]
    apply sum_congr rfl
    intro n hn
    have hn := mem_range.1 hn
    have : y.getD n 0 = a.getD n 0 := by
      simp [y, List.getD_eq_getElem?_getD, List.getElem?_append_left hn]
    rw [this]
    congr 2
    have ha' : (a.length : ℂ) ≠ 0 := by exact_mod_cast ha
    have hq : ((q : ℂ) + 1) ≠ 0 := by exact_mod_cast hr'
    have hq2 : (a.length : ℂ) + q * a.length = (q + 1) * a.length := by ring
    push_cast
    rw [hq2]
    field_simp

/-- A double sum by differences of the indices. -/
theorem double_sum (g : Nat → Nat → ℂ) (N : Nat) : ∑ n ∈ range N, ∑ m ∈ range N, g n m =
    ∑ n ∈ range N, g n n + ∑ t ∈ range N, ∑ j ∈ range (N - (t + 1)), (g j (j + (t + 1)) + g (j + (t + 1)) j) := by
  induction N with
  | zero => simp
  | succ N ih =>
    have e1 : ∑ n ∈ range (N + 1), ∑ m ∈ range (N + 1), g n m =
        (∑ n ∈ range N, ∑ m ∈ range N, g n m) + g N N + ∑ n ∈ range N, (g n N + g N n) := by
      rw [sum_range_succ, sum_range_succ (fun m => g N m)]
      have : ∑ n ∈ range N, ∑ m ∈ range (N + 1), g n m = (∑ n ∈ range N, ∑ m ∈ range N, g n m) + ∑ n ∈ range N, g n N := by
        rw [← sum_add_distrib]
        exact sum_congr rfl (fun n _ => sum_range_succ _ _)
      rw [this, sum_add_distrib]
      ring
    have e2 : ∑ t ∈ range (N + 1), ∑ j ∈ range (N + 1 - (t + 1)), (g j (j + (t + 1)) + g (j + (t + 1)) j) =
        (∑ t ∈ range N, ∑ j ∈ range (N - (t + 1)), (g j (j + (t + 1)) + g (j + (t + 1)) j)) + ∑ n ∈ range N, (g n N + g N n) := by
      rw [sum_range_succ, show N + 1 - (N + 1) = 0 by omega, sum_range_zero, add_zero,
        ← sum_range_reflect (fun n => g n N + g N n) N, ← sum_add_distrib]
      apply sum_congr rfl
      intro t ht
      have ht := mem_range.1 ht
      rw [show N + 1 - (t + 1) = (N - (t + 1)) + 1 by omega, sum_range_succ]
      congr 1
      rw [show N - (t + 1) + (t + 1) = N by omega, show N - 1 - t = N - (t + 1) by omega]
    rw [e1, e2, ih, sum_range_succ (fun n => g n n)]
    ring

/-- **C177** (power spectrum). The squared magnitude of the transform of a real signal, filled up with any number of zeros, is the
cosine transform of its autocorrelation: `c(0) + 2 Σ c(t) cos(2π k t/L)` (Wiener-Khinchin), whichever method computes
the autocorrelation. -/
theorem C177_power (v c : List ℝ) (method p : Nat) (hm : 1 ≤ method ∧ method ≤ 7) (hc : acorr v method false = some c)
    (A : List ℂ) (m : String) (h : dft (v.map (fun x : ℝ => (x : ℂ)) ++ List.replicate p 0) m = some A) (k : Nat) (hk : k < v.length + p) :
    ‖A.getD k 0‖ ^ 2 = c.getD 0 0 + 2 * ∑ t ∈ range (v.length - 1), c.getD (t + 1) 0 * Real.cos (2 * Real.pi * k * (t + 1) / (v.length + p)) := by
  set L := v.length + p with hLdef
  have hL : L ≠ 0 := by omega
  have hlen : (v.map (fun x : ℝ => (x : ℂ)) ++ List.replicate p 0).length = L := by simp [hLdef]
  have hg : ∀ n, (v.map (fun x : ℝ => (x : ℂ)) ++ List.replicate p 0).getD n 0 = ((v.getD n 0 : ℝ) : ℂ) := by
    intro n
    rw [← getD_append_zero v p n]
    have : v.map (fun x : ℝ => (x : ℂ)) ++ List.replicate p 0 = (v ++ List.replicate p 0).map (fun x : ℝ => (x : ℂ)) := by simp
    rw [this]
    simp only [List.getD_eq_getElem?_getD, List.getElem?_map]
    cases (v ++ List.replicate p 0)[n]? <;> simp
  have hcget : ∀ t, t < v.length → c.getD t 0 = autocorr v t := by
    intro t ht
    rw [(C58_acorr v method hm).1] at hc
    obtain rfl : _ = c := by simpa using hc
    rw [List.getD_eq_getElem?_getD, List.getElem?_map, List.getElem?_range ht]; rfl
  have hA : A.getD k 0 = F L (fun n => ((v.getD n 0 : ℝ) : ℂ)) k := by
    rw [dft_get h k (by omega), fourier_F, hlen]
    unfold F
    exact sum_congr rfl (fun n _ => by beta_reduce; rw [hg])
  rcases Nat.eq_zero_or_pos v.length with h0 | h0
  · have hv : v = [] := List.length_eq_zero_iff.1 h0
    subst hv
    rw [(C58_acorr _ method hm).1] at hc
    obtain rfl : [] = c := by simpa using hc
    rw [hA]
    simp [F]
  have hbig : ∀ n, v.length ≤ n → v.getD n 0 = 0 := fun n hn => getD_zero_of_ge v n hn
  have e : ((‖A.getD k 0‖ ^ 2 : ℝ) : ℂ) = ∑ n ∈ range v.length, ∑ i ∈ range v.length,
      ((v.getD n 0 * v.getD i 0 : ℝ) : ℂ) * ee L ((k : Int) * ((i : Int) - n)) := by
    rw [hA, normSq_F, hLdef, sum_range_add]
    rw [show (∑ x ∈ range p, ∑ m ∈ range (v.length + p), ((v.getD (v.length + x) 0 : ℝ) : ℂ) * (starRingEnd ℂ) ((v.getD m 0 : ℝ) : ℂ) *
      ee (v.length + p) ((k : Int) * ((m : Int) - ((v.length + x : Nat) : Int)))) = 0 from
        sum_eq_zero (fun x _ => sum_eq_zero (fun i _ => by rw [hbig (v.length + x) (Nat.le_add_right _ _)]; simp)), add_zero]
    apply sum_congr rfl; intro n _
    rw [sum_range_add]
    rw [show (∑ x ∈ range p, ((v.getD n 0 : ℝ) : ℂ) * (starRingEnd ℂ) ((v.getD (v.length + x) 0 : ℝ) : ℂ) *
      ee (v.length + p) ((k : Int) * (((v.length + x : Nat) : Int) - n))) = 0 from
        sum_eq_zero (fun x _ => by rw [hbig (v.length + x) (Nat.le_add_right _ _)]; simp), add_zero]
    apply sum_congr rfl; intro i _
    rw [Complex.conj_ofReal]
    push_cast
    rfl
  have hcos : ∀ t : Nat, ee L ((k : Int) * t) + ee L ((k : Int) * (-(t : Int))) = ((2 * Real.cos (2 * Real.pi * k * t / L) : ℝ) : ℂ) := by
    intro t
    unfold ee
    push_cast
    rw [Complex.two_cos]
    congr 1 <;> congr 1 <;> ring
  rw [double_sum] at e
  have e3 : ∑ n ∈ range v.length, ((v.getD n 0 * v.getD n 0 : ℝ) : ℂ) * ee L ((k : Int) * ((n : Int) - n)) = ((c.getD 0 0 : ℝ) : ℂ) := by
    rw [hcget 0 h0]
    unfold autocorr
    push_cast
    apply sum_congr rfl; intro n _
    rw [sub_self, mul_zero, ee_zero, mul_one]
    simp
  have e4 : ∀ t ∈ range v.length, ∑ j ∈ range (v.length - (t + 1)),
      (((v.getD j 0 * v.getD (j + (t + 1)) 0 : ℝ) : ℂ) * ee L ((k : Int) * (((j + (t + 1) : Nat) : Int) - (j : Int))) +
       ((v.getD (j + (t + 1)) 0 * v.getD j 0 : ℝ) : ℂ) * ee L ((k : Int) * ((j : Int) - ((j + (t + 1) : Nat) : Int)))) =
      ((autocorr v (t + 1) * (2 * Real.cos (2 * Real.pi * k * ((t + 1 : Nat) : ℝ) / L)) : ℝ) : ℂ) := by
    intro t _
    rw [Complex.ofReal_mul, ← hcos (t + 1)]
    unfold autocorr
    rw [Complex.ofReal_sum, sum_mul]
    apply sum_congr rfl; intro j _
    rw [show (((j + (t + 1) : Nat) : Int) - (j : Int)) = ((t + 1 : Nat) : Int) by push_cast; ring,
      show ((j : Int) - ((j + (t + 1) : Nat) : Int)) = -((t + 1 : Nat) : Int) by push_cast; ring]
    push_cast
    ring
  rw [e3, sum_congr rfl e4] at e
  have e5 : ‖A.getD k 0‖ ^ 2 = c.getD 0 0 + ∑ t ∈ range v.length, autocorr v (t + 1) * (2 * Real.cos (2 * Real.pi * k * ((t + 1 : Nat) : ℝ) / L)) := by
    exact_mod_cast e
  rw [e5]
  congr 1
  obtain ⟨q, hq⟩ : ∃ q, v.length = q + 1 := ⟨v.length - 1, by omega⟩
  rw [hq, sum_range_succ, show q + 1 - 1 = q by omega, mul_sum]
  have hlast : autocorr v (q + 1) = 0 := by unfold autocorr; rw [hq]; simp
  rw [hlast, zero_mul, add_zero]
  apply sum_congr rfl; intro t ht
  have ht := mem_range.1 ht
  rw [hcget (t + 1) (by omega), hLdef, hq]
  push_cast
  ring

/-- **C177** (lines). The transform of a pure oscillation with `j` periods in the time of the signal is `N` at the position `j`
and zero elsewhere. -/
theorem C177_line (N j : Nat) (hj : j < N) (A : List ℂ) (m : String)
    (h : dft ((List.range N).map (fun n : Nat => Complex.exp (2 * Real.pi * I * j * n / N))) m = some A) (k : Nat) (hk : k < N) :
    A.getD k 0 = if k = j then (N : ℂ) else 0 := by
  rw [dft_get h k (by simpa using hk), fourier_F]
  have hlen : ((List.range N).map (fun n : Nat => Complex.exp (2 * Real.pi * I * j * n / N))).length = N := by simp
  rw [hlen]
  unfold F
  have e : ∀ n ∈ range N, ((List.range N).map (fun n : Nat => Complex.exp (2 * Real.pi * I * j * n / N))).getD n 0 * ee N (-((k : Int) * n)) =
      ee N ((n : Int) * ((j : Int) - k)) := by
    intro n hn
    rw [List.getD_eq_getElem?_getD, List.getElem?_map, List.getElem?_range (mem_range.1 hn)]
    rw [show (n : Int) * ((j : Int) - k) = (j : Int) * n + -((k : Int) * n) by ring, ee_add]
    congr 1
    simp only [Option.map_some, Option.getD_some]
    unfold ee
    congr 1
    push_cast
    ring
  rw [sum_congr rfl e, ee_sum N (by omega)]
  by_cases hkj : k = j
  · subst hkj; simp
  · rw [if_neg hkj, if_neg]
    intro hd
    have := Int.eq_zero_of_abs_lt_dvd hd (by rw [abs_lt]; constructor <;> omega)
    omega

/-- Non-vacuity: every signal has a transform and an autocorrelation. -/
example : (dft [1, 2] "loop").isSome ∧ (acorr [1, 2, 3] 7 false).isSome ∧ (dft ([1, 2].map (fun x : ℝ => (x : ℂ)) ++ List.replicate 3 0) "matmul").isSome := by
  rw [(C62_dft _).1, (C62_dft _).2, (C58_acorr _ 7 (by omega)).1]
  simp

end Pwtools.Sig
