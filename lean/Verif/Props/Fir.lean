import Verif.Spec.Fir
import Mathlib.Tactic.Ring
import Mathlib.Tactic.Linarith
import Mathlib.Tactic.FieldSimp
import Mathlib.Algebra.BigOperators.Intervals
/-!
# `signal.FIRFilter`: C172
-/
namespace Pwtools.Fir
open Pwtools.Spec

section
variable {V : Type*} [AddCommMonoid V] [Module ℝ V]

theorem lfilter_get {b : List ℝ} {x : List V} {n : Nat} (h : n < x.length) :
    (lfilter b x)[n]? = some (∑ k ∈ Finset.range b.length, if k ≤ n then b.getD k 0 • x.getD (n - k) 0 else 0) := by
  simp [lfilter, h]

theorem lfilter_length (b : List ℝ) (x : List V) : (lfilter b x).length = x.length := by simp [lfilter]

theorem lfilter_none {b : List ℝ} {x : List V} {n : Nat} (h : x.length ≤ n) : (lfilter b x)[n]? = none := by
  simp [lfilter, h]

/-- **C172** (form). The output has the length of the signal, and is a combination of the present and the last `ntaps - 1` samples: it
does not change when later samples change. -/
theorem C172_causal (o : Obj) (x : List V) : (o.call x).length = x.length ∧ ∀ m, (o.call x).take m = o.call (x.take m) := by
  refine ⟨lfilter_length _ _, fun m => ?_⟩
  apply List.ext_getElem?
  intro n
  unfold Obj.call
  rw [List.getElem?_take]
  by_cases h1 : n < m
  · rw [if_pos h1]
    by_cases h2 : n < x.length
    · rw [lfilter_get h2, lfilter_get (by simp; omega)]
      congr 1
      refine Finset.sum_congr rfl fun k _ => ?_
      split
      · simp only [List.getD_eq_getElem?_getD]
        rw [List.getElem?_take, if_pos (by omega)]
      · rfl
    · rw [lfilter_none (by omega), lfilter_none (by simp; omega)]
  · rw [if_neg h1, lfilter_none (by simp; omega)]

/-- **C172** (linear). Combinations of signals give combinations of outputs. -/
theorem C172_linear (o : Obj) (a c : ℝ) (x y : List V) (h : x.length = y.length) :
    o.call (List.zipWith (fun u v => a • u + c • v) x y) = List.zipWith (fun u v => a • u + c • v) (o.call x) (o.call y) := by
  apply List.ext_getElem?
  intro n
  unfold Obj.call
  rw [List.getElem?_zipWith]
  have hz : (List.zipWith (fun u v => a • u + c • v) x y).length = x.length := by simp [h]
  by_cases h2 : n < x.length
  · rw [lfilter_get h2, lfilter_get (x := y) (by omega), lfilter_get (x := List.zipWith _ x y) (by omega)]
    simp only [Option.some.injEq]
    rw [Finset.smul_sum, Finset.smul_sum, ← Finset.sum_add_distrib]
    refine Finset.sum_congr rfl fun k _ => ?_
    by_cases hk : k ≤ n
    · simp only [if_pos hk]
      have e1 : n - k < x.length := by omega
      have e2 : n - k < y.length := by omega
      simp only [List.getD_eq_getElem?_getD, List.getElem?_zipWith, List.getElem?_eq_getElem e1, List.getElem?_eq_getElem e2, Option.getD_some]
      rw [smul_add, smul_comm _ a, smul_comm _ c]
    · simp [hk]
  · rw [lfilter_none (x := x) (by omega), lfilter_none (x := List.zipWith _ x y) (by omega)]

/-- **C172** (time invariant). A signal which comes `m` samples later, after zeros, gives the same output `m` samples later. -/
theorem C172_shift (o : Obj) (m : Nat) (x : List V) :
    o.call (List.replicate m 0 ++ x) = List.replicate m 0 ++ o.call x := by
  apply List.ext_getElem?
  intro n
  unfold Obj.call
  have hget : ∀ j, (List.replicate m (0 : V) ++ x).getD j 0 = if j < m then 0 else x.getD (j - m) 0 := by
    intro j
    by_cases hj : j < m
    · simp [List.getD_eq_getElem?_getD, List.getElem?_append, hj]
    · simp [List.getD_eq_getElem?_getD, List.getElem?_append, hj]
  rw [List.getElem?_append]
  simp only [List.length_replicate]
  by_cases h1 : n < m
  · rw [if_pos h1, lfilter_get (by simp; omega)]
    rw [List.getElem?_replicate, if_pos h1, Finset.sum_eq_zero]
    intro k _
    rw [hget, if_pos (show n - k < m by omega)]
    simp
  · rw [if_neg h1]
    by_cases h2 : n - m < x.length
    · rw [lfilter_get h2, lfilter_get (by simp; omega)]
      congr 1
      refine Finset.sum_congr rfl fun k _ => ?_
      rw [hget]
      by_cases hk : k ≤ n - m
      · rw [if_pos hk, if_pos (by omega), if_neg (by omega)]
        congr 2; omega
      · rw [if_neg hk]
        split
        · rw [if_pos (by omega)]; simp
        · rfl
    · rw [lfilter_none (x := x) (by omega), lfilter_none (x := _ ++ x) (by simp; omega)]

theorem call_late {o : Obj} {x : List V} {f : Nat → V} (hx : IsSignal x f) {n : Nat} (hn : n < x.length) (hl : o.taps.length ≤ n + 1) :
    (o.call x)[n]? = some (∑ k ∈ Finset.range o.taps.length, o.taps.getD k 0 • f (n - k)) := by
  unfold Obj.call
  rw [lfilter_get hn]
  congr 1
  refine Finset.sum_congr rfl fun k hk => ?_
  rw [Finset.mem_range] at hk
  rw [if_pos (by omega)]
  have e : n - k < x.length := by omega
  have e' : x.getD (n - k) 0 = f (n - k) := by
    rw [List.getD_eq_getElem?_getD, List.getElem?_eq_getElem e, Option.getD_some, hx (n - k) _ (List.getElem?_eq_getElem e)]
  rw [e']

end

/-- What a successful call of `__init__` did. -/
theorem mk_cases {lib : Lib} {a : In} {o : Obj} (h : mk lib a = some o) :
    ∃ pz, passZero a = some pz ∧ taps lib a = some (o.ntaps, o.window) ∧ lib.firwin ⟨o.ntaps, a.cutoff, o.window, a.nyq, pz, a.width⟩ = some o.taps ∧
      o.w = (freqz o.taps).map (fun p => p.1 / Real.pi * a.nyq) ∧ o.h = (freqz o.taps).map Prod.snd := by
  unfold mk at h
  split at h
  · simp at h
  · rename_i n win h1
    split at h
    · simp at h
    · rename_i pz h2
      split at h
      · simp at h
      · rename_i b h3
        simp only [Option.some.injEq] at h
        refine ⟨pz, h2, ?_, ?_, ?_, ?_⟩ <;> rw [← h]
        · exact h1
        · exact h3

/-- **C172** (`w`, `h`). There are 512 frequencies, from 0 up to below `nyq`, equally spaced; `h[j]` is the complex factor which the filter
applies to a harmonic signal of frequency `w[j]` (sampled with the step `1/(2*nyq)`), once the filter is filled. -/
theorem C172_response (lib : Lib) (a : In) (hq : a.nyq ≠ 0) (o : Obj) (ho : mk lib a = some o) :
    o.w.length = 512 ∧ o.h.length = 512 ∧ ∀ (j : Nat) (w : ℝ) (h : ℂ), o.w[j]? = some w → o.h[j]? = some h → w = a.nyq * j / 512 ∧
      ∀ (c : ℂ) (x : List ℂ), IsSignal x (fun n => c * Complex.exp (2 * Real.pi * Complex.I * w * ((n : ℝ) * (1 / (2 * a.nyq)) : ℝ))) →
        ∀ n v, x[n]? = some v → o.taps.length ≤ n + 1 → (o.call x)[n]? = some (h * v) := by
  obtain ⟨pz, -, -, -, e1, e2⟩ := mk_cases ho
  refine ⟨by rw [e1, freqz, List.map_map, List.length_map, List.length_range], by rw [e2, freqz, List.map_map, List.length_map, List.length_range], ?_⟩
  intro j w h hw hh
  rw [e1, freqz, List.map_map, List.getElem?_map] at hw
  rw [e2, freqz, List.map_map, List.getElem?_map] at hh
  have hj : j < 512 := by
    by_contra hj
    rw [List.getElem?_eq_none (by rw [List.length_range]; omega)] at hw
    simp at hw
  rw [List.getElem?_range hj] at hw hh
  simp only [Option.map_some, Function.comp, Option.some.injEq] at hw hh
  have hpi := Real.pi_ne_zero
  have hw' : w = a.nyq * j / 512 := by
    rw [← hw]; field_simp
  refine ⟨hw', ?_⟩
  intro c x hx n v hv hl
  have hn : n < x.length := (List.getElem?_eq_some_iff.1 hv).1
  rw [call_late hx hn hl, hx n v hv, ← hh, Finset.sum_mul]
  congr 1
  refine Finset.sum_congr rfl fun k hk => ?_
  rw [Finset.mem_range] at hk
  have hkn : k ≤ n := by omega
  rw [Complex.real_smul, mul_assoc (((o.taps.getD k 0 : ℝ)) : ℂ), mul_left_comm (Complex.exp _) c, ← Complex.exp_add]
  congr 3
  rw [hw']
  have hq' : (a.nyq : ℂ) ≠ 0 := by exact_mod_cast hq
  push_cast [Nat.cast_sub hkn]
  field_simp
  ring

/-- The sine part of symmetric coefficients is zero. -/
theorem sin_zero {b : List ℝ} (hb : b.reverse = b) (ω : ℝ) :
    ∑ k ∈ Finset.range b.length, b.getD k 0 * Real.sin (ω * ((k : ℝ) - ((b.length : ℝ) - 1) / 2)) = 0 := by
  have h := Finset.sum_range_reflect (fun k => b.getD k 0 * Real.sin (ω * ((k : ℝ) - ((b.length : ℝ) - 1) / 2))) b.length
  have h2 : ∑ k ∈ Finset.range b.length, (fun k => b.getD k 0 * Real.sin (ω * ((k : ℝ) - ((b.length : ℝ) - 1) / 2))) (b.length - 1 - k) =
      -∑ k ∈ Finset.range b.length, b.getD k 0 * Real.sin (ω * ((k : ℝ) - ((b.length : ℝ) - 1) / 2)) := by
    rw [← Finset.sum_neg_distrib]
    refine Finset.sum_congr rfl fun k hk => ?_
    rw [Finset.mem_range] at hk
    have e : b.getD (b.length - 1 - k) 0 = b.getD k 0 := by
      conv_rhs => rw [← hb]
      simp only [List.getD_eq_getElem?_getD]
      rw [List.getElem?_reverse hk]
    beta_reduce
    rw [e, ← mul_neg, ← Real.sin_neg]
    congr 2
    rw [Nat.cast_sub (by omega), Nat.cast_sub (by omega)]
    push_cast
    ring
  rw [h2] at h
  linarith

/-- **C172** (linear phase). With symmetric coefficients, once the filter is filled, an oscillation of any frequency and phase comes out as
the same oscillation, `(ntaps-1)/2` samples later, times the gain at its frequency. -/
theorem C172_phase (lib : Lib) (hf : IsFirwin lib.firwin) (a : In) (o : Obj) (ho : mk lib a = some o) (A ω φ : ℝ) (x : List ℝ)
    (hx : IsSignal x (fun n => A * Real.cos (ω * n + φ))) (n : Nat) (hn : n < x.length) (hl : o.ntaps ≤ n + 1) :
    (o.call x)[n]? = some (firGain o.taps ω * (A * Real.cos (ω * ((n : ℝ) - ((o.ntaps : ℝ) - 1) / 2) + φ))) := by
  obtain ⟨pz, -, -, h1, -, -⟩ := mk_cases ho
  obtain ⟨e1, e2, -⟩ := hf _ _ h1
  simp only at e1
  rw [call_late hx hn (by omega), ← e1]
  congr 1
  have hs := sin_zero e2 ω
  unfold firGain
  have : ∀ k ∈ Finset.range o.taps.length, o.taps.getD k 0 • (A * Real.cos (ω * ((n - k : ℕ) : ℝ) + φ)) =
      A * Real.cos (ω * ((n : ℝ) - ((o.taps.length : ℝ) - 1) / 2) + φ) * (o.taps.getD k 0 * Real.cos (ω * ((k : ℝ) - ((o.taps.length : ℝ) - 1) / 2))) +
      A * Real.sin (ω * ((n : ℝ) - ((o.taps.length : ℝ) - 1) / 2) + φ) * (o.taps.getD k 0 * Real.sin (ω * ((k : ℝ) - ((o.taps.length : ℝ) - 1) / 2))) := by
    intro k hk
    rw [Finset.mem_range] at hk
    have e : ω * ((n - k : ℕ) : ℝ) + φ = (ω * ((n : ℝ) - ((o.taps.length : ℝ) - 1) / 2) + φ) - ω * ((k : ℝ) - ((o.taps.length : ℝ) - 1) / 2) := by
      rw [Nat.cast_sub (by omega)]; ring
    rw [e, Real.cos_sub, smul_eq_mul]
    ring
  rw [Finset.sum_congr rfl this, Finset.sum_add_distrib, ← Finset.mul_sum, ← Finset.mul_sum, hs]
  ring

theorem passZero_low {a : In} (h : a.mode = "lowpass") : passZero a = some true := by simp [passZero, h]
theorem passZero_high {a : In} (h : a.mode = "highpass") : passZero a = some false := by simp [passZero, h]
theorem passZero_band {a : In} (h : a.mode = "bandpass") {pz : Bool} (hp : passZero a = some pz) :
    pz = false ∧ ∃ l r, a.cutoff = .arr [l, r] := by
  simp only [passZero, h, String.reduceEq, if_false, if_true] at hp
  split at hp
  · rename_i ht
    refine ⟨by simpa using hp.symm, ?_⟩
    cases hc : a.cutoff with
    | num c => rw [hc] at ht; simp [two] at ht
    | arr l =>
      rw [hc] at ht
      simp only [two, beq_iff_eq] at ht
      obtain ⟨u, v, rfl⟩ := List.length_eq_two.1 ht
      exact ⟨u, v, rfl⟩
  · simp at hp

/-- **C172** (pass band). Lowpass filters keep constant signals; highpass filters (one cutoff) keep the oscillation with the Nyquist
frequency; bandpass filters keep the oscillation in the middle of the band, with any phase: unchanged, `(ntaps-1)/2`
samples later, once the filter is filled. Missing: bandstop filters, which cannot be made (`C172_bandstop_counterexample`). -/
theorem C172_pass_partial (lib : Lib) (hf : IsFirwin lib.firwin) (a : In) (o : Obj) (ho : mk lib a = some o) (A φ : ℝ) (x : List ℝ) (n : Nat)
    (hn : n < x.length) (hl : o.ntaps ≤ n + 1) :
    (a.mode = "lowpass" → IsSignal x (fun _ => A) → (o.call x)[n]? = some A) ∧
    (a.mode = "highpass" → a.cutoff.edges.length = 1 → IsSignal x (fun n => A * Real.cos (Real.pi * n + φ)) →
      (o.call x)[n]? = some (A * Real.cos (Real.pi * ((n : ℝ) - ((o.ntaps : ℝ) - 1) / 2) + φ))) ∧
    (a.mode = "bandpass" → ∃ l r, a.cutoff = .arr [l, r] ∧
      (IsSignal x (fun n => A * Real.cos (Real.pi * ((l + r) / 2) / a.nyq * n + φ)) →
        (o.call x)[n]? = some (A * Real.cos (Real.pi * ((l + r) / 2) / a.nyq * ((n : ℝ) - ((o.ntaps : ℝ) - 1) / 2) + φ)))) := by
  obtain ⟨pz, hp, -, h1, -, -⟩ := mk_cases ho
  obtain ⟨-, -, hg⟩ := hf _ _ h1
  simp only at hg
  refine ⟨fun hm hx => ?_, fun hm hc hx => ?_, fun hm => ?_⟩
  · rw [passZero_low hm] at hp
    simp only [Option.some.injEq] at hp
    subst hp
    simp only [passAngle] at hg
    have := C172_phase lib hf a o ho A 0 0 x (by simpa using hx) n hn hl
    rw [this, hg]
    simp
  · rw [passZero_high hm] at hp
    simp only [Option.some.injEq] at hp
    subst hp
    obtain ⟨c, hc⟩ := List.length_eq_one_iff.1 hc
    rw [hc] at hg
    simp only [passAngle] at hg
    rw [C172_phase lib hf a o ho A Real.pi φ x hx n hn hl, hg, one_mul]
  · obtain ⟨rfl, l, r, hc⟩ := passZero_band hm hp
    refine ⟨l, r, hc, fun hx => ?_⟩
    rw [hc] at hg
    simp only [passAngle, Cutoff.edges] at hg
    rw [C172_phase lib hf a o ho A _ φ x hx n hn hl, hg, one_mul]

/-- **C172** (arguments). With `ntaps` the window is the given one; without, both `ripple` and `width` are needed and order and
window are those of `kaiserord`, for a width in units of `nyq`. The filter has `ntaps` coefficients. -/
theorem C172_taps (lib : Lib) (hf : IsFirwin lib.firwin) (a : In) :
    (∀ n o, a.ntaps = some n → mk lib a = some o → o.ntaps = n ∧ o.window = a.window) ∧
    (∀ o, mk lib a = some o → o.taps.length = o.ntaps ∧ o.taps.reverse = o.taps) ∧
    (a.ntaps = none → a.ripple = none ∨ a.width = none → mk lib a = none) ∧
    (∀ r w o, a.ntaps = none → a.ripple = some r → a.width = some w → mk lib a = some o →
      ∃ beta, lib.kaiserord r (w / a.nyq) = some (o.ntaps, beta) ∧ o.window = .kaiser beta) := by
  refine ⟨fun n o hn ho => ?_, fun o ho => ?_, fun hn h => ?_, fun r w o hn hr hw ho => ?_⟩
  · obtain ⟨pz, -, h, -⟩ := mk_cases ho
    simp only [taps, hn, Option.some.injEq, Prod.mk.injEq] at h
    exact ⟨h.1.symm, h.2.symm⟩
  · obtain ⟨pz, -, -, h1, -, -⟩ := mk_cases ho
    exact ⟨(hf _ _ h1).1, (hf _ _ h1).2.1⟩
  · have : taps lib a = none := by
      rcases h with h | h
      · simp [taps, hn, h]
      · cases hr : a.ripple <;> simp [taps, hn, h, hr]
    simp [mk, this]
  · obtain ⟨pz, -, h, -⟩ := mk_cases ho
    simp only [taps, hn, hr, hw] at h
    cases hk : lib.kaiserord r (w / a.nyq) with
    | none => simp [hk] at h
    | some nb =>
      simp only [hk, Option.map_some, Option.some.injEq, Prod.mk.injEq] at h
      exact ⟨nb.2, by rw [← h.1], h.2.symm⟩

/-- **C172** (modes). Unknown modes are refused, bandpass needs two cutoffs. -/
theorem C172_mode (lib : Lib) (a : In) :
    (a.mode ∉ ["lowpass", "highpass", "bandpass", "bandstop"] → mk lib a = none) ∧
    (a.mode = "bandpass" → a.cutoff.edges.length ≠ 2 → mk lib a = none) := by
  constructor
  · intro h
    simp only [List.mem_cons, List.not_mem_nil, or_false, not_or] at h
    have : passZero a = none := by simp [passZero, h.1, h.2.1, h.2.2.1]
    unfold mk
    split
    · rfl
    · simp [this]
  · intro h hc
    cases ho : mk lib a with
    | none => rfl
    | some o =>
      obtain ⟨pz, hp, -⟩ := mk_cases ho
      obtain ⟨-, l, r, h2⟩ := passZero_band h hp
      rw [h2] at hc
      simp [Cutoff.edges] at hc

/-- **C172**, counterexample: no bandstop filter can be made, whatever the arguments. -/
theorem C172_bandstop_counterexample (lib : Lib) (a : In) (h : a.mode = "bandstop") : mk lib a = none := by
  have : passZero a = none := by simp [passZero, h]
  unfold mk
  split
  · rfl
  · simp [this]

/-! Non-vacuity: `firwin` returns the unit impulse in the middle for odd lengths and refuses even lengths. -/

/-- A library with the required properties. -/
noncomputable def exLib : Lib where
  firwin := fun a => if a.numtaps = 3 then some [0, 1, 0] else none
  kaiserord := fun _ _ => some (3, 1)

example : IsFirwin exLib.firwin := by
  intro a b h
  simp only [exLib] at h
  split at h
  · rename_i h3
    simp only [Option.some.injEq] at h
    subst h
    refine ⟨by simp [h3], rfl, ?_⟩
    norm_num [firGain, Finset.sum_range_succ]
  · simp at h

/-- A bandpass filter. -/
noncomputable def exIn : In := { cutoff := .arr [1, 2], nyq := 5, ntaps := some 3, mode := "bandpass" }

example : ∃ o, mk exLib exIn = some o ∧ o.taps = [0, 1, 0] ∧ o.call [(1 : ℝ), 2, 3, 4] = [0, 1, 2, 3] := by
  have hp : passZero exIn = some false := by simp [passZero, exIn, two]
  refine ⟨_, by simp only [mk, taps, exIn, exLib] at *; rw [hp]; rfl, rfl, ?_⟩
  simp [Obj.call, lfilter, List.range_succ, Finset.sum_range_succ]

example : mk exLib { exIn with ntaps := none, ripple := some 60 } = none ∧ mk exLib { exIn with mode := "notch" } = none ∧
    mk exLib { exIn with cutoff := .num 1 } = none := by
  refine ⟨?_, (C172_mode exLib _).1 (by decide), (C172_mode exLib _).2 rfl (by simp [Cutoff.edges])⟩
  simp [mk, taps, exIn]

end Pwtools.Fir
