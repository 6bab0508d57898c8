import Verif.Spec.Velocity
import Verif.Props.Scell
import Verif.Props.Rmsd
import Mathlib.Analysis.Calculus.MeanValue
import Mathlib.Analysis.Calculus.Deriv.Pow
import Mathlib.Analysis.Calculus.Deriv.Comp
import Mathlib.Analysis.Calculus.Deriv.Add
import Mathlib.Analysis.SpecialFunctions.Trigonometric.Deriv
/-!
# Velocities from positions, distances between steps: C174
-/
namespace Pwtools.Cry
open Pwtools.Spec

section taylor
variable {E : Type} [NormedAddCommGroup E] [NormedSpace ℝ E]

theorem deriv_plus {f f' : ℝ → E} (h : ∀ t, HasDerivAt f (f' t) t) (t s : ℝ) : HasDerivAt (fun s => f (t + s)) (f' (t + s)) s := by
  have := HasDerivAt.scomp s (h (t + s)) ((hasDerivAt_id s).const_add t)
  simpa [Function.comp_def] using this

theorem deriv_minus {f f' : ℝ → E} (h : ∀ t, HasDerivAt f (f' t) t) (t s : ℝ) : HasDerivAt (fun s => f (t - s)) (-f' (t - s)) s := by
  have := HasDerivAt.scomp s (h (t - s)) ((hasDerivAt_id s).const_sub t)
  simpa [Function.comp_def] using this

theorem fence {f f' : ℝ → E} {B B' : ℝ → ℝ} (hf : ∀ s, HasDerivAt f (f' s) s) (hB : ∀ s, HasDerivAt B (B' s) s) (h0 : ‖f 0‖ ≤ B 0)
    (hb : ∀ s, 0 ≤ s → ‖f' s‖ ≤ B' s) (s : ℝ) (hs : 0 ≤ s) : ‖f s‖ ≤ B s :=
  image_norm_le_of_norm_deriv_right_le_deriv_boundary (a := 0) (b := s) (fun u _ => (hf u).continuousAt.continuousWithinAt)
    (fun u _ => (hf u).hasDerivWithinAt) h0 hB (fun u hu => hb u hu.1) ⟨hs, le_refl s⟩

theorem central {x v a j : ℝ → E} {M : ℝ} (h : SmoothMotion x v a j M) (t s : ℝ) (hs : 0 ≤ s) :
    ‖x (t + s) - x (t - s) - (2 * s) • v t‖ ≤ M * s ^ 3 / 3 := by
  have h1 : ∀ s, 0 ≤ s → ‖a (t + s) - a (t - s)‖ ≤ 2 * M * s := by
    refine fence (f' := fun s => j (t + s) - -j (t - s)) (B' := fun _ => 2 * M) (fun s => (deriv_plus h.jerk t s).sub (deriv_minus h.jerk t s))
      (fun s => by simpa using (hasDerivAt_id s).const_mul (2 * M)) (by simp) ?_
    intro s _
    calc ‖j (t + s) - -j (t - s)‖ ≤ ‖j (t + s)‖ + ‖j (t - s)‖ := by
          rw [sub_neg_eq_add]; exact norm_add_le _ _
      _ ≤ 2 * M := by linarith [h.bound (t + s), h.bound (t - s)]
  have h2 : ∀ s, 0 ≤ s → ‖v (t + s) + v (t - s) - (2 : ℝ) • v t‖ ≤ M * s ^ 2 := by
    refine fence (f' := fun s => a (t + s) + -a (t - s)) (B' := fun s => M * (2 * s))
      (fun s => ((deriv_plus h.acc t s).add (deriv_minus h.acc t s)).sub_const _)
      (fun s => by simpa using (hasDerivAt_pow 2 s).const_mul M) (by simp [two_smul]) ?_
    intro s hs
    rw [← sub_eq_add_neg]
    have := h1 s hs
    linarith
  refine fence (f := fun s => x (t + s) - x (t - s) - (2 * s) • v t) (f' := fun s => v (t + s) - -v (t - s) - (2 : ℝ) • v t) (B := fun s => M * s ^ 3 / 3) (B' := fun s => M * (3 * s ^ 2) / 3)
    (fun s => ?_) (fun s => by simpa using ((hasDerivAt_pow 3 s).const_mul M).div_const 3) (by simp) ?_ s hs
  · refine ((deriv_plus h.vel t s).sub (deriv_minus h.vel t s)).sub ?_
    have := ((hasDerivAt_id s).const_mul 2).smul_const (v t)
    simpa using this
  · intro s hs
    rw [sub_neg_eq_add]
    have := h2 s hs
    linarith

theorem samples_get {F : Type} (x : ℝ → F) (t0 dt : ℝ) {n i : Nat} (h : i < n) : (samples x t0 dt n)[i]? = some (x (t0 + i * dt)) := by
  simp [samples, h]

theorem samples_len {F : Type} (x : ℝ → F) (t0 dt : ℝ) (n : Nat) : (samples x t0 dt n).length = n := by simp [samples]

/-- **C174** (accuracy). A motion whose acceleration changes at most at the rate `M`: in the interior the velocities are those of the
motion up to `M*dt²/6`; at the two ends, up to the difference of the true velocities at neighbouring steps in addition. -/
theorem C174_accuracy (x v a j : ℝ → E) (M : ℝ) (h : SmoothMotion x v a j M) (t0 dt : ℝ) (hdt : 0 < dt) (n : Nat) (hn : 3 ≤ n) :
    ∃ vv, velocityTraj (samples x t0 dt n) dt true = some vv ∧ vv.length = n ∧
      (∀ (i : Nat) w, 1 ≤ i → i + 1 < n → vv[i]? = some w → ‖w - v (t0 + i * dt)‖ ≤ M * dt ^ 2 / 6) ∧
      (∀ w, vv[0]? = some w → ‖w - v t0‖ ≤ M * dt ^ 2 / 6 + ‖v (t0 + dt) - v t0‖) ∧
      (∀ w, vv[n - 1]? = some w → ‖w - v (t0 + (n - 1 : ℕ) * dt)‖ ≤ M * dt ^ 2 / 6 + ‖v (t0 + (n - 2 : ℕ) * dt) - v (t0 + (n - 1 : ℕ) * dt)‖) := by
  obtain ⟨vv, h1, h2, h3, h4, h5⟩ := C46_velocity (samples x t0 dt n) dt (by rw [samples_len]; exact hn)
  rw [samples_len] at h2 h3 h5
  have mid : ∀ (i : Nat) w, 1 ≤ i → i + 1 < n → vv[i]? = some w → ‖w - v (t0 + i * dt)‖ ≤ M * dt ^ 2 / 6 := by
    intro i w hi hi' hw
    have g := h3 i _ _ hi hi' (samples_get x t0 dt (by omega)) (samples_get x t0 dt (by omega))
    rw [hw, Option.some.injEq] at g
    have e1 : t0 + ((i + 1 : ℕ) : ℝ) * dt = (t0 + i * dt) + dt := by push_cast; ring
    have e2 : t0 + ((i - 1 : ℕ) : ℝ) * dt = (t0 + i * dt) - dt := by
      rw [Nat.cast_sub hi]; push_cast; ring
    rw [e1, e2] at g
    have c := central h (t0 + i * dt) dt hdt.le
    have e3 : w - v (t0 + i * dt) = (1 / (2 * dt)) • (x (t0 + i * dt + dt) - x (t0 + i * dt - dt) - (2 * dt) • v (t0 + i * dt)) := by
      rw [g, smul_sub _ _ ((2 * dt) • _), smul_smul, one_div_mul_cancel (by positivity), one_smul]
    rw [e3, norm_smul, Real.norm_of_nonneg (by positivity)]
    calc 1 / (2 * dt) * _ ≤ 1 / (2 * dt) * (M * dt ^ 3 / 3) := mul_le_mul_of_nonneg_left c (by positivity)
      _ = M * dt ^ 2 / 6 := by field_simp; ring
  refine ⟨vv, h1, h2, mid, ?_, ?_⟩
  · intro w hw
    rw [h4] at hw
    have := mid 1 w (le_refl _) (by omega) hw
    simp only [Nat.cast_one, one_mul] at this
    calc ‖w - v t0‖ = ‖(w - v (t0 + dt)) + (v (t0 + dt) - v t0)‖ := by rw [sub_add_sub_cancel]
      _ ≤ _ := (norm_add_le _ _).trans (by linarith)
  · intro w hw
    rw [h5] at hw
    have := mid (n - 2) w (by omega) (by omega) hw
    calc ‖w - v (t0 + (n - 1 : ℕ) * dt)‖ = ‖(w - v (t0 + (n - 2 : ℕ) * dt)) + (v (t0 + (n - 2 : ℕ) * dt) - v (t0 + (n - 1 : ℕ) * dt))‖ := by
          rw [sub_add_sub_cancel]
      _ ≤ _ := (norm_add_le _ _).trans (by linarith)

/-- **C174** (uniform acceleration). Motions with constant acceleration: the velocities in the interior are exact. -/
theorem C174_quadratic (x0 v0 g : E) (t0 dt : ℝ) (hdt : 0 < dt) (n : Nat) (hn : 3 ≤ n) :
    ∃ vv, velocityTraj (samples (fun t => x0 + t • v0 + (t ^ 2 / 2) • g) t0 dt n) dt true = some vv ∧ vv.length = n ∧
      ∀ i : Nat, 1 ≤ i → i + 1 < n → vv[i]? = some (v0 + (t0 + i * dt) • g) := by
  have hm : SmoothMotion (fun t => x0 + t • v0 + (t ^ 2 / 2) • g) (fun t => v0 + t • g) (fun _ => g) (fun _ => 0) 0 := by
    refine ⟨fun t => ?_, fun t => ?_, fun t => hasDerivAt_const t g, fun t => by simp⟩
    · have h1 : HasDerivAt (fun t : ℝ => t • v0) v0 t := by simpa using (hasDerivAt_id t).smul_const v0
      have h2 : HasDerivAt (fun t : ℝ => (t ^ 2 / 2) • g) (t • g) t := by
        simpa using ((hasDerivAt_pow 2 t).div_const 2).smul_const g
      exact (h1.const_add x0).add h2
    · simpa using ((hasDerivAt_id t).smul_const g).const_add v0
  obtain ⟨vv, h1, h2, h3, -, -⟩ := C174_accuracy _ _ _ _ 0 hm t0 dt hdt n hn
  refine ⟨vv, h1, h2, fun i hi hi' => ?_⟩
  have hi2 : i < vv.length := by omega
  have := h3 i _ hi hi' (List.getElem?_eq_getElem hi2)
  rw [zero_mul, zero_div, norm_le_zero_iff, sub_eq_zero] at this
  rw [List.getElem?_eq_getElem hi2, this]

end taylor

section algebra
variable {E F : Type} [AddCommGroup E] [Module ℝ E] [AddCommGroup F] [Module ℝ F]

/-- **C174** (units, axes, atoms). A linear map of all positions (rotation, change of the length unit, selection or combination
of atoms, the centre of mass) gives the same map of all velocities. -/
theorem C174_linear (L : E →ₗ[ℝ] F) (x : List E) (dt : ℝ) (ep : Bool) :
    velocityTraj (x.map L) dt ep = (velocityTraj x dt ep).map fun v => v.map L := by
  have e : List.zipWith (fun a b : F => (1 / dt) • ((1 / 2 : ℝ) • (a - b))) ((x.map L).drop 2) ((x.map L).take ((x.map L).length - 2)) =
      (List.zipWith (fun a b : E => (1 / dt) • ((1 / 2 : ℝ) • (a - b))) (x.drop 2) (x.take (x.length - 2))).map L := by
    rw [← List.map_drop, List.length_map, ← List.map_take, List.map_zipWith, List.zipWith_map]
    congr 1
    funext a b
    simp
  unfold velocityTraj
  simp only [e]
  split
  · rw [List.head?_map, List.getLast?_map]
    cases (List.zipWith (fun a b : E => (1 / dt) • ((1 / 2 : ℝ) • (a - b))) (x.drop 2) (x.take (x.length - 2))).head? <;>
      cases (List.zipWith (fun a b : E => (1 / dt) • ((1 / 2 : ℝ) • (a - b))) (x.drop 2) (x.take (x.length - 2))).getLast? <;> simp
  · rfl

/-- **C174** (origin). Positions shifted by the same vector at all times have the same velocities. -/
theorem C174_origin (c : E) (x : List E) (dt : ℝ) (ep : Bool) : velocityTraj (x.map (· + c)) dt ep = velocityTraj x dt ep := by
  have e : List.zipWith (fun a b : E => (1 / dt) • ((1 / 2 : ℝ) • (a - b))) ((x.map (· + c)).drop 2) ((x.map (· + c)).take ((x.map (· + c)).length - 2)) =
      List.zipWith (fun a b : E => (1 / dt) • ((1 / 2 : ℝ) • (a - b))) (x.drop 2) (x.take (x.length - 2)) := by
    rw [← List.map_drop, List.length_map, ← List.map_take, List.zipWith_map]
    congr 1
    funext a b
    simp
  unfold velocityTraj
  simp only [e]

/-- **C174** (time unit). Another unit of time divides the velocities by the factor. -/
theorem C174_time (x : List E) (dt c : ℝ) (ep : Bool) :
    velocityTraj x (c * dt) ep = (velocityTraj x dt ep).map fun v => v.map fun w => (1 / c) • w := by
  have e : List.zipWith (fun a b : E => (1 / (c * dt)) • ((1 / 2 : ℝ) • (a - b))) (x.drop 2) (x.take (x.length - 2)) =
      (List.zipWith (fun a b : E => (1 / dt) • ((1 / 2 : ℝ) • (a - b))) (x.drop 2) (x.take (x.length - 2))).map fun w => (1 / c) • w := by
    rw [List.map_zipWith]
    congr 1
    funext a b
    rw [smul_smul (1 / c), one_div_mul_one_div]
  unfold velocityTraj
  simp only [e]
  split
  · rw [List.head?_map, List.getLast?_map]
    cases (List.zipWith (fun a b : E => (1 / dt) • ((1 / 2 : ℝ) • (a - b))) (x.drop 2) (x.take (x.length - 2))).head? <;>
      cases (List.zipWith (fun a b : E => (1 / dt) • ((1 / 2 : ℝ) • (a - b))) (x.drop 2) (x.take (x.length - 2))).getLast? <;> simp
  · rfl

/-- **C174** (direction of time). The trajectory played backwards has the opposite velocities, in opposite order. -/
theorem C174_reverse (x : List E) (dt : ℝ) (ep : Bool) :
    velocityTraj x.reverse dt ep = (velocityTraj x dt ep).map fun v => (v.map fun w => -w).reverse := by
  have e : List.zipWith (fun a b : E => (1 / dt) • ((1 / 2 : ℝ) • (a - b))) (x.reverse.drop 2) (x.reverse.take (x.reverse.length - 2)) =
      ((List.zipWith (fun a b : E => (1 / dt) • ((1 / 2 : ℝ) • (a - b))) (x.drop 2) (x.take (x.length - 2))).map fun w => -w).reverse := by
    rw [List.map_zipWith, List.length_reverse, List.drop_reverse, List.take_reverse, List.reverse_zipWith (by simp)]
    by_cases h2 : 2 ≤ x.length
    · rw [show x.length - (x.length - 2) = 2 by omega, List.zipWith_comm]
      congr 2
      funext a b
      rw [← smul_neg, ← smul_neg, neg_sub]
    · have h0 : x.length - 2 = 0 := by omega
      simp [h0]
  unfold velocityTraj
  simp only [e]
  split
  · rw [List.head?_reverse, List.getLast?_reverse, List.head?_map, List.getLast?_map]
    cases (List.zipWith (fun a b : E => (1 / dt) • ((1 / 2 : ℝ) • (a - b))) (x.drop 2) (x.take (x.length - 2))).head? <;>
      cases (List.zipWith (fun a b : E => (1 / dt) • ((1 / 2 : ℝ) • (a - b))) (x.drop 2) (x.take (x.length - 2))).getLast? <;> simp
  · rfl

omit [Module ℝ E] in
theorem pairs_sum (x : List E) : ∀ a b : E, (List.zipWith (fun u w : E => u - w) x ((a :: b :: x).take x.length)).sum + (a + b) =
    (a :: b :: x).getD (x.length + 1) 0 + (a :: b :: x).getD x.length 0 := by
  induction x with
  | nil => intro a b; simp [add_comm]
  | cons c x ih =>
    intro a b
    have := ih b c
    simp only [List.length_cons, List.take_succ_cons, List.zipWith_cons_cons, List.sum_cons, List.getD_cons_succ] at this ⊢
    rw [← this]
    abel

/-- **C174** (displacement). The velocities in the interior add up to the displacement: `2*dt` times their sum is the sum of the last two
positions minus the sum of the first two. -/
theorem C174_displacement (x : List E) (hx : 2 ≤ x.length) (dt : ℝ) (hdt : dt ≠ 0) :
    ∃ v, velocityTraj x dt false = some v ∧
      (2 * dt) • v.sum = (x.getD (x.length - 1) 0 + x.getD (x.length - 2) 0) - (x.getD 0 0 + x.getD 1 0) := by
  obtain ⟨a, b, l, rfl⟩ : ∃ a b l, x = a :: b :: l := by
    match x, hx with
    | a :: b :: l, _ => exact ⟨a, b, l, rfl⟩
  refine ⟨_, rfl, ?_⟩
  have h := pairs_sum l a b
  have e : ((2 * dt) • (List.zipWith (fun a b : E => (1 / dt) • ((1 / 2 : ℝ) • (a - b))) ((a :: b :: l).drop 2) ((a :: b :: l).take ((a :: b :: l).length - 2))).sum : E) =
      (List.zipWith (fun u w : E => u - w) l ((a :: b :: l).take l.length)).sum := by
    rw [List.smul_sum, List.map_zipWith]
    congr 1
    simp only [List.drop_succ_cons, List.drop_zero, List.length_cons]
    congr 1
    funext u w
    rw [smul_smul, smul_smul]
    have : 2 * dt * (1 / dt * (1 / 2)) = 1 := by field_simp
    rw [mul_assoc, this, one_smul]
  rw [e]
  simp only [List.length_cons, Nat.add_sub_cancel, show l.length + 1 + 1 - 2 = l.length by omega]
  rw [← h]
  simp

end algebra

theorem minkowski {ι : Type} (s : Finset ι) (u w : ι → ℝ) :
    Real.sqrt (∑ i ∈ s, (u i + w i) ^ 2) ≤ Real.sqrt (∑ i ∈ s, u i ^ 2) + Real.sqrt (∑ i ∈ s, w i ^ 2) := by
  have hA : 0 ≤ ∑ i ∈ s, u i ^ 2 := Finset.sum_nonneg fun _ _ => sq_nonneg _
  have hB : 0 ≤ ∑ i ∈ s, w i ^ 2 := Finset.sum_nonneg fun _ _ => sq_nonneg _
  have hc : ∑ i ∈ s, u i * w i ≤ Real.sqrt (∑ i ∈ s, u i ^ 2) * Real.sqrt (∑ i ∈ s, w i ^ 2) := by
    rw [← Real.sqrt_mul hA]
    exact Real.le_sqrt_of_sq_le (Finset.sum_mul_sq_le_sq_mul_sq s u w)
  apply Real.sqrt_le_iff.2
  refine ⟨add_nonneg (Real.sqrt_nonneg _) (Real.sqrt_nonneg _), ?_⟩
  have e : ∑ i ∈ s, (u i + w i) ^ 2 = ∑ i ∈ s, u i ^ 2 + 2 * ∑ i ∈ s, u i * w i + ∑ i ∈ s, w i ^ 2 := by
    rw [Finset.mul_sum, ← Finset.sum_add_distrib, ← Finset.sum_add_distrib]
    exact Finset.sum_congr rfl fun _ _ => by ring
  rw [e, add_sq, Real.sq_sqrt hA, Real.sq_sqrt hB]
  linarith

/-- **C174** (RMSD is a distance). The value for step `s` against step `t` is that for `t` against `s`, and never larger than the sum
over a step in between. -/
theorem C174_rmsd_metric (coords : List (List V3)) (natoms : Nat) (hn : ∀ x ∈ coords, x.length = natoms) :
    ∃ d : Nat → Nat → ℝ, (∀ r : Nat, r < coords.length → ∃ out, rmsd coords natoms (r : Int) = some out ∧ ∀ t, t < coords.length → out[t]? = some (d r t)) ∧
      ∀ r s t, r < coords.length → s < coords.length → t < coords.length → d r s = d s r ∧ d r t ≤ d r s + d s t := by
  refine ⟨fun r t => Real.sqrt (sqDisp natoms (fun i => (coords.getD t []).getD i 0) (fun i => (coords.getD r []).getD i 0) / natoms), ?_, ?_⟩
  · intro r hr
    obtain ⟨out, h1, h2, h3⟩ := C96_value coords natoms r hn r hr (Or.inl rfl)
    refine ⟨out, h1, fun t ht => ?_⟩
    have := h3 t ht
    rw [List.getD_eq_getElem?_getD, List.getElem?_eq_getElem (by omega), Option.getD_some] at this
    rw [List.getElem?_eq_getElem (by omega), this]
  · intro r s t _ _ _
    beta_reduce
    constructor
    · congr 2
      unfold sqDisp
      exact Finset.sum_congr rfl fun i _ => Finset.sum_congr rfl fun k _ => by ring
    · rw [Real.sqrt_div' _ (by positivity), Real.sqrt_div' _ (by positivity), Real.sqrt_div' _ (by positivity), ← add_div]
      refine div_le_div_of_nonneg_right ?_ (Real.sqrt_nonneg _)
      unfold sqDisp
      simp only [← Finset.sum_product']
      have := minkowski (Finset.range natoms ×ˢ (Finset.univ : Finset (Fin 3)))
        (fun p => (coords.getD s []).getD p.1 0 p.2 - (coords.getD r []).getD p.1 0 p.2)
        (fun p => (coords.getD t []).getD p.1 0 p.2 - (coords.getD s []).getD p.1 0 p.2)
      refine le_trans (le_of_eq ?_) this
      congr 1
      exact Finset.sum_congr rfl fun p _ => by ring

/-- Non-vacuity: harmonic motion. -/
example : SmoothMotion (fun t : ℝ => Real.cos t) (fun t => -Real.sin t) (fun t => -Real.cos t) (fun t => Real.sin t) 1 := by
  refine ⟨Real.hasDerivAt_cos, fun t => (Real.hasDerivAt_sin t).neg, fun t => ?_, fun t => ?_⟩
  · have := (Real.hasDerivAt_cos t).neg
    rw [neg_neg] at this
    exact this
  · rw [Real.norm_eq_abs]; exact Real.abs_sin_le_one t

/-- Non-vacuity: the velocities of three positions. -/
example : velocityTraj [(0 : ℝ), 1, 4] 1 true = some [2, 2, 2] ∧ velocityTraj [(0 : ℝ), 1, 4].reverse 1 true = some [-2, -2, -2] := by
  refine ⟨?_, ?_⟩ <;> norm_num [velocityTraj]

/-- Non-vacuity of `C174_rmsd_metric`: three steps of two atoms. -/
example : ∀ x ∈ [[(![0, 0, 0] : V3), ![1, 0, 0]], [![0, 0, 1], ![1, 0, 0]], [![0, 2, 0], ![1, 1, 0]]], x.length = 2 := by simp

end Pwtools.Cry
