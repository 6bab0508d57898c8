import Verif.Model.GibbsFit
import Verif.Spec.GibbsPress
import Verif.Props.Gibbs
import Verif.Props.PolyInv
import Verif.Props.Fit1D
/-!
# C164: volume, enthalpy and bulk modulus under pressure with the default fits of `Gibbs`
-/
namespace Pwtools.Poly
open Spec

theorem best_orth {d : Nat} (points : List (Fin d → ℝ)) (values : List ℝ) (deg : Nat) (f : (Fin d → ℝ) → ℝ) (h1 : IsPoly deg f)
    (h2 : ∀ g, IsPoly deg g → sumSq f points values ≤ sumSq g points values) :
    ∀ q, IsPoly deg q → resid f q (points.zip values) = 0 := by
  intro q hq
  have key : ∀ t : ℝ, 0 ≤ 2 * t * resid f q (points.zip values) +
      t ^ 2 * ((points.zip values).map (fun p => q p.1 ^ 2)).sum := by
    intro t
    have := h2 (fun x => f x + q x * t) (isPoly_add deg _ _ h1 (isPoly_mul deg q hq t))
    rw [sumSq_zip, sumSq_zip, sq_expand] at this
    linarith
  set A := resid f q (points.zip values)
  set B := ((points.zip values).map (fun p => q p.1 ^ 2)).sum
  have hB : 0 ≤ B := List.sum_nonneg (by simp only [List.mem_map]; rintro _ ⟨p, -, rfl⟩; positivity)
  have hk := key (-A / (B + 1))
  have : 2 * (-A / (B + 1)) * A + (-A / (B + 1)) ^ 2 * B = -(A ^ 2 * (B + 2)) / (B + 1) ^ 2 := by
    field_simp; ring
  rw [this, div_nonneg_iff] at hk
  rcases hk with ⟨hk, -⟩ | ⟨-, hk⟩
  · have h3 : 0 ≤ A ^ 2 := sq_nonneg A
    have : A ^ 2 = 0 := by nlinarith
    exact pow_eq_zero_iff (two_ne_zero) |>.1 this
  · exact absurd hk (not_le.2 (by positivity))

theorem isPoly_id (deg : Nat) (hdeg : 1 ≤ deg) : IsPoly deg (fun v : Fin 1 → ℝ => v 0) := by
  refine ⟨fun p => if (p 0 : Nat) = 1 then 1 else 0, fun x => ?_⟩
  rw [Finset.sum_eq_single (fun _ => (⟨1, by omega⟩ : Fin (deg + 1)))]
  · simp
  · intro p _ hp
    have : (p 0 : Nat) ≠ 1 := by
      intro h
      apply hp
      funext j
      rw [Subsingleton.elim j 0]
      exact Fin.ext h
    simp [this]
  · simp

/-- The fit of `y + c x` is the fit of `y` plus `c x`. -/
theorem fit_shift (x y : List ℝ) (c : ℝ) (hl : y.length = x.length) (hd : Determines 5 (x.map (fun v (_ : Fin 1) => v))) (e : ℝ → ℝ)
    (he : BestPoly 5 x y e) (s sv : Bool) (pf : Fit 1)
    (h : FitReturns (x.map (fun v _ => v)) (List.zipWith (fun a v => a + v * c) y x) 5 s sv pf) (v : ℝ) :
    polyval pf (fun _ => v) = e v + c * v := by
  obtain ⟨p1, o1⟩ := orth _ _ _ _ _ _ h
  have o2 := best_orth _ _ _ _ he.1 he.2
  have hp : IsPoly 5 (fun w : Fin 1 → ℝ => e (w 0) + w 0 * c) := isPoly_add 5 _ _ he.1 (isPoly_mul 5 _ (isPoly_id 5 (by norm_num)) c)
  have key : ∀ (q : (Fin 1 → ℝ) → ℝ) (x y : List ℝ), y.length = x.length →
      resid (fun w : Fin 1 → ℝ => e (w 0) + w 0 * c) q ((x.map (fun v _ => v)).zip (List.zipWith (fun a v => a + v * c) y x)) =
        resid (fun w => e (w 0)) q ((x.map (fun v _ => v)).zip y) := by
    intro q x
    induction x with
    | nil => intro y _; rfl
    | cons a x ih =>
      intro y hy
      cases y with
      | nil => simp at hy
      | cons b y =>
        have := ih y (by simpa using hy)
        unfold resid at this ⊢
        simp only [List.map_cons, List.zipWith_cons_cons, List.zip_cons_cons, List.sum_cons, this]
        ring
  have := orth_unique 5 _ _ h.1.1 hd _ _ p1 hp o1 (fun q hq => by rw [key q x y hl]; exact o2 q hq)
  rw [this]
  ring

end Pwtools.Poly

namespace Pwtools.Thermo
open Spec

/-- What the default fit of `y + c x` returns. -/
theorem defaultFit_shift (s : Fit.Solvers) (hs : GoodBrent s) (x y : List ℝ) (c a b : ℝ) (hl : y.length = x.length)
    (ha : x.head? = some a) (hb : x.getLast? = some b) (hab : a ≤ b)
    (hd : Determines 5 (x.map (fun v (_ : Fin 1) => v))) (e : ℝ → ℝ) (he : BestPoly 5 x y e) (f : Fit)
    (h : DefaultFit s x (List.zipWith (fun a v => a + v * c) y x) f) :
    (∀ v, HasDerivAt e (deriv e v) v) ∧ (∀ v, f.ev v = e v + c * v) ∧ (∀ v, f.der 1 v = deriv e v + c) ∧ (∀ v, f.der 2 v = deriv (deriv e) v) ∧
      a ≤ f.min ∧ f.min ≤ b ∧ deriv e f.min = -c := by
  obtain ⟨pf, h1, h2, h3, h4, h5, h6⟩ := h
  have hev : ∀ v, f.ev v = e v + c * v := by
    intro v
    rw [h4]
    exact Poly.fit_shift x y c hl hd e he true false pf ⟨h1, h2, h3, by simp⟩ v
  have hlen : pf.coeffs.length = pf.deg + 1 := by
    have hc : pf.coeffs.length = (Poly.polyPowers 1 5).length := by
      have := h1.2.2.2.2.2.2
      simp only [Bool.false_eq_true, if_false] at this
      exact this.1
    rw [hc, h1.2.1, Poly.powers_one]
    simp
  have hd1 := Poly.C28_polyval_der pf hlen
  have e0 : Poly.polyvalDer pf 0 = fun v => e v + c * v := by
    funext v
    rw [← hev v, h4]
    rfl
  have he1 : ∀ v, HasDerivAt e (Poly.polyvalDer pf 1 v - c) v := by
    intro v
    have := hd1 0 v
    rw [e0] at this
    have h7 := this.sub ((hasDerivAt_id v).const_mul c)
    simp only [mul_one, zero_add] at h7
    refine h7.congr_of_eventuallyEq (Filter.Eventually.of_forall fun w => ?_)
    simp
  have hder : ∀ v, f.der 1 v = deriv e v + c := by
    intro v
    rw [(he1 v).deriv, h5]
    ring
  have hde : deriv e = fun v => Poly.polyvalDer pf 1 v - c := funext fun v => (he1 v).deriv
  refine ⟨fun v => by rw [(he1 v).deriv]; exact he1 v, hev, hder, ?_, ?_⟩
  · intro v
    rw [hde, h5]
    exact ((hd1 1 v).sub_const c).deriv.symm
  · have hbr : Fit.bracket ⟨x, List.zipWith (fun a v => a + v * c) y x, f.ev, f.der 1⟩ none = some (a, b) := by
      simp [Fit.bracket, ha, hb]
    unfold Fit.getMin at h6
    rw [Fit.findroot_bracket s _ _ none a b hbr] at h6
    obtain ⟨r1, r2, r3⟩ := hs.root _ a b _ hab h6
    refine ⟨r2, r3, ?_⟩
    replace r1 : f.der 1 f.min = 0 := r1
    rw [hder] at r1
    linarith

/-- Convex functions lie above their tangents. -/
theorem tangent (e : ℝ → ℝ) (a b : ℝ) (hd : ∀ v, HasDerivAt e (deriv e v) v) (hm : MonotoneOn (deriv e) (Set.Icc a b)) (x z : ℝ)
    (hx : x ∈ Set.Icc a b) (hz : z ∈ Set.Icc a b) : e x + deriv e x * (z - x) ≤ e z := by
  rcases lt_trichotomy x z with hlt | rfl | hgt
  · obtain ⟨c, hc, h⟩ := exists_hasDerivAt_eq_slope e (deriv e) hlt (fun y _ => (hd y).continuousAt.continuousWithinAt) (fun y _ => hd y)
    have hc0 : deriv e x ≤ deriv e c := hm hx ⟨by linarith [hc.1, hx.1], by linarith [hc.2, hz.2]⟩ hc.1.le
    have hp : 0 < z - x := by linarith
    have h2 : deriv e c * (z - x) = e z - e x := by rw [h, div_mul_cancel₀ _ hp.ne']
    nlinarith
  · simp
  · obtain ⟨c, hc, h⟩ := exists_hasDerivAt_eq_slope e (deriv e) hgt (fun y _ => (hd y).continuousAt.continuousWithinAt) (fun y _ => hd y)
    have hc0 : deriv e c ≤ deriv e x := hm ⟨by linarith [hc.1, hz.1], by linarith [hc.2, hx.2]⟩ hx hc.2.le
    have hp : 0 < x - z := by linarith
    have h2 : deriv e c * (x - z) = e x - e z := by rw [h, div_mul_cancel₀ _ hp.ne']
    nlinarith

/-- The response from the values of the fits. -/
theorem response (s : Fit.Solvers) (hs : GoodBrent s) (x y : List ℝ) (a b conv : ℝ) (hconv : 0 < conv) (P : List ℝ) (hl : y.length = x.length)
    (ha : x.head? = some a) (hb : x.getLast? = some b) (hab : a ≤ b)
    (hd : Determines 5 (x.map (fun v (_ : Fin 1) => v))) (e : ℝ → ℝ) (he : BestPoly 5 x y e) (f : Nat → Fit)
    (h : ∀ p (hp : p < P.length), DefaultFit s x (List.zipWith (fun a v => a + v * (P[p] / conv)) y x) (f p)) (V H B : Nat → ℝ)
    (hV : ∀ p < P.length, V p = (f p).min) (hH : ∀ p < P.length, H p = (f p).ev (f p).min)
    (hB : ∀ p < P.length, B p = (f p).min * (f p).der 2 (f p).min * conv) : PressureResponse e a b conv P V H B := by
  have key : ∀ p (hp : p < P.length), (∀ v, HasDerivAt e (deriv e v) v) ∧ V p ∈ Set.Icc a b ∧ deriv e (V p) = -(P[p] / conv) ∧
      H p = e (V p) + P[p] * V p / conv ∧ B p = V p * deriv (deriv e) (V p) * conv := by
    intro p hp
    obtain ⟨k1, k2, k3, k4, k5, k6, k7⟩ := defaultFit_shift s hs x y (P[p] / conv) a b hl ha hb hab hd e he (f p) (h p hp)
    rw [hV p hp, hH p hp, hB p hp, k2, k4]
    exact ⟨k1, ⟨k5, k6⟩, k7, by ring, rfl⟩
  have tan : MonotoneOn (deriv e) (Set.Icc a b) → ∀ p (hp : p < P.length), ∀ v, a ≤ v → v ≤ b → H p ≤ e v + P[p] * v / conv := by
    intro hm p hp v h1 h2
    obtain ⟨k1, k2, k3, k4, -⟩ := key p hp
    have := tangent e a b k1 hm (V p) v k2 ⟨h1, h2⟩
    rw [k3] at this
    rw [k4]
    have e1 : P[p] * v / conv = P[p] / conv * v := by ring
    have e2 : P[p] * V p / conv = P[p] / conv * V p := by ring
    rw [e1, e2]
    linarith
  refine ⟨fun p hp => (key p hp).2.1, fun p hp => ?_, fun p hp => (key p hp).2.2.2.1, fun p hp => (key p hp).2.2.2.2, tan, ?_, ?_⟩
  · rw [(key p hp).2.2.1]
    field_simp
  · intro hm p hp q hq hlt
    by_contra hle
    obtain ⟨-, p2, p3, -⟩ := key p hp
    obtain ⟨-, q2, q3, -⟩ := key q hq
    have := hm.monotoneOn p2 q2 (not_lt.1 hle)
    rw [p3, q3] at this
    have h2 : P[p] / conv < P[q] / conv := by gcongr
    linarith
  · intro hm p hp q hq
    obtain ⟨-, p2, -, p4, -⟩ := key p hp
    obtain ⟨-, q2, -, q4, -⟩ := key q hq
    have h1 := tan hm p hp (V q) q2.1 q2.2
    have h2 := tan hm q hq (V p) p2.1 p2.2
    have e1 : V q * (P[q] - P[p]) / conv = P[q] * V q / conv - P[p] * V q / conv := by ring
    have e2 : V p * (P[q] - P[p]) / conv = P[q] * V p / conv - P[p] * V p / conv := by ring
    rw [e1, e2]
    exact ⟨by linarith, by linarith⟩

/-- Six different volumes determine a polynomial of degree five. -/
theorem determines_six (x : List ℝ) (h : 6 ≤ x.toFinset.card) : Determines 5 (x.map (fun v (_ : Fin 1) => v)) := by
  refine Poly.C160_grid 5 _ (fun _ => x.toFinset) (fun _ => by omega) (fun w hw => ?_)
  have := hw 0
  rw [List.mem_toFinset] at this
  refine List.mem_map.2 ⟨w 0, this, ?_⟩
  funext j
  rw [Subsingleton.elim j 0]

theorem foldl_min_le (l : List ℝ) (x : ℝ) : l.foldl min x ≤ x ∧ ∀ y ∈ l, l.foldl min x ≤ y := by
  induction l generalizing x with
  | nil => simp
  | cons a l ih =>
    obtain ⟨h1, h2⟩ := ih (min x a)
    refine ⟨h1.trans (min_le_left _ _), fun y hy => ?_⟩
    rcases List.mem_cons.1 hy with rfl | hy
    · exact h1.trans (min_le_right _ _)
    · exact h2 y hy

theorem le_foldl_max (l : List ℝ) (x : ℝ) : x ≤ l.foldl max x ∧ ∀ y ∈ l, y ≤ l.foldl max x := by
  induction l generalizing x with
  | nil => simp
  | cons a l ih =>
    obtain ⟨h1, h2⟩ := ih (max x a)
    refine ⟨(le_max_left _ _).trans h1, fun y hy => ?_⟩
    rcases List.mem_cons.1 hy with rfl | hy
    · exact (le_max_right _ _).trans h1
    · exact h2 y hy

theorem valueScale_pos (y : List ℝ) (a b : ℝ) (ha : a ∈ y) (hb : b ∈ y) (hab : a ≠ b) : (Poly.valueScale y true).2 ≠ 0 := by
  cases y with
  | nil => simp at ha
  | cons u l =>
    simp only [Poly.valueScale, if_true, List.map_cons, Poly.listMin, Poly.listMax]
    have h1 := foldl_min_le l u
    have h2 := le_foldl_max (l.map (fun v => |v|)) |u|
    have h3 : ∀ z ∈ u :: l, l.foldl min u ≤ z := by
      intro z hz
      rcases List.mem_cons.1 hz with rfl | hz
      · exact h1.1
      · exact h1.2 z hz
    have h4 : ∀ z ∈ u :: l, z ≤ (l.map (fun v => |v|)).foldl max |u| := by
      intro z hz
      refine (le_abs_self z).trans ?_
      rcases List.mem_cons.1 hz with rfl | hz
      · exact h2.1
      · exact h2.2 _ (List.mem_map.2 ⟨z, hz, rfl⟩)
    rcases lt_or_gt_of_ne hab with h | h
    · have := h3 a ha; have := h4 b hb; linarith
    · have := h3 b hb; have := h4 a ha; linarith

theorem pointScale_pos {d : Nat} (x : List (Fin d → ℝ)) (a b : Fin d → ℝ) (ha : a ∈ x) (hb : b ∈ x) (j : Fin d) (hab : a j ≠ b j) :
    (Poly.pointScale x true).2 j ≠ 0 := by
  have := valueScale_pos (x.map (· j)) (a j) (b j) (List.mem_map.2 ⟨a, ha, rfl⟩) (List.mem_map.2 ⟨b, hb, rfl⟩) hab
  simpa [Poly.valueScale, Poly.pointScale, List.map_map, Function.comp_def] using this

/-- **C164** (existence). The default fit of the energies plus `P V` succeeds if these are not all equal and the pressure lies between those
of the polynomial at the first and the last volume. -/
theorem C164_exists (s : Fit.Solvers) (hs : GoodBrent s) (x y : List ℝ) (c a b : ℝ) (hl : y.length = x.length)
    (ha : x.head? = some a) (hb : x.getLast? = some b) (hab : a ≤ b) (h6 : 6 ≤ x.toFinset.card) (e : ℝ → ℝ) (he : BestPoly 5 x y e)
    (hy : ∃ u ∈ List.zipWith (fun a v => a + v * c) y x, ∃ v ∈ List.zipWith (fun a v => a + v * c) y x, u ≠ v)
    (h1 : deriv e a ≤ -c) (h2 : -c ≤ deriv e b) : ∃ f, DefaultFit s x (List.zipWith (fun a v => a + v * c) y x) f := by
  have hd := determines_six x h6
  obtain ⟨pf, hpf⟩ := Poly.C160_exists (x.map (fun v (_ : Fin 1) => v)) (List.zipWith (fun a v => a + v * c) y x) 5 true false (by simp [hl])
  have hp : ∀ j, pf.pscale j ≠ 0 := by
    intro j
    rw [hpf.2.2.2.1]
    obtain ⟨u, hu, v, hv, huv⟩ := Finset.one_lt_card.1 (by omega : 1 < x.toFinset.card)
    rw [List.mem_toFinset] at hu hv
    exact pointScale_pos _ (fun _ => u) (fun _ => v) (List.mem_map.2 ⟨u, hu, rfl⟩) (List.mem_map.2 ⟨v, hv, rfl⟩) j huv
  have hv : pf.vscale ≠ 0 := by
    rw [hpf.2.2.2.2.2.1]
    obtain ⟨u, hu, v, hv, huv⟩ := hy
    exact valueScale_pos _ u v hu hv huv
  have hlen : pf.coeffs.length = pf.deg + 1 := by
    have hc : pf.coeffs.length = (Poly.polyPowers 1 5).length := by
      have := hpf.2.2.2.2.2.2
      simp only [Bool.false_eq_true, if_false] at this
      exact this.1
    rw [hc, hpf.2.1, Poly.powers_one]
    simp
  have hd1 := Poly.C28_polyval_der pf hlen
  have hev : ∀ v, Poly.polyval pf (fun _ => v) = e v + c * v :=
    Poly.fit_shift x y c hl hd e he true false pf ⟨hpf, hp, hv, by simp⟩
  have hder : ∀ v, Poly.polyvalDer pf 1 v = deriv e v + c := by
    intro v
    have h7 := (hd1 0 v).sub ((hasDerivAt_id v).const_mul c)
    have h8 : HasDerivAt e (Poly.polyvalDer pf 1 v - c) v := by
      simp only [mul_one, zero_add] at h7
      refine h7.congr_of_eventuallyEq (Filter.Eventually.of_forall fun w => ?_)
      have : Poly.polyvalDer pf 0 w = e w + c * w := hev w
      simp [this]
    rw [h8.deriv]
    ring
  obtain ⟨r, hr⟩ := hs.total (Poly.polyvalDer pf 1) a b hab (fun v _ => (hd1 1 v).continuousAt.continuousWithinAt) (by
    rw [hder, hder]
    exact mul_nonpos_of_nonpos_of_nonneg (by linarith) (by linarith))
  refine ⟨⟨fun v => Poly.polyval pf (fun _ => v), Poly.polyvalDer pf, r⟩, pf, hpf, hp, hv, rfl, rfl, ?_⟩
  unfold Fit.getMin
  rw [Fit.findroot_bracket s _ _ none a b (by simp [Fit.bracket, ha, hb])]
  exact hr

namespace Gibbs
variable (g : Gibbs) (junk : List Nat → ℝ)

theorem addPV_eq (y : List ℝ) (p : ℝ) : g.addPV y p = List.zipWith (fun a v => a + v * (p / g.conv)) y g.vols := by
  unfold addPV
  congr 1
  funext a v
  ring

theorem rowEq (l : List ℝ) (f : Nat → ℝ) (n : Nat) (hl : l.length = n) (h : ∀ i < n, f i = l.getD i 0) : (List.range n).map f = l := by
  apply List.ext_getElem
  · simp [hl]
  · intro i h1 h2
    simp at h1
    simp [h i h1, h2]

/-- **C164** (enthalpy). With the default fits and six or more different volumes, let `e` be the polynomial of degree five closest to the
energies. The volumes, enthalpies and bulk moduli stored by `calc_H` for the pressures are those of a body with this energy. -/
theorem C164_enthalpy (s : Fit.Solvers) (hs : GoodBrent s) (hc : g.case = .c1) (hn : 1 ≤ g.nax ∧ g.nax ≤ 3) (hconv : 0 < g.conv)
    (hl : g.etot.length = g.axes.length) (a b : ℝ) (ha : (g.axes.map g.volfunc).head? = some a) (hb : (g.axes.map g.volfunc).getLast? = some b)
    (hab : a ≤ b) (h6 : 6 ≤ (g.axes.map g.volfunc).toFinset.card) (e : ℝ → ℝ) (he : BestPoly 5 (g.axes.map g.volfunc) g.etot e)
    (hfit : ∀ p ∈ g.P, ∀ y, y = List.zipWith (fun u v => u + v * (p / g.conv)) g.etot (g.axes.map g.volfunc) →
      DefaultFit s (g.axes.map g.volfunc) y (g.fit1G (g.axes.map g.volfunc) y)) :
    ∃ d V H B, g.calcH junk true = some d ∧ d (.optP .V) = some (some V) ∧ d (.optP .GH) = some (some H) ∧ d (.optP .B) = some (some B) ∧
      V.shape = [g.P.length] ∧ H.shape = [g.P.length] ∧ B.shape = [g.P.length] ∧
      PressureResponse e a b g.conv g.P (fun p => V.get [p]) (fun p => H.get [p]) (fun p => B.get [p]) := by
  obtain ⟨-, M, e1, e2, e3⟩ := g.dictH_spec junk
  have hS : ∀ o, g.S1 o → o ∈ [OName.ax 0, .ax 1, .ax 2, .V, .GH, .B] := by
    rintro o (rfl | rfl | rfl | ⟨i, hi, rfl⟩)
    · simp
    · simp
    · simp
    · have : i = 0 ∨ i = 1 ∨ i = 2 := by omega
      rcases this with rfl | rfl | rfl <;> simp
  have hH : ∃ hd, g.calcH junk true = some hd ∧ ∀ o, g.S1 o → (∃ a, hd (.optP o) = some (some a) ∧ a.shape = [g.P.length] ∧
      ∀ p < g.P.length, a.get [p] = g.vals1 o (g.rowOf .PaxH (g.dictH junk) [p])) := by
    rw [calcH_eq]
    simp only [if_true]
    obtain ⟨d1, l1, -, l3⟩ := g.loopOpt_spec .optP g.S1 g.vals1 .PaxH (by simp) (g.store1 _ optP_inj hc) ((List.range g.P.length).map (fun p : Nat => [p]))
      ((List.nodup_range).map (fun a b h => by simpa using h)) (addOpt junk .optP [g.P.length] (g.dictH junk))
      (fun o ho => ⟨_, addOpt_same junk .optP optP_inj _ _ o (hS o ho)⟩)
    refine ⟨(g.setNotCalcNone .optP d1).upd g.base, by rw [l1]; rfl, fun o ho => ?_⟩
    obtain ⟨a, a1, a2, a3, -⟩ := l3 o ho _ (addOpt_same junk .optP optP_inj _ _ o (hS o ho))
    refine ⟨a, by rw [Dict.upd_none rfl, g.setNotCalcNone_S1 _ optP_inj _ hc o ho, a1], a2, fun p hp => ?_⟩
    rw [a3 [p] (by simpa using hp)]
    unfold rowOf
    rw [addOpt_ne junk .optP _ _ .PaxH (by simp)]
  obtain ⟨d, d1, d2⟩ := hH
  obtain ⟨V, V1, V2, V3⟩ := d2 .V (.inl rfl)
  obtain ⟨H, H1, H2, H3⟩ := d2 .GH (.inr (.inl rfl))
  obtain ⟨B, B1, B2, B3⟩ := d2 .B (.inr (.inr (.inl rfl)))
  have hrow : ∀ p (hp : p < g.P.length), g.rowOf .PaxH (g.dictH junk) [p] =
      List.zipWith (fun u v => u + v * (g.P[p] / g.conv)) g.etot g.vols := by
    intro p hp
    unfold rowOf
    rw [e1]
    refine rowEq _ _ _ (by simp [vols, hl, n]) (fun i hi => ?_)
    simp only [List.singleton_append]
    rw [e3 p hp i, addPV_eq]
    simp [hp]
  refine ⟨d, V, H, B, d1, V1, H1, B1, V2, H2, B2, ?_⟩
  refine response s hs g.vols g.etot a b g.conv hconv g.P (by simp [vols, hl]) ha hb hab (determines_six _ h6) e he
    (fun p => g.fit1G g.vols (g.rowOf .PaxH (g.dictH junk) [p])) (fun p hp => ?_) _ _ _
    (fun p hp => V3 p hp) (fun p hp => H3 p hp) (fun p hp => B3 p hp)
  rw [hrow p hp]
  exact hfit _ (List.getElem_mem hp) _ rfl

/-- **C164** (Gibbs energy). The same at each temperature: with `e` the polynomial closest to `F[:,t]` the entries of `calc_G` at `[t,:]` are
those of a body with this free energy. -/
theorem C164_gibbs (s : Fit.Solvers) (hs : GoodBrent s) (hc : g.case = .c1) (hn : 1 ≤ g.nax ∧ g.nax ≤ 3) (hconv : 0 < g.conv)
    (a b : ℝ) (ha : (g.axes.map g.volfunc).head? = some a) (hb : (g.axes.map g.volfunc).getLast? = some b)
    (hab : a ≤ b) (h6 : 6 ≤ (g.axes.map g.volfunc).toFinset.card)
    (ret : Option Dict) (d0 : Dict) (F : Arr) (h0 : ret = some d0 ∨ (ret = none ∧ g.calcF junk true = some d0))
    (hF : d0 (.axT .F) = some (some F)) (hsh : F.shape = [g.axes.length, g.T.length])
    (hfit : ∀ t < g.T.length, ∀ p ∈ g.P, ∀ y, y = List.zipWith (fun u v => u + v * (p / g.conv))
        ((List.range g.axes.length).map (fun i : Nat => F.get [i, t])) (g.axes.map g.volfunc) →
      DefaultFit s (g.axes.map g.volfunc) y (g.fit1G (g.axes.map g.volfunc) y)) :
    ∃ d V G B, g.calcG junk ret true = some d ∧ d (.optTP .V) = some (some V) ∧ d (.optTP .GH) = some (some G) ∧ d (.optTP .B) = some (some B) ∧
      V.shape = [g.T.length, g.P.length] ∧ G.shape = [g.T.length, g.P.length] ∧ B.shape = [g.T.length, g.P.length] ∧
      ∀ t < g.T.length, ∀ e, BestPoly 5 (g.axes.map g.volfunc) ((List.range g.axes.length).map (fun i : Nat => F.get [i, t])) e →
        PressureResponse e a b g.conv g.P (fun p => V.get [t, p]) (fun p => G.get [t, p]) (fun p => B.get [t, p]) := by
  obtain ⟨d, G, H, k1, k2, k3, k4⟩ := g.C68_opt_1d junk hc hn ret d0 F h0 hF hsh
  obtain ⟨d0', F', M, m1, m2, -, -, -, m3, m4, m5⟩ := g.C68_G junk ret true d k1
  have hd0 : d0' = d0 := by
    rcases h0 with rfl | ⟨rfl, h0⟩ <;> rcases m1 with h | ⟨h, h'⟩
    · exact (Option.some.inj h).symm
    · simp at h
    · simp at h
    · rw [h0] at h'; exact (Option.some.inj h').symm
  subst hd0
  rw [hF, Option.some.injEq, Option.some.injEq] at m2
  subst m2
  rw [k2, Option.some.injEq, Option.some.injEq] at m3
  subst m3
  obtain ⟨vV, vV1, ⟨V, V1, V2, V3, -⟩, -⟩ := k4 .V (.inl rfl)
  obtain ⟨vG, vG1, ⟨Go, G1, G2, G3, -⟩, -⟩ := k4 .GH (.inr (.inl rfl))
  obtain ⟨vB, vB1, ⟨B, B1, B2, B3, -⟩, -⟩ := k4 .B (.inr (.inr (.inl rfl)))
  refine ⟨d, V, Go, B, k1, V1, G1, B1, V2, G2, B2, fun t ht e he => ?_⟩
  have hrow : ∀ p (hp : p < g.P.length), (List.range g.axes.length).map (fun i : Nat => G.get [t, p, i]) =
      List.zipWith (fun u v => u + v * (g.P[p] / g.conv)) ((List.range g.axes.length).map (fun i : Nat => F.get [i, t])) (g.axes.map g.volfunc) := by
    intro p hp
    refine rowEq _ _ _ (by simp) (fun i hi => ?_)
    rw [m5 t ht p hp i hi]
    simp [hi]
    ring
  refine response s hs (g.axes.map g.volfunc) _ a b g.conv hconv g.P (by simp) ha hb hab (determines_six _ h6) e he
    (fun p => g.fit1G (g.axes.map g.volfunc) ((List.range g.axes.length).map (fun i : Nat => G.get [t, p, i]))) (fun p hp => ?_) _ _ _
    (fun p hp => by rw [V3 t ht p hp]; exact vV1 _) (fun p hp => by rw [G3 t ht p hp]; exact vG1 _) (fun p hp => by rw [B3 t ht p hp]; exact vB1 _)
  rw [hrow p hp]
  exact hfit t ht _ (List.getElem_mem hp) _ rfl

/-- The fit of scaled values, mapped back, is the fit of the values plus a polynomial. -/
theorem fit2_shift (x : List (Fin 2 → ℝ)) (y : List ℝ) (w : (Fin 2 → ℝ) → ℝ) (hw : IsPoly 5 w) (hl : y.length = x.length)
    (hd : Determines 5 x) (e : (Fin 2 → ℝ) → ℝ) (he : BestPoly2 5 x y e) (mn mx : ℝ) (hm : mn < mx) (pf : Poly.Fit 2)
    (h : Poly.FitReturns x ((List.zipWith (fun a v => a + w v) y x).map (fun v => (v - mn) / (mx - mn))) 5 true false pf) (v : Fin 2 → ℝ) :
    Poly.polyval pf v * (mx - mn) + mn = e v + w v := by
  obtain ⟨p1, o1⟩ := Poly.orth _ _ _ _ _ _ h
  have o2 := Poly.best_orth _ _ _ _ he.1 he.2
  have hne : mx - mn ≠ 0 := by linarith
  have hp : IsPoly 5 (fun v => (e v + w v) * (1 / (mx - mn)) + -mn / (mx - mn)) :=
    Poly.isPoly_add 5 _ _ (Poly.isPoly_mul 5 _ (Poly.isPoly_add 5 _ _ he.1 hw) _) (Poly.isPoly_const 5 _)
  have key : ∀ (q : (Fin 2 → ℝ) → ℝ) (x : List (Fin 2 → ℝ)) (y : List ℝ), y.length = x.length →
      Poly.resid (fun v => (e v + w v) * (1 / (mx - mn)) + -mn / (mx - mn)) q
        (x.zip ((List.zipWith (fun a v => a + w v) y x).map (fun v => (v - mn) / (mx - mn)))) = Poly.resid e q (x.zip y) / (mx - mn) := by
    intro q x
    induction x with
    | nil => intro y _; simp [Poly.resid]
    | cons a x ih =>
      intro y hy
      cases y with
      | nil => simp at hy
      | cons b y =>
        have := ih y (by simpa using hy)
        unfold Poly.resid at this ⊢
        simp only [List.map_cons, List.zipWith_cons_cons, List.zip_cons_cons, List.sum_cons, this]
        field_simp
        ring
  have := Poly.orth_unique 5 _ _ h.1.1 hd _ _ p1 hp o1 (fun q hq => by rw [key q x y hl, o2 q hq, zero_div])
  rw [this]
  field_simp
  ring

theorem spread_lt (l : List ℝ) (a b : ℝ) (ha : a ∈ l) (hb : b ∈ l) (hab : a ≠ b) : l.foldl min (l.headD 0) < l.foldl max (l.headD 0) := by
  have h1 := (foldl_min_le l (l.headD 0)).2
  have h2 := (le_foldl_max l (l.headD 0)).2
  rcases lt_or_gt_of_ne hab with h | h
  · linarith [h1 a ha, h2 b hb]
  · linarith [h1 b hb, h2 a ha]

/-- **C164** (two axes). With two axes, the default fit and a volume that is a polynomial of the axes, let `e` be the polynomial closest to
`F[:,t]`. At each pressure the stored Gibbs energy is `e + PV` at the stored axes, the stored volume is the one of these axes, and, where
`fmin` returned the smallest value of the fit in a region, the axes minimise `e + PV` in the region. The internal scaling of `G` has no
effect. -/
theorem C164_two_axes (hc : g.case = .c2) (hn : g.nax = 2) (ret : Option Dict) (d0 : Dict) (F : Arr)
    (h0 : ret = some d0 ∨ (ret = none ∧ g.calcF junk true = some d0))
    (hF : d0 (.axT .F) = some (some F)) (hsh : F.shape = [g.axes.length, g.T.length])
    (hd : Determines 5 (g.axes.map asPoint)) (vol : (Fin 2 → ℝ) → ℝ) (hvol : IsPoly 5 vol) (hv : ∀ r, g.volfunc r = vol (asPoint r))
    (hfit : ∀ y, y.length = g.axes.length → DefaultFit2 g.axes y (g.fit2G g.axes y) ∨ ∀ a ∈ y, ∀ b ∈ y, a = b) :
    ∃ d X Y V G, g.calcG junk ret true = some d ∧ d (.optTP (.ax 0)) = some (some X) ∧ d (.optTP (.ax 1)) = some (some Y) ∧
      d (.optTP .V) = some (some V) ∧ d (.optTP .GH) = some (some G) ∧
      ∀ t < g.T.length, ∀ p (hp : p < g.P.length), ∀ e,
        BestPoly2 5 (g.axes.map asPoint) ((List.range g.axes.length).map (fun i : Nat => F.get [i, t])) e →
        (∃ i, i < g.axes.length ∧ ∃ j, j < g.axes.length ∧ F.get [i, t] + g.P[p] * g.volfunc (g.axes.getD i []) / g.conv ≠
          F.get [j, t] + g.P[p] * g.volfunc (g.axes.getD j []) / g.conv) →
        V.get [t, p] = vol ![X.get [t, p], Y.get [t, p]] ∧
        G.get [t, p] = e ![X.get [t, p], Y.get [t, p]] + g.P[p] * V.get [t, p] / g.conv ∧
        ∀ R : Set (Fin 2 → ℝ), (∀ α β, 0 < β → ∀ y, y = (List.range g.axes.length).map (fun i : Nat =>
            (F.get [i, t] + g.P[p] * g.volfunc (g.axes.getD i []) / g.conv - α) / β) →
            ∀ r, asPoint r ∈ R → (g.fit2G g.axes y).ev (g.fit2G g.axes y).min ≤ (g.fit2G g.axes y).ev r) →
          ∀ v ∈ R, G.get [t, p] ≤ e v + g.P[p] * vol v / g.conv := by
  obtain ⟨d, G, H, k1, k2, k3, k4⟩ := g.C68_opt_2d junk hc hn ret d0 F h0 hF hsh
  obtain ⟨d0', F', M, m1, m2, -, -, -, m3, m4, m5⟩ := g.C68_G junk ret true d k1
  have hd0 : d0' = d0 := by
    rcases h0 with rfl | ⟨rfl, h0⟩ <;> rcases m1 with h | ⟨h, h'⟩
    · exact (Option.some.inj h).symm
    · simp at h
    · simp at h
    · rw [h0] at h'; exact (Option.some.inj h').symm
  subst hd0
  rw [hF, Option.some.injEq, Option.some.injEq] at m2
  subst m2
  rw [k2, Option.some.injEq, Option.some.injEq] at m3
  subst m3
  obtain ⟨vV, vV1, ⟨V, V1, V2, V3, -⟩, -⟩ := k4 .V (.inl rfl)
  obtain ⟨vG, vG1, ⟨Go, G1, G2, G3, -⟩, -⟩ := k4 .GH (.inr (.inl rfl))
  obtain ⟨vX, vX1, ⟨X, X1, X2, X3, -⟩, -⟩ := k4 (.ax 0) (.inr (.inr (.inl rfl)))
  obtain ⟨vY, vY1, ⟨Y, Y1, Y2, Y3, -⟩, -⟩ := k4 (.ax 1) (.inr (.inr (.inr rfl)))
  refine ⟨d, X, Y, V, Go, k1, X1, Y1, V1, G1, fun t ht p hp e he hne => ?_⟩
  have hrow : (List.range g.axes.length).map (fun i : Nat => G.get [t, p, i]) =
      List.zipWith (fun u v => u + vol v * (g.P[p] / g.conv)) ((List.range g.axes.length).map (fun i : Nat => F.get [i, t])) (g.axes.map asPoint) := by
    refine rowEq _ _ _ (by simp) (fun i hi => ?_)
    rw [m5 t ht p hp i hi]
    simp [hi, hv]
    ring
  set gg := (List.range g.axes.length).map (fun i : Nat => G.get [t, p, i]) with hgg
  have hlt : gg.foldl min (gg.headD 0) < gg.foldl max (gg.headD 0) := by
    obtain ⟨i, hi, j, hj, hij⟩ := hne
    refine spread_lt gg (G.get [t, p, i]) (G.get [t, p, j]) (List.mem_map.2 ⟨i, List.mem_range.2 hi, rfl⟩)
      (List.mem_map.2 ⟨j, List.mem_range.2 hj, rfl⟩) ?_
    rw [m5 t ht p hp i hi, m5 t ht p hp j hj]
    simpa [List.getD_eq_getElem?_getD, hi, hj] using hij
  set mn := gg.foldl min (gg.headD 0) with hmn
  set mx := gg.foldl max (gg.headD 0) with hmx
  set fit := g.fit2G g.axes (gg.map (fun v => (v - mn) / (mx - mn))) with hfitdef
  have hpos : 0 < mx - mn := by linarith
  obtain ⟨pf, f1, f2, f3, f4, f5⟩ : DefaultFit2 g.axes (gg.map (fun v => (v - mn) / (mx - mn))) fit := by
    rcases hfit (gg.map (fun v => (v - mn) / (mx - mn))) (by simp [hgg]) with h | h
    · exact h
    · exfalso
      obtain ⟨i, hi, j, hj, hij⟩ := hne
      have h1 := h _ (List.mem_map.2 ⟨G.get [t, p, i], List.mem_map.2 ⟨i, List.mem_range.2 hi, rfl⟩, rfl⟩)
        _ (List.mem_map.2 ⟨G.get [t, p, j], List.mem_map.2 ⟨j, List.mem_range.2 hj, rfl⟩, rfl⟩)
      have h2 : G.get [t, p, i] = G.get [t, p, j] := by
        have := (div_left_inj' hpos.ne').1 h1
        linarith
      rw [m5 t ht p hp i hi, m5 t ht p hp j hj] at h2
      apply hij
      simpa [List.getD_eq_getElem?_getD, hi, hj] using h2
  have hval : ∀ v, Poly.polyval pf v * (mx - mn) + mn = e v + vol v * (g.P[p] / g.conv) := by
    refine fit2_shift (g.axes.map asPoint) ((List.range g.axes.length).map (fun i : Nat => F.get [i, t])) (fun v => vol v * (g.P[p] / g.conv))
      (Poly.isPoly_mul 5 _ hvol _) (by simp) hd e he mn mx hlt pf ⟨?_, f2, f3, by simp⟩
    rw [← hrow]
    exact f1
  have hX : X.get [t, p] = fit.min.getD 0 0 := (X3 t ht p hp).trans (vX1 _)
  have hY : Y.get [t, p] = fit.min.getD 1 0 := (Y3 t ht p hp).trans (vY1 _)
  have hVv : V.get [t, p] = g.volfunc fit.min := (V3 t ht p hp).trans (vV1 _)
  have hG : Go.get [t, p] = fit.ev fit.min * (mx - mn) + mn := (G3 t ht p hp).trans (vG1 _)
  have hpt : asPoint fit.min = ![X.get [t, p], Y.get [t, p]] := by
    rw [hX, hY]
    funext j
    fin_cases j <;> simp [asPoint]
  have hVe : V.get [t, p] = vol ![X.get [t, p], Y.get [t, p]] := by rw [hVv, hv, hpt]
  refine ⟨hVe, ?_, ?_⟩
  · rw [hG, f4]
    simp only
    rw [hval, hpt, ← hVe]
    ring
  · intro R hR v hvR
    have hv2 : asPoint [v 0, v 1] = v := by
      funext j
      fin_cases j <;> simp [asPoint]
    have h1 := hR mn (mx - mn) hpos (gg.map (fun v => (v - mn) / (mx - mn))) (by
      rw [hgg, List.map_map]
      refine List.map_congr_left fun i hi => ?_
      have hi := List.mem_range.1 hi
      simp [m5 t ht p hp i hi, List.getD_eq_getElem?_getD, hi]) [v 0, v 1] (by rw [hv2]; exact hvR)
    have h2 : fit.ev [v 0, v 1] = Poly.polyval pf v := by
      rw [f4]
      simp only
      rw [hv2]
    rw [hG]
    have h3 := hval v
    have h4 : fit.ev fit.min ≤ Poly.polyval pf v := by rw [← h2]; exact h1
    have h5 : g.P[p] * vol v / g.conv = vol v * (g.P[p] / g.conv) := by ring
    rw [h5, ← h3]
    have := mul_le_mul_of_nonneg_right h4 hpos.le
    linarith

open Classical in
/-- Energies `(V - 3)²` at the volumes 1 … 6, pressures 0 and 1, the default fits. -/
noncomputable def exP (s : Fit.Solvers) : Gibbs where
  T := [1, 2]
  P := [0, 1]
  etot := [4, 1, 0, 1, 4, 9]
  phdos := [([], []), ([], []), ([], []), ([], []), ([], []), ([], [])]
  axes := [[1], [2], [3], [4], [5], [6]]
  nax := 1
  volfunc := fun a => a.getD 0 0
  case := .c1
  skipfreq := true
  eps := 0
  dosarea := none
  integ := fun y _ => y.sum
  c := ⟨1, 1, 2⟩
  conv := 1
  fit1G := fun x y => if h : ∃ f, DefaultFit s x y f then h.choose else ⟨fun v => v, fun _ v => v, x.headD 0⟩
  fit2G := fun x _ => ⟨fun _ => 0, x.headD []⟩
  fit1ax := fun x _ => ⟨fun v => v, fun _ v => v, x.headD 0⟩
  fitAlpha := fun x _ => ⟨fun v => v, fun _ v => v, x.headD 0⟩
  fitC := fun x _ => ⟨fun v => v, fun _ v => v, x.headD 0⟩

theorem exP_poly : BestPoly 5 [1, 2, 3, 4, 5, 6] [4, 1, 0, 1, 4, 9] (fun v => (v - 3) ^ 2) := by
  constructor
  · refine ⟨fun p => if (p 0 : Nat) = 0 then 9 else if (p 0 : Nat) = 1 then -6 else if (p 0 : Nat) = 2 then 1 else 0, fun x => ?_⟩
    rw [← (Equiv.funUnique (Fin 1) (Fin 6)).symm.sum_comp]
    simp [Fin.sum_univ_six]
    ring
  · intro h _
    have : sumSq (fun v : Fin 1 → ℝ => (v 0 - 3) ^ 2) ([1, 2, 3, 4, 5, 6].map (fun v _ => v)) [4, 1, 0, 1, 4, 9] = 0 := by
      simp [sumSq]
      norm_num
    rw [this]
    unfold sumSq
    apply List.sum_nonneg
    intro z hz
    rw [← List.map_uncurry_zip_eq_zipWith] at hz
    obtain ⟨w, -, rfl⟩ := List.mem_map.1 hz
    exact sq_nonneg _

theorem exP_deriv : deriv (fun v : ℝ => (v - 3) ^ 2) = fun v => 2 * (v - 3) := by
  funext v
  have := ((hasDerivAt_id v).sub_const 3).pow 2
  simpa using this.deriv

theorem exP_vols (s : Fit.Solvers) : (exP s).axes.map (exP s).volfunc = [1, 2, 3, 4, 5, 6] := by simp [exP]

theorem exP_six : 6 ≤ ([1, 2, 3, 4, 5, 6] : List ℝ).toFinset.card := by
  rw [List.toFinset_card_of_nodup]
  · simp
  · norm_num

theorem exP_fit (s : Fit.Solvers) (hs : GoodBrent s) (p : ℝ) (hp : p ∈ (exP s).P) (y : List ℝ)
    (hy : y = List.zipWith (fun u v => u + v * (p / (exP s).conv)) [4, 1, 0, 1, 4, 9] [1, 2, 3, 4, 5, 6]) :
    DefaultFit s [1, 2, 3, 4, 5, 6] y ((exP s).fit1G [1, 2, 3, 4, 5, 6] y) := by
  have hex : ∃ f, DefaultFit s [1, 2, 3, 4, 5, 6] y f := by
    rw [hy]
    have hp' : p = 0 ∨ p = 1 := by simpa [exP] using hp
    refine C164_exists s hs _ _ _ 1 6 (by simp) rfl rfl (by norm_num) exP_six (fun v => (v - 3) ^ 2) exP_poly ?_ ?_ ?_
    · rcases hp' with rfl | rfl
      · exact ⟨4, by simp [exP], 1, by simp [exP], by norm_num⟩
      · exact ⟨4 + 1, by simp [exP], 1 + 2, by simp [exP], by norm_num⟩
    · rw [exP_deriv]
      rcases hp' with rfl | rfl <;> simp [exP] <;> norm_num
    · rw [exP_deriv]
      rcases hp' with rfl | rfl <;> simp [exP] <;> norm_num
  have : (exP s).fit1G [1, 2, 3, 4, 5, 6] y = hex.choose := dif_pos hex
  rw [this]
  exact hex.choose_spec

/-- The hypotheses are met: the volumes are 3 and 2.5, the enthalpies 0 and 2.75, the bulk moduli 6 and 5. -/
example (s : Fit.Solvers) (hs : GoodBrent s) (junk : List Nat → ℝ) : ∃ d V H B, (exP s).calcH junk true = some d ∧
    d (.optP .V) = some (some V) ∧ d (.optP .GH) = some (some H) ∧ d (.optP .B) = some (some B) ∧
    V.get [0] = 3 ∧ V.get [1] = 5 / 2 ∧ H.get [0] = 0 ∧ H.get [1] = 11 / 4 ∧ B.get [0] = 6 ∧ B.get [1] = 5 := by
  have hvol := exP_vols s
  obtain ⟨d, V, H, B, h1, h2, h3, h4, -, -, -, h5⟩ := (exP s).C164_enthalpy junk s hs rfl (by simp [exP]) (by simp [exP]) (by simp [exP]) 1 6
    (by rw [hvol]; rfl) (by rw [hvol]; rfl) (by norm_num) (by rw [hvol]; exact exP_six) (fun v => (v - 3) ^ 2) (by rw [hvol]; exact exP_poly) (by
      intro p hp y hy
      rw [hvol] at hy ⊢
      exact exP_fit s hs p hp y hy)
  refine ⟨d, V, H, B, h1, h2, h3, h4, ?_⟩
  have q0 := h5.equilibrium 0 (by simp [exP])
  have q1 := h5.equilibrium 1 (by simp [exP])
  have r0 := h5.enthalpy 0 (by simp [exP])
  have r1 := h5.enthalpy 1 (by simp [exP])
  have b0 := h5.bulk 0 (by simp [exP])
  have b1 := h5.bulk 1 (by simp [exP])
  have dd : ∀ v : ℝ, deriv (fun v : ℝ => 2 * (v - 3)) v = 2 := by
    intro v
    have := ((hasDerivAt_id v).sub_const 3).const_mul 2
    simpa using this.deriv
  rw [exP_deriv] at q0 q1 b0 b1
  rw [dd] at b0 b1
  simp only [exP, mul_one, List.getElem_cons_zero, List.getElem_cons_succ, div_one] at q0 q1 r0 r1 b0 b1
  have v0 : V.get [0] = 3 := by linarith
  have v1 : V.get [1] = 5 / 2 := by linarith
  rw [v0] at r0 b0
  rw [v1] at r1 b1
  refine ⟨v0, v1, ?_, ?_, ?_, ?_⟩ <;> linarith

/-- The same for the Gibbs energy, with a free energy array given by the caller: pressure compresses the body at both temperatures. -/
example (s : Fit.Solvers) (hs : GoodBrent s) (junk : List Nat → ℝ) (F : Arr) (hF : F.shape = [6, 2])
    (hF' : ∀ t < 2, (List.range 6).map (fun i : Nat => F.get [i, t]) = [4, 1, 0, 1, 4, 9]) :
    ∃ d V, (exP s).calcG junk (some (fun k => if k = .axT .F then some (some F) else none)) true = some d ∧
      d (.optTP .V) = some (some V) ∧ V.get [0, 1] < V.get [0, 0] ∧ V.get [1, 1] < V.get [1, 0] := by
  have hvol := exP_vols s
  obtain ⟨d, V, H, B, h1, h2, h3, h4, -, -, -, h5⟩ := (exP s).C164_gibbs junk s hs rfl (by simp [exP]) (by simp [exP]) 1 6
    (by rw [hvol]; rfl) (by rw [hvol]; rfl) (by norm_num) (by rw [hvol]; exact exP_six)
    (some (fun k => if k = .axT .F then some (some F) else none)) _ F (.inl rfl) (by simp) hF (by
      intro t ht p hp y hy
      rw [hvol] at hy ⊢
      have : (List.range (exP s).axes.length).map (fun i : Nat => F.get [i, t]) = [4, 1, 0, 1, 4, 9] := hF' t ht
      rw [this] at hy
      exact exP_fit s hs p hp y hy)
  have hm : StrictMonoOn (deriv (fun v : ℝ => (v - 3) ^ 2)) (Set.Icc 1 6) := by
    rw [exP_deriv]
    intro a _ b _ hab
    simp only
    linarith
  have key : ∀ t < 2, V.get [t, 1] < V.get [t, 0] := by
    intro t ht
    have hb : BestPoly 5 ((exP s).axes.map (exP s).volfunc) ((List.range (exP s).axes.length).map (fun i : Nat => F.get [i, t])) (fun v => (v - 3) ^ 2) := by
      have : (List.range (exP s).axes.length).map (fun i : Nat => F.get [i, t]) = [4, 1, 0, 1, 4, 9] := hF' t ht
      rw [this, hvol]
      exact exP_poly
    exact (h5 t ht _ hb).compress hm 0 (by simp [exP]) 1 (by simp [exP]) (by simp [exP])
  exact ⟨d, V, h1, h2, key 0 (by norm_num), key 1 (by norm_num)⟩

open Classical in
/-- Two axes, `a` and `c` from 1 to 6, volume `a² c`, the default fit. -/
noncomputable def exQ : Gibbs where
  T := [1, 2]
  P := [0, 1]
  etot := []
  phdos := []
  axes := [1, 2, 3, 4, 5, 6].flatMap (fun a => [1, 2, 3, 4, 5, 6].map (fun c => [a, c]))
  nax := 2
  volfunc := fun r => r.getD 0 0 ^ 2 * r.getD 1 0
  case := .c2
  skipfreq := true
  eps := 0
  dosarea := none
  integ := fun y _ => y.sum
  c := ⟨1, 1, 2⟩
  conv := 1
  fit1G := fun x _ => ⟨fun v => v, fun _ v => v, x.headD 0⟩
  fit2G := fun x y => if h : ∃ f, DefaultFit2 x y f then h.choose else ⟨fun _ => 0, x.headD []⟩
  fit1ax := fun x _ => ⟨fun v => v, fun _ v => v, x.headD 0⟩
  fitAlpha := fun x _ => ⟨fun v => v, fun _ v => v, x.headD 0⟩
  fitC := fun x _ => ⟨fun v => v, fun _ v => v, x.headD 0⟩

/-- The hypotheses are met for every array of free energies. -/
example (junk : List Nat → ℝ) (F : Arr) (hF : F.shape = [36, 2]) (hne : F.get [0, 0] ≠ F.get [1, 0]) (e : (Fin 2 → ℝ) → ℝ)
    (he : BestPoly2 5 (exQ.axes.map asPoint) ((List.range 36).map (fun i : Nat => F.get [i, 0])) e) :
    ∃ d X Y V G, exQ.calcG junk (some (fun k => if k = .axT .F then some (some F) else none)) true = some d ∧
      d (.optTP (.ax 0)) = some (some X) ∧ d (.optTP (.ax 1)) = some (some Y) ∧
      d (.optTP .V) = some (some V) ∧ d (.optTP .GH) = some (some G) ∧
      V.get [0, 0] = X.get [0, 0] ^ 2 * Y.get [0, 0] ∧ G.get [0, 0] = e ![X.get [0, 0], Y.get [0, 0]] := by
  have hmem : ∀ w : Fin 2 → ℝ, (∀ j, w j ∈ ({1, 2, 3, 4, 5, 6} : Finset ℝ)) → w ∈ exQ.axes.map asPoint := by
    intro w hw
    refine List.mem_map.2 ⟨[w 0, w 1], ?_, ?_⟩
    · have h0 := hw 0
      have h1 := hw 1
      simp only [Finset.mem_insert, Finset.mem_singleton] at h0 h1
      simp only [exQ, List.mem_flatMap]
      refine ⟨w 0, by simpa using h0, List.mem_map.2 ⟨w 1, by simpa using h1, rfl⟩⟩
    · funext j
      fin_cases j <;> simp [asPoint]
  have hcard : 5 < ({1, 2, 3, 4, 5, 6} : Finset ℝ).card := by
    rw [Finset.card_insert_of_notMem, Finset.card_insert_of_notMem, Finset.card_insert_of_notMem, Finset.card_insert_of_notMem,
      Finset.card_insert_of_notMem, Finset.card_singleton] <;> norm_num
  have hlen : exQ.axes.length = 36 := by simp [exQ]
  obtain ⟨d, X, Y, V, G, h1, h2, h3, h4, h5, h6⟩ := exQ.C164_two_axes junk rfl rfl
    (some (fun k => if k = .axT .F then some (some F) else none)) _ F (.inl rfl) (by simp) (by rw [hlen]; exact hF)
    (Poly.C160_grid 5 _ (fun _ => {1, 2, 3, 4, 5, 6}) (fun _ => hcard) hmem) (fun v => v 0 ^ 2 * v 1) (by
      refine ⟨fun p => if (p 0 : Nat) = 2 ∧ (p 1 : Nat) = 1 then 1 else 0, fun x => ?_⟩
      rw [Finset.sum_eq_single ![2, 1]]
      · simp [Fin.prod_univ_two]
      · intro p _ hp
        have : ¬ ((p 0 : Nat) = 2 ∧ (p 1 : Nat) = 1) := by
          rintro ⟨a, b⟩
          apply hp
          funext j
          fin_cases j
          · exact Fin.ext a
          · exact Fin.ext b
        simp [this]
      · simp) (fun r => rfl) (by
      intro y hy
      by_cases hall : ∀ a ∈ y, ∀ b ∈ y, a = b
      · exact .inr hall
      left
      push Not at hall
      obtain ⟨a, ha, b, hb, hab⟩ := hall
      obtain ⟨pf, hpf⟩ := Poly.C160_exists (exQ.axes.map asPoint) y 5 true false (by simp [hy])
      have hex : ∃ f, DefaultFit2 exQ.axes y f := by
        refine ⟨⟨fun r => Poly.polyval pf (asPoint r), [0, 0]⟩, pf, hpf, fun j => ?_, ?_, rfl, rfl⟩
        · rw [hpf.2.2.2.1]
          exact pointScale_pos _ (fun _ => 1) (fun _ => 2) (hmem _ (by simp)) (hmem _ (by simp)) j (by norm_num)
        · rw [hpf.2.2.2.2.2.1]
          exact valueScale_pos y a b ha hb hab
      have : exQ.fit2G exQ.axes y = hex.choose := dif_pos hex
      rw [this]
      exact hex.choose_spec)
  obtain ⟨q1, q2, -⟩ := h6 0 (by simp [exQ]) 0 (by simp [exQ]) e (by rw [hlen]; exact he) ⟨0, by simp [hlen], 1, by simp [hlen], by
    simpa [exQ] using hne⟩
  exact ⟨d, X, Y, V, G, h1, h2, h3, h4, h5, by simpa using q1, by simpa [exQ] using q2⟩

end Gibbs
end Pwtools.Thermo
