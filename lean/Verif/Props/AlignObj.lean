import Verif.Spec.AlignObj
import Verif.Props.Cell3
/-!
# C182: `align_cart` for structures and trajectories
-/
namespace Pwtools.Cry
open Pwtools.Spec

theorem pyAt_entry {α : Type} (l : List α) (i : Int) (a : α) : pyAt l i = some a ↔ EntryAt l i a := by
  unfold pyAt EntryAt
  constructor
  · intro h
    split_ifs at h with h1 h2
    · exact ⟨i.toNat, h, .inl (by omega)⟩
    · exact ⟨(l.length + i).toNat, h, .inr (by omega)⟩
  · rintro ⟨n, hn, hi⟩
    have hlt : n < l.length := by
      by_contra hc
      rw [List.getElem?_eq_none (by omega)] at hn
      cases hn
    rcases hi with rfl | rfl
    · rw [if_pos (by omega)]
      simpa using hn
    · rw [if_neg (by omega), if_pos (by omega)]
      have : ((l.length : Int) + ((n : Int) - l.length)).toNat = n := by omega
      rw [this, hn]

theorem position_eq (c : Cell) (s : V3) : positionOf c s = frac2cart c s := by
  funext l
  simp [positionOf, frac2cart, Matrix.vecMul, dotProduct]

theorem vecLen_eq (x : V3) : vecLen x = norm x := by
  unfold vecLen norm dot
  simp [sq]

theorem pointDist_eq (x y : V3) : pointDist x y = norm (x - y) := by
  unfold pointDist norm dot
  simp [sq]

theorem dot_ne (x : V3) (h : x ≠ 0) : dot x x ≠ 0 := by
  intro hc
  apply h
  unfold dot at hc
  rw [Finset.sum_eq_zero_iff_of_nonneg (fun i _ => mul_self_nonneg _)] at hc
  funext i
  simpa using hc i (Finset.mem_univ i)

theorem perp_axes (x y : V3) (h : Perp x y) : cartFrom x y * (cartFrom x y).transpose = 1 :=
  (C54_xy x y (dot_ne x h.1) (dot_ne y h.2.1) h.2.2).1

theorem close_orth (cart : Cell) (h : cart * cart.transpose = 1) (eps : ℝ) : ¬ (0 < eps ∧ ¬ allclose cart⁻¹ cart.transpose eps) := by
  rintro ⟨h1, h2⟩
  apply h2
  intro i j
  rw [Matrix.inv_eq_right_inv h, sub_self, abs_zero]
  positivity

theorem align_orth (o : AObj) (a : AArgs) (eps : ℝ) (cart : Cell) (hax : axesOf o a = .ok cart) (h : cart * cart.transpose = 1) :
    alignObj o a eps = .ok { o with steps := o.steps.map (fun p => (p.1 * cart.transpose, p.2)) } := by
  unfold alignObj
  rw [hax]
  exact if_neg (close_orth cart h eps)

theorem frac_mul (c q : Cell) (s : V3) : frac2cart (c * q) s = Matrix.vecMul (frac2cart c s) q := by
  unfold frac2cart
  rw [← Matrix.vecMul_vecMul]

theorem norm_orth (q : Cell) (h : q * q.transpose = 1) (v : V3) : norm (Matrix.vecMul v q.transpose) = norm v := by
  unfold norm
  rw [orth_dot q h]

/-- C182: with perpendicular axes, or any orthogonal `cart`, there is no exception. Symbols, number of steps and fractional coordinates are kept,
and one and the same rotation is applied to everything: the distance of any two atoms, also of different time steps, is kept. -/
theorem C182_rigid (o : AObj) (a : AArgs) (eps : ℝ)
    (hax : (∃ cart, a.cart = some cart ∧ cart * cart.transpose = 1) ∨ (a.cart = none ∧ ∃ x y, a.x = some x ∧ a.y = some y ∧ Perp x y)) :
    ∃ o', alignObj o a eps = .ok o' ∧ o'.isTraj = o.isTraj ∧ o'.symbols = o.symbols ∧ o'.steps.map (·.2) = o.steps.map (·.2) ∧
      ∀ (m n : Nat) (p p' r r' : Cell × List V3), o.steps[m]? = some p → o'.steps[m]? = some p' → o.steps[n]? = some r → o'.steps[n]? = some r' →
        ∀ s t : V3, pointDist (positionOf p'.1 s) (positionOf r'.1 t) = pointDist (positionOf p.1 s) (positionOf r.1 t) := by
  obtain ⟨cart, hc, ho⟩ : ∃ cart, axesOf o a = .ok cart ∧ cart * cart.transpose = 1 := by
    rcases hax with ⟨cart, h1, h2⟩ | ⟨h0, x, y, hx, hy, h⟩
    · exact ⟨cart, by simp [axesOf, h1], h2⟩
    · exact ⟨cartFrom x y, by simp [axesOf, h0, hx, hy], perp_axes x y h⟩
  refine ⟨_, align_orth o a eps cart hc ho, rfl, rfl, ?_, ?_⟩
  · simp [Function.comp_def]
  · intro m n p p' r r' h1 h2 h3 h4 s t
    simp only [List.getElem?_map, h1, h3, Option.map_some, Option.some.injEq] at h2 h4
    subst h2 h4
    simp only [position_eq, pointDist_eq, frac_mul, ← Matrix.sub_vecMul, norm_orth cart ho]

/-- C182: `indices=[i,j,k]` of a structure: atom `j`, seen from `i`, is on the new x axis and atom `k` on the new y axis, at the distances they
had; all cells are turned in the same way. Indices may be negative. -/
theorem C182_structure (o : AObj) (a : AArgs) (eps : ℝ) (c : Cell) (f : List V3) (i j k : Int) (si sj sk : V3)
    (ho : o.isTraj = false) (hst : o.steps = [(c, f)]) (hc : a.cart = none) (hx : a.x = none) (hy : a.y = none)
    (hi : a.indices = some [i, j, k]) (h0 : EntryAt f i si) (h1 : EntryAt f j sj) (h2 : EntryAt f k sk)
    (hp : Perp (positionOf c sj - positionOf c si) (positionOf c sk - positionOf c si)) :
    ∃ c', alignObj o a eps = .ok { o with steps := [(c', f)] } ∧
      positionOf c' sj - positionOf c' si = ![vecLen (positionOf c sj - positionOf c si), 0, 0] ∧
      positionOf c' sk - positionOf c' si = ![0, vecLen (positionOf c sk - positionOf c si), 0] ∧ c'.det = c.det := by
  simp only [position_eq, vecLen_eq] at hp ⊢
  have hax : axesOf o a = .ok (cartFrom (frac2cart c sj - frac2cart c si) (frac2cart c sk - frac2cart c si)) := by
    unfold axesOf points
    simp only [hc, hx, hy, hi, ho, hst, three, (pyAt_entry f i si).2 h0, (pyAt_entry f j sj).2 h1, (pyAt_entry f k sk).2 h2]
    rfl
  refine ⟨c * (cartFrom (frac2cart c sj - frac2cart c si) (frac2cart c sk - frac2cart c si)).transpose, ?_, ?_, ?_, ?_⟩
  · rw [align_orth o a eps _ hax (perp_axes _ _ hp), hst]
    rfl
  · rw [frac_mul, frac_mul, ← Matrix.sub_vecMul]
    exact (C54_xy _ _ (dot_ne _ hp.1) (dot_ne _ hp.2.1) hp.2.2).2.1
  · rw [frac_mul, frac_mul, ← Matrix.sub_vecMul]
    exact (C54_xy _ _ (dot_ne _ hp.1) (dot_ne _ hp.2.1) hp.2.2).2.2
  · rw [Matrix.det_mul, Matrix.det_transpose, (C54_right_handed _ _ (dot_ne _ hp.1) (dot_ne _ hp.2.1) hp.2.2).1, mul_one]

/-- C182: `indices=[s,i,j,k]` of a trajectory: the same for the atoms in time step `s`; every other step is turned in the same way. -/
theorem C182_trajectory (o : AObj) (a : AArgs) (eps : ℝ) (c : Cell) (f : List V3) (m : Nat) (s i j k : Int) (si sj sk : V3)
    (ho : o.isTraj = true) (hs : o.steps[m]? = some (c, f)) (hsm : s = m ∨ s = (m : Int) - o.steps.length) (hc : a.cart = none) (hx : a.x = none)
    (hy : a.y = none) (hi : a.indices = some [s, i, j, k]) (h0 : EntryAt f i si) (h1 : EntryAt f j sj) (h2 : EntryAt f k sk)
    (hp : Perp (positionOf c sj - positionOf c si) (positionOf c sk - positionOf c si)) :
    ∃ (q : Cell) (o' : AObj), q * q.transpose = 1 ∧ q.det = 1 ∧ alignObj o a eps = .ok o' ∧ o'.isTraj = true ∧ o'.symbols = o.symbols ∧
      (∀ n : Nat, o'.steps[n]? = (o.steps[n]?).map (fun p : Cell × List V3 => (p.1 * q, p.2))) ∧
      positionOf (c * q) sj - positionOf (c * q) si = ![vecLen (positionOf c sj - positionOf c si), 0, 0] ∧
      positionOf (c * q) sk - positionOf (c * q) si = ![0, vecLen (positionOf c sk - positionOf c si), 0] := by
  simp only [position_eq, vecLen_eq] at hp ⊢
  have hax : axesOf o a = .ok (cartFrom (frac2cart c sj - frac2cart c si) (frac2cart c sk - frac2cart c si)) := by
    unfold axesOf points
    simp only [hc, hx, hy, hi, ho, (pyAt_entry o.steps s (c, f)).2 ⟨m, hs, hsm⟩, three, (pyAt_entry f i si).2 h0, (pyAt_entry f j sj).2 h1,
      (pyAt_entry f k sk).2 h2]
    rfl
  have hq := perp_axes _ _ hp
  refine ⟨(cartFrom (frac2cart c sj - frac2cart c si) (frac2cart c sk - frac2cart c si)).transpose, _, ?_, ?_, align_orth o a eps _ hax hq, ho, rfl,
    ?_, ?_, ?_⟩
  · rw [Matrix.transpose_transpose]
    exact mul_eq_one_comm.1 hq
  · rw [Matrix.det_transpose, (C54_right_handed _ _ (dot_ne _ hp.1) (dot_ne _ hp.2.1) hp.2.2).1]
  · intro n
    simp
  · rw [frac_mul, frac_mul, ← Matrix.sub_vecMul]
    exact (C54_xy _ _ (dot_ne _ hp.1) (dot_ne _ hp.2.1) hp.2.2).2.1
  · rw [frac_mul, frac_mul, ← Matrix.sub_vecMul]
    exact (C54_xy _ _ (dot_ne _ hp.1) (dot_ne _ hp.2.1) hp.2.2).2.2

theorem unit_sq (x : V3) : (x 0 / norm x) ^ 2 + (x 1 / norm x) ^ 2 + (x 2 / norm x) ^ 2 ≤ 1 := by
  have h := norm_sq x
  rw [dot3] at h
  by_cases h0 : norm x = 0
  · simp [h0]
  · apply le_of_eq
    field_simp
    linear_combination -h

theorem comp_le (a b c : ℝ) (h : a ^ 2 + b ^ 2 + c ^ 2 ≤ 1) : |a| + |b| + |c| ≤ 2 ∧ |a| ≤ 1 ∧ |b| ≤ 1 ∧ |c| ≤ 1 := by
  have ha := sq_abs a
  have hb := sq_abs b
  have hc := sq_abs c
  refine ⟨?_, ?_, ?_, ?_⟩
  · nlinarith [sq_nonneg (|a| - |b|), sq_nonneg (|a| - |c|), sq_nonneg (|b| - |c|), abs_nonneg a, abs_nonneg b, abs_nonneg c]
  · nlinarith [sq_nonneg b, sq_nonneg c, abs_nonneg a]
  · nlinarith [sq_nonneg a, sq_nonneg c, abs_nonneg b]
  · nlinarith [sq_nonneg b, sq_nonneg a, abs_nonneg c]

/-- C182: axes which are not perpendicular are rejected: whenever `align_cart` returns with `x`, `y` and `eps > 0`, the cosine of the angle between
them is at most `2 (eps + 1e-5)`. -/
theorem C182_angle (o o' : AObj) (a : AArgs) (eps : ℝ) (he : 0 < eps) (x y : V3) (hc : a.cart = none) (hx : a.x = some x) (hy : a.y = some y)
    (h : alignObj o a eps = .ok o') : |∑ k, x k * y k| ≤ 2 * (eps + 1 / 100000) * (vecLen x * vecLen y) := by
  rw [vecLen_eq, vecLen_eq]
  have hcl : allclose (cartFrom x y)⁻¹ (cartFrom x y).transpose eps := by
    unfold alignObj at h
    simp only [axesOf, hc, hx, hy] at h
    split_ifs at h with h1
    push Not at h1
    exact h1 he
  set C := cartFrom x y with hC
  have h01 : (C * C⁻¹) 0 1 = 0 := by
    by_cases hd : C.det = 0
    · rw [Matrix.nonsing_inv_apply_not_isUnit _ (by simp [hd])]
      simp
    · rw [Matrix.mul_nonsing_inv _ (by simpa using hd)]
      simp
  rw [Matrix.mul_apply, Fin.sum_univ_three] at h01
  have r0 : ∀ k, C 0 k = x k / norm x := fun k => by simp [hC, cartFrom]
  have r1 : ∀ k, C 1 k = y k / norm y := fun k => by simp [hC, cartFrom]
  obtain ⟨ux, u0, u1, u2⟩ := comp_le _ _ _ (unit_sq x)
  obtain ⟨-, v0, v1, v2⟩ := comp_le _ _ _ (unit_sq y)
  have b : ∀ k, |C⁻¹ k 1 - C 1 k| ≤ eps + 1 / 100000 := fun k => by
    have := hcl k 1
    rw [Matrix.transpose_apply] at this
    have hk : |C 1 k| ≤ 1 := by
      rw [r1]
      fin_cases k
      · exact v0
      · exact v1
      · exact v2
    linarith
  have key : x 0 / norm x * (y 0 / norm y) + x 1 / norm x * (y 1 / norm y) + x 2 / norm x * (y 2 / norm y) =
      -(C 0 0 * (C⁻¹ 0 1 - C 1 0) + C 0 1 * (C⁻¹ 1 1 - C 1 1) + C 0 2 * (C⁻¹ 2 1 - C 1 2)) := by
    rw [← r0, ← r0, ← r0, ← r1, ← r1, ← r1]
    linear_combination h01
  have hb : |x 0 / norm x * (y 0 / norm y) + x 1 / norm x * (y 1 / norm y) + x 2 / norm x * (y 2 / norm y)| ≤ 2 * (eps + 1 / 100000) := by
    rw [key, abs_neg]
    calc _ ≤ |C 0 0 * (C⁻¹ 0 1 - C 1 0)| + |C 0 1 * (C⁻¹ 1 1 - C 1 1)| + |C 0 2 * (C⁻¹ 2 1 - C 1 2)| := abs_add_three _ _ _
      _ ≤ |C 0 0| * (eps + 1 / 100000) + |C 0 1| * (eps + 1 / 100000) + |C 0 2| * (eps + 1 / 100000) := by
        rw [abs_mul, abs_mul, abs_mul]
        gcongr
        · exact b 0
        · exact b 1
        · exact b 2
      _ = (|C 0 0| + |C 0 1| + |C 0 2|) * (eps + 1 / 100000) := by ring
      _ ≤ 2 * (eps + 1 / 100000) := by
        rw [r0, r0, r0]
        gcongr
  have nx := norm_nonneg x
  have ny := norm_nonneg y
  by_cases hx0 : norm x = 0
  · have : dot x x = 0 := by rw [← norm_sq, hx0]; ring
    have : x = 0 := by by_contra hne; exact dot_ne x hne this
    rw [hx0, this]
    simp
  · by_cases hy0 : norm y = 0
    · have : dot y y = 0 := by rw [← norm_sq, hy0]; ring
      have : y = 0 := by by_contra hne; exact dot_ne y hne this
      rw [hy0, this]
      simp
    · have e : ∑ k, x k * y k = (x 0 / norm x * (y 0 / norm y) + x 1 / norm x * (y 1 / norm y) + x 2 / norm x * (y 2 / norm y)) *
          (norm x * norm y) := by
        rw [Fin.sum_univ_three]
        field_simp
      rw [e, abs_mul, abs_of_nonneg (mul_nonneg nx ny)]
      gcongr

/-- C182: with the check disabled (`eps <= 0`) skew axes are taken as they are: the volume of every cell is multiplied by the squared sine of their
angle. -/
theorem C182_unchecked (o : AObj) (a : AArgs) (eps : ℝ) (he : eps ≤ 0) (x y : V3) (hx0 : x ≠ 0) (hy0 : y ≠ 0) (hc : a.cart = none)
    (hx : a.x = some x) (hy : a.y = some y) :
    ∃ o', alignObj o a eps = .ok o' ∧ ∀ (n : Nat) (p p' : Cell × List V3), o.steps[n]? = some p → o'.steps[n]? = some p' →
      p'.1.det = p.1.det * (1 - (∑ k, x k * y k) ^ 2 / (vecLen x ^ 2 * vecLen y ^ 2)) := by
  refine ⟨{ o with steps := o.steps.map (fun p => (p.1 * (cartFrom x y).transpose, p.2)) }, ?_, ?_⟩
  · unfold alignObj
    simp only [axesOf, hc, hx, hy]
    rw [if_neg (fun h => absurd h.1 (not_lt.2 he))]
  · intro n p p' h1 h2
    simp only [List.getElem?_map, h1, Option.map_some, Option.some.injEq] at h2
    subst h2
    rw [Matrix.det_mul, Matrix.det_transpose, vecLen_eq, vecLen_eq]
    congr 1
    have dx := dot_ne x hx0
    have dy := dot_ne y hy0
    have nx : norm x ≠ 0 := by intro h; apply dx; rw [← norm_sq, h]; ring
    have ny : norm y ≠ 0 := by intro h; apply dy; rw [← norm_sq, h]; ring
    have sx := norm_sq x
    have sy := norm_sq y
    rw [Matrix.det_fin_three]
    simp only [dot3] at sx sy
    simp only [cartFrom, cross, Matrix.of_apply, Matrix.cons_val_zero, Matrix.cons_val_one, Matrix.cons_val, Fin.sum_univ_three]
    field_simp
    rw [sx, sy]
    ring

/-- C182: which arguments count. `cart` goes first, then `x` and `y`, then `indices`, then `vecs`; only one of `x` and `y`, three indices with a
trajectory, four indices with a structure, or nothing at all is an error. -/
theorem C182_args (o : AObj) (a : AArgs) (eps : ℝ) :
    (∀ c, a.cart = some c → alignObj o a eps = alignObj o ⟨none, none, none, none, some c⟩ eps) ∧
    (∀ x y, a.cart = none → a.x = some x → a.y = some y → alignObj o a eps = alignObj o ⟨some x, some y, none, none, none⟩ eps) ∧
    (∀ i, a.cart = none → a.x = none → a.y = none → a.indices = some i → alignObj o a eps = alignObj o ⟨none, none, none, some i, none⟩ eps) ∧
    (∀ v0 v1 v2, a.cart = none → a.x = none → a.y = none → a.indices = none → a.vecs = some (v0, v1, v2) →
      alignObj o a eps = alignObj o ⟨some (v1 - v0), some (v2 - v0), none, none, none⟩ eps) ∧
    (a.cart = none → (a.x.isSome ↔ a.y.isNone) → ∃ e, alignObj o a eps = .error e) ∧
    (a.cart = none → a.x = none → a.y = none → a.indices = none → a.vecs = none → ∃ e, alignObj o a eps = .error e) ∧
    (∀ l, a.cart = none → a.x = none → a.y = none → a.indices = some l → l.length = (if o.isTraj then 3 else 4) →
      ∃ e, alignObj o a eps = .error e) := by
  refine ⟨fun c hc => ?_, fun x y hc hx hy => ?_, fun i hc hx hy hi => ?_, fun v0 v1 v2 hc hx hy hi hv => ?_, fun hc hxy => ?_,
    fun hc hx hy hi hv => ?_, fun l hc hx hy hi hl => ?_⟩
  · simp [alignObj, axesOf, hc]
  · simp [alignObj, axesOf, hc, hx, hy]
  · have : points o a = points o ⟨none, none, none, some i, none⟩ := by
      unfold points
      rw [hi]
      rcases i with _ | ⟨p, _ | ⟨q, _ | ⟨r, _ | ⟨t, _ | ⟨u, l⟩⟩⟩⟩⟩ <;> rfl
    simp only [alignObj, axesOf, hc, hx, hy, this]
  · simp [alignObj, axesOf, points, hc, hx, hy, hi, hv]
  · rcases hx : a.x with _ | x <;> rcases hy : a.y with _ | y <;> simp [hx, hy] at hxy
    · exact ⟨.attribute, by simp [alignObj, axesOf, hc, hx, hy]⟩
    · exact ⟨.attribute, by simp [alignObj, axesOf, hc, hx, hy]⟩
  · exact ⟨.type, by simp [alignObj, axesOf, points, hc, hx, hy, hi, hv]⟩
  · refine ⟨.assertion, ?_⟩
    cases ho : o.isTraj
    · rw [ho] at hl
      match l, hl with
      | [s, i, j, k], _ => simp [alignObj, axesOf, points, hc, hx, hy, hi, ho]
    · rw [ho] at hl
      match l, hl with
      | [i, j, k], _ => simp [alignObj, axesOf, points, hc, hx, hy, hi, ho]

/-- Three atoms in a cubic cell: atoms 0, 1 and the last one are at the origin, on the y axis and on the z axis. -/
example : ∃ (o : AObj) (a : AArgs) (si sj sk : V3), o.isTraj = true ∧ o.steps[1]? = some (1, [si, sj, sk]) ∧ a.indices = some [-1, 0, 1, -1] ∧
    EntryAt [si, sj, sk] 0 si ∧ EntryAt [si, sj, sk] 1 sj ∧ EntryAt [si, sj, sk] (-1) sk ∧
    Perp (positionOf 1 sj - positionOf 1 si) (positionOf 1 sk - positionOf 1 si) := by
  refine ⟨⟨true, [], [(1, []), (1, [![0, 0, 0], ![0, 1, 0], ![0, 0, 2]])]⟩, ⟨none, none, none, some [-1, 0, 1, -1], none⟩, ![0, 0, 0], ![0, 1, 0],
    ![0, 0, 2], rfl, rfl, rfl, ⟨0, rfl, .inl rfl⟩, ⟨1, rfl, .inl rfl⟩, ⟨2, rfl, .inr rfl⟩, ?_, ?_, ?_⟩
  · intro h
    have := congrFun h 1
    simp [positionOf, Matrix.one_apply] at this
  · intro h
    have := congrFun h 2
    simp [positionOf, Matrix.one_apply] at this
  · simp [positionOf, Fin.sum_univ_three, Matrix.one_apply]

end Pwtools.Cry
