import Verif.Props.Rbf
import Verif.Props.Num2
import Verif.Spec.Interpol
/-!
# `num.Interpol2D`: C171
-/
namespace Pwtools.Interpol
open Pwtools.Rbf Pwtools.Spec

theorem zip_map (pts : List (ℝ × ℝ)) : List.zip (pts.map Prod.fst) (pts.map Prod.snd) = pts := by
  induction pts with
  | nil => rfl
  | cons q l ih => simp [ih]

/-- **C171** (input). Points, pairs of coordinates, and a `Data2D` object give the same interpolator, with the same errors, for all
kinds and keywords. -/
theorem C171_forms (lib : Lib) (a : In) (ha : a.points = none ∧ a.values = none ∧ a.xx = none ∧ a.yy = none ∧ a.dd = none)
    (pts : List (ℝ × ℝ)) (vals : List ℝ) (dd : D2.Data ℝ) (h1 : dd.xx = some (pts.map Prod.fst))
    (h2 : dd.yy = some (pts.map Prod.snd)) (h3 : dd.zz = some vals) (h4 : dd.XY = some pts) :
    mk lib { a with points := some pts, values := some vals } =
      mk lib { a with xx := some (pts.map Prod.fst), yy := some (pts.map Prod.snd), values := some vals } ∧
    mk lib { a with points := some pts, values := some vals } = mk lib { a with dd := some dd } := by
  obtain ⟨e1, e2, e3, e4, e5⟩ := ha
  constructor
  · simp [mk, rectify, e1, e3, e4, e5, zip_map, choose]
  · simp [mk, rectify, e3, e4, e5, h1, h2, h3, h4, choose]

/-- **C171** (contradicting input). Points together with coordinates, or only one coordinate, are refused. -/
theorem C171_conflict (lib : Lib) (a : In) (hd : a.dd = none) :
    (a.points ≠ none → a.xx ≠ none ∨ a.yy ≠ none → mk lib a = none) ∧
    (a.xx = none → a.yy ≠ none → mk lib a = none) ∧ (a.yy = none → a.xx ≠ none → mk lib a = none) ∧
    (a.points = none → a.xx = none → mk lib a = none) := by
  refine ⟨?_, ?_, ?_, ?_⟩ <;> unfold mk rectify <;> rw [hd] <;>
    cases hx : a.xx <;> cases hy : a.yy <;> cases hp : a.points <;> simp

/-- **C171** (`dd` wins). Together with a `Data2D` object other input is not looked at. -/
theorem C171_dd (lib : Lib) (a : In) (dd : D2.Data ℝ) (p : Option (List (ℝ × ℝ))) (v x y : Option (List ℝ)) :
    mk lib { a with dd := some dd, points := p, values := v, xx := x, yy := y } = mk lib { a with dd := some dd } := by
  simp [mk, rectify, choose]

/-- **C171** (evaluation). Several points are evaluated one by one, in order; one point is a list of one. -/
theorem C171_eval (o : Obj) (l : List (ℝ × ℝ)) (q : ℝ × ℝ) :
    (o.eval (.many l)).length = l.length ∧ (∀ i : Nat, ∀ q, l[i]? = some q → o.eval (.one q) = ((o.eval (.many l))[i]?).toList) ∧
      o.eval (.one q) = o.eval (.many [q]) := by
  refine ⟨by simp [Obj.eval], ?_, rfl⟩
  intro i q h
  simp [Obj.eval, h]

/-- **C171** (names). Unknown names are refused. -/
theorem C171_unknown (lib : Lib) (a : In)
    (h : a.what ∉ ["rbf_multi", "rbf_inv_multi", "rbf_gauss", "poly", "ct", "nearest", "linear", "bispl"]) : mk lib a = none := by
  simp only [List.mem_cons, List.not_mem_nil, or_false, not_or] at h
  obtain ⟨h1, h2, h3, h4, h5, h6, h7, h8⟩ := h
  unfold mk
  cases rectify a with
  | none => rfl
  | some t => simp [choose, h1, h2, h3, h4, h5, h6, h7, h8]

theorem vec_inj {a b : ℝ × ℝ} (h : vec a = vec b) : a = b := by
  have h0 := congrFun h 0
  have h1 := congrFun h 1
  simp [vec] at h0 h1
  exact Prod.ext h0 h1

theorem sqd_vec (a b : ℝ × ℝ) : sqd (vec a) (vec b) = (a.1 - b.1) ^ 2 + (a.2 - b.2) ^ 2 := by
  simp [sqd, vec, Fin.sum_univ_two]

theorem kv_radial (k : Kind) (what : String) (hw : (what = "rbf_multi" ∧ k = .multi) ∨ (what = "rbf_inv_multi" ∧ k = .invMulti) ∨
    (what = "rbf_gauss" ∧ k = .gauss)) (p s : ℝ) : kv k p s = radial what s p := by
  rcases hw with ⟨rfl, rfl⟩ | ⟨rfl, rfl⟩ | ⟨rfl, rfl⟩
  · simp [kv, radial]
  · simp [kv, radial]
  · simp only [kv, radial, if_true]
    congr 1
    ring

theorem choose_rbf (lib : Lib) (a : In) (hw : IsRbfName a.what) (pts : List (ℝ × ℝ)) (vals : List ℝ) :
    ∃ k, choose lib a pts vals = mkRbf lib k a.r a.p pts vals ∧ ((a.what = "rbf_multi" ∧ k = .multi) ∨ (a.what = "rbf_inv_multi" ∧ k = .invMulti) ∨
    (a.what = "rbf_gauss" ∧ k = .gauss)) := by
  rcases hw with h | h | h
  · exact ⟨.multi, by simp [choose, h], Or.inl ⟨h, rfl⟩⟩
  · exact ⟨.invMulti, by simp [choose, h], Or.inr (Or.inl ⟨h, rfl⟩)⟩
  · exact ⟨.gauss, by simp [choose, h], Or.inr (Or.inr ⟨h, rfl⟩)⟩

theorem zipWith_sum (g : ℝ × ℝ → ℝ → ℝ) (pts : List (ℝ × ℝ)) (w : Fin pts.length → ℝ) :
    (List.zipWith g pts (List.ofFn w)).sum = ∑ j, g pts[j] (w j) := by
  have e : List.zipWith g pts (List.ofFn w) = List.ofFn (fun j : Fin pts.length => g pts[j] (w j)) := by
    apply List.ext_getElem
    · simp
    · intro i h1 h2
      simp
  rw [e, List.sum_ofFn]

theorem init_p {M N : Nat} (points : Fin M → Fin N → ℝ) (hi : Function.Injective points) (h2 : 2 ≤ M) (values : Fin M → ℝ) (k : Kind)
    (r : Option ℝ) (q : ℝ) (pa : PArg) (hp : pa = .mean ∨ ∃ p, pa = .num p ∧ p ≠ 0) :
    ∃ o, init points values k r pa q = some o ∧ o.points = points ∧ o.values = values ∧ o.rbf = k ∧ o.r = r ∧ o.p ≠ 0 := by
  rcases hp with rfl | ⟨p, rfl, h0⟩
  · obtain ⟨o, e, e1, e2, e3, e4, -, -, e5⟩ := C71_mean points values k r q
    refine ⟨o, e, e1, e2, e3, e4, fun h => ?_⟩
    have := hi (e5.1 h ⟨0, by omega⟩ ⟨1, by omega⟩)
    simp at this
  · exact ⟨_, rfl, rfl, rfl, rfl, rfl, h0⟩

theorem points_inj {pts : List (ℝ × ℝ)} (hn : pts.Nodup) : Function.Injective (fun i : Fin pts.length => vec pts[i]) := by
  intro i j h
  have h' := vec_inj h
  exact Fin.ext ((List.Nodup.getElem_inj_iff hn).1 h')

theorem rectify_points {a : In} {pts : List (ℝ × ℝ)} {vals : List ℝ} (hd : a.dd = none) (hx : a.xx = none) (hy : a.yy = none)
    (h1 : a.points = some pts) (h2 : a.values = some vals) :
    rectify a = some (pts.map Prod.fst, pts.map Prod.snd, vals, pts) := by
  simp [rectify, hd, hx, hy, h1, h2]

/-- **C171** (radial basis functions, `r=0`). At least two points, all different, values not all zero, `p` the default or a given
number which is not zero: the interpolator exists, takes the given values at the given points, and is a combination of
the radial functions of its name around the points. Missing for the full property: values that are all zero
(`C171_zero_counterexample`). Points that occur twice are refused (C71). -/
theorem C171_rbf_partial (lib : Lib) (hs : ∀ M, IsSolver (lib.solve M)) (a : In) (hw : IsRbfName a.what) (hr : a.r = some 0)
    (hp : a.p = .mean ∨ ∃ p, a.p = .num p ∧ p ≠ 0) (pts : List (ℝ × ℝ)) (vals : List ℝ) (hd : a.dd = none) (hx : a.xx = none) (hy : a.yy = none)
    (h1 : a.points = some pts) (h2 : a.values = some vals) (hl : vals.length = pts.length) (h2p : 2 ≤ pts.length) (hn : pts.Nodup)
    (hv : ∃ v ∈ vals, v ≠ 0) :
    ∃ o, mk lib a = some o ∧ o.points = pts ∧ o.values = vals ∧ Hits o.call pts vals ∧
      ∃ (p : ℝ) (w : List ℝ), p ≠ 0 ∧ (∀ p', a.p = .num p' → p = p') ∧ w.length = pts.length ∧ ∀ q, o.call q =
        some ((List.zipWith (fun (c : ℝ × ℝ) wj => wj * radial a.what ((q.1 - c.1) ^ 2 + (q.2 - c.2) ^ 2) p) pts w).sum) := by
  obtain ⟨k, hk, hkw⟩ := choose_rbf lib a hw pts vals
  obtain ⟨o, e0, e1, e2, e3, e4, e5⟩ := init_p _ (points_inj hn) h2p (fun i : Fin pts.length => vals.getD i 0) k a.r (lib.scipyP pts) a.p hp
  have hv' : ∃ i, o.values i ≠ 0 := by
    obtain ⟨v, hv, h0⟩ := hv
    obtain ⟨i, hi, rfl⟩ := List.getElem_of_mem hv
    exact ⟨⟨i, by omega⟩, by rw [e2]; simpa [hi] using h0⟩
  obtain ⟨w, f1, f2⟩ := Obj.C71_interpolation_partial (lstsq := lib.lstsq pts.length) o (hs pts.length) e5 (by rw [e4, hr]) (by rw [e1]; exact points_inj hn) hv'
  have hw0 : w ≠ 0 := by
    rintro rfl
    obtain ⟨i, hi⟩ := hv'
    have := f2 i
    unfold Obj.predict at this
    have hm : Obj.maxw (0 : Fin pts.length → ℝ) = 0 := (Obj.maxw_eq_zero _).2 rfl
    simp [hm] at this
  have hm : mk lib a = some ⟨pts.map Prod.fst, pts.map Prod.snd, vals, pts, fun q => o.predict w (vec q)⟩ := by
    unfold mk
    rw [rectify_points hd hx hy h1 h2]
    simp only [hk]
    unfold mkRbf
    rw [if_pos hl, e0]
    simp only [f1]
  refine ⟨_, hm, rfl, rfl, ?_, o.p, List.ofFn w, e5, ?_, by simp, ?_⟩
  · intro i q v g1 g2
    obtain ⟨hi, rfl⟩ := List.getElem?_eq_some_iff.1 g1
    obtain ⟨hi', rfl⟩ := List.getElem?_eq_some_iff.1 g2
    have := f2 ⟨i, hi⟩
    rw [e1, e2] at this
    simpa [hi'] using this
  · intro p' h'
    rw [h'] at e0
    simp only [init, Option.some.injEq] at e0
    rw [← e0]
  · intro q
    show o.predict w (vec q) = _
    rw [Obj.predict_kv o e5 hw0, zipWith_sum]
    congr 1
    refine Finset.sum_congr rfl fun j _ => ?_
    rw [e1, e3, kv_radial k a.what hkw, sqd_vec]
    simp [mul_comm]

/-- **C171**, counterexample: values that are all zero. Any two or more different points: the object is made, and the
interpolant is nowhere a number. -/
theorem C171_zero_counterexample (lib : Lib) (hs : ∀ M, IsSolver (lib.solve M)) (a : In) (hw : IsRbfName a.what) (hr : a.r = some 0)
    (hp : a.p = .mean ∨ ∃ p, a.p = .num p ∧ p ≠ 0) (pts : List (ℝ × ℝ)) (vals : List ℝ) (hd : a.dd = none) (hx : a.xx = none) (hy : a.yy = none)
    (h1 : a.points = some pts) (h2 : a.values = some vals) (hl : vals.length = pts.length) (h2p : 2 ≤ pts.length) (hn : pts.Nodup)
    (hv : ∀ v ∈ vals, v = 0) : ∃ o, mk lib a = some o ∧ ∀ q, o.call q = none := by
  obtain ⟨k, hk, hkw⟩ := choose_rbf lib a hw pts vals
  obtain ⟨o, e0, e1, e2, e3, e4, e5⟩ := init_p _ (points_inj hn) h2p (fun i : Fin pts.length => vals.getD i 0) k a.r (lib.scipyP pts) a.p hp
  have hv' : ∀ i, o.values i = 0 := by
    intro i
    have hi : (i : Nat) < vals.length := by omega
    rw [e2]
    simpa [hi] using hv _ (List.getElem_mem hi)
  obtain ⟨w, f1, f2⟩ := Obj.C71_zero_counterexample (lstsq := lib.lstsq pts.length) o (hs pts.length) e5 (by rw [e4, hr]) (by rw [e1]; exact points_inj hn) hv'
  refine ⟨⟨pts.map Prod.fst, pts.map Prod.snd, vals, pts, fun q => o.predict w (vec q)⟩, ?_, fun q => f2 _⟩
  unfold mk
  rw [rectify_points hd hx hy h1 h2]
  simp only [hk]
  unfold mkRbf
  rw [if_pos hl, e0]
  simp only [f1]

theorem mk_coords {lib : Lib} {a : In} {o : Obj} {pts : List (ℝ × ℝ)} {vals : List ℝ} (hd : a.dd = none) (hx : a.xx = none)
    (hy : a.yy = none) (h1 : a.points = some pts) (h2 : a.values = some vals) (h : mk lib a = some o) :
    o.xx = pts.map Prod.fst ∧ o.yy = pts.map Prod.snd ∧ o.values = vals := by
  unfold mk at h
  rw [rectify_points hd hx hy h1 h2] at h
  simp only at h
  split at h
  · simp at h
  · simp only [Option.some.injEq] at h
    subst h
    exact ⟨rfl, rfl, rfl⟩

/-- **C171** (minimum). For an interpolator of any kind which takes the given values, and a minimiser that does not get worse:
without a start the value at the reported minimum is not larger than any of the values; with a start, not larger than the value there. -/
theorem C171_min (lib : Lib) (hf : Improves lib.fmin) (a : In) (pts : List (ℝ × ℝ)) (vals : List ℝ) (hd : a.dd = none) (hx : a.xx = none)
    (hy : a.yy = none) (h1 : a.points = some pts) (h2 : a.values = some vals) (hl : vals.length = pts.length) (o : Obj) (ho : mk lib a = some o) :
    (vals ≠ [] → Hits o.call pts vals → ∃ q m, o.getMin lib none = some q ∧ o.call q = some m ∧ ∀ v ∈ vals, m ≤ v) ∧
    (∀ x0 v0, o.call x0 = some v0 → ∃ q m, o.getMin lib (some x0) = some q ∧ o.call q = some m ∧ m ≤ v0) := by
  obtain ⟨e1, e2, e3⟩ := mk_coords hd hx hy h1 h2 ho
  constructor
  · intro hne hh
    have hlt := Num.argmin_lt vals hne
    have hlt' : Num.argmin vals < pts.length := by omega
    obtain ⟨m, g1, g2⟩ := hf o.call pts[Num.argmin vals] vals[Num.argmin vals]
      (hh _ _ _ (List.getElem?_eq_getElem hlt') (List.getElem?_eq_getElem hlt))
    refine ⟨lib.fmin o.call pts[Num.argmin vals], m, ?_, g1, ?_⟩
    · simp [Obj.getMin, e1, e2, e3, hne, hlt']
    · intro v hv
      obtain ⟨i, hi, rfl⟩ := List.getElem_of_mem hv
      have := Num.argmin_min vals i hi
      simp only [List.getD_eq_getElem?_getD, List.getElem?_eq_getElem hlt, List.getElem?_eq_getElem hi, Option.getD_some] at this
      linarith
  · intro x0 v0 h0
    obtain ⟨m, g1, g2⟩ := hf o.call x0 v0 h0
    exact ⟨_, m, rfl, g1, g2⟩

/-- **C171** (minimum, what is minimised). If the minimiser, given this interpolant, finds its smallest value from any start where it
is defined, then that is what `get_min` returns. -/
theorem C171_min_global (lib : Lib) (o : Obj) (hf : ∀ q, o.call q ≠ none → ∃ m, o.call (lib.fmin o.call q) = some m ∧
      ∀ q' v, o.call q' = some v → m ≤ v) (x0 : ℝ × ℝ) (h0 : o.call x0 ≠ none) :
    ∃ q m, o.getMin lib (some x0) = some q ∧ o.call q = some m ∧ ∀ q' v, o.call q' = some v → m ≤ v := by
  obtain ⟨m, g1, g2⟩ := hf x0 h0
  exact ⟨_, m, rfl, g1, g2⟩

open Classical in
/-- Exact solvers, an interpolator `nearest` which knows only its first point, and a minimiser that stays where it starts. -/
noncomputable def exLib : Lib where
  solve := fun _ A b => if A.det = 0 then none else some (A⁻¹.mulVec b)
  lstsq := fun _ A b => A⁻¹.mulVec b
  scipyP := fun _ => 1
  other := fun _ _ vals => some fun _ => vals[0]?
  fmin := fun _ q => q

/-- Non-vacuity: the libraries meet the hypotheses. -/
example : (∀ M, IsSolver (exLib.solve M)) ∧ Improves exLib.fmin :=
  ⟨fun M => by
      have := solver_exists M
      intro A b
      have h := this A b
      simp only [exLib]
      constructor
      · intro h0; simp [h0]
      · intro h0
        obtain ⟨x, e, hx⟩ := h.2 h0
        exact ⟨x, by simpa [h0] using e, hx⟩,
    fun f q v h => ⟨v, h, le_refl _⟩⟩

/-- Three points in the plane with the default interpolator. -/
noncomputable def exIn : In := { points := some [(0, 0), (1, 0), (0, 2)], values := some [3, 0, -1] }

/-- Non-vacuity: the hypotheses of `C171_rbf_partial` hold for the example; by it so do those of `C171_min`. -/
example (hs : ∀ M, IsSolver (exLib.solve M)) (hf : Improves exLib.fmin) :
    ∃ o q m, mk exLib exIn = some o ∧ o.call (0, 2) = some (-1) ∧ o.getMin exLib none = some q ∧ o.call q = some m ∧ m ≤ -1 := by
  obtain ⟨o, h, h1, h2, h3, -⟩ := C171_rbf_partial exLib hs exIn (Or.inr (Or.inl rfl)) rfl (Or.inl rfl) [(0, 0), (1, 0), (0, 2)] [3, 0, -1]
    rfl rfl rfl rfl rfl rfl (by simp) (by simp) ⟨3, by simp, by norm_num⟩
  obtain ⟨q, m, g1, g2, g3⟩ := (C171_min exLib hf exIn [(0, 0), (1, 0), (0, 2)] [3, 0, -1] rfl rfl rfl rfl rfl rfl o h).1 (by simp) h3
  exact ⟨o, q, m, h, h3 2 _ _ rfl rfl, g1, g2, g3 _ (by simp)⟩

/-- Non-vacuity of `C171_min_global`: a paraboloid and a minimiser that returns the origin. -/
example : ∃ q m, (⟨[0, 1], [0, 1], [0, 2], [(0, 0), (1, 1)], fun q => some (q.1 ^ 2 + q.2 ^ 2)⟩ : Obj).getMin
      { exLib with fmin := fun _ _ => (0, 0) } (some (1, 1)) = some q ∧ q.1 ^ 2 + q.2 ^ 2 = m ∧ ∀ a b : ℝ, m ≤ a ^ 2 + b ^ 2 := by
  obtain ⟨q, m, h1, h2, h3⟩ := C171_min_global { exLib with fmin := fun _ _ => (0, 0) }
    ⟨[0, 1], [0, 1], [0, 2], [(0, 0), (1, 1)], fun q => some (q.1 ^ 2 + q.2 ^ 2)⟩
    (fun q _ => ⟨0, by simp, fun q' v h => by
      simp only [Option.some.injEq] at h
      rw [← h]; positivity⟩) (1, 1) (by simp)
  exact ⟨q, m, h1, by simpa using h2, fun a b => h3 (a, b) _ rfl⟩

/-- Non-vacuity of the counterexample. -/
example (hs : ∀ M, IsSolver (exLib.solve M)) :
    ∃ o, mk exLib { exIn with values := some [0, 0, 0] } = some o ∧ ∀ q, o.call q = none :=
  C171_zero_counterexample exLib hs _ (Or.inr (Or.inl rfl)) rfl (Or.inl rfl) [(0, 0), (1, 0), (0, 2)] [0, 0, 0]
    rfl rfl rfl rfl rfl rfl (by simp) (by simp) (by simp)

/-- Non-vacuity of `C171_conflict`, `C171_unknown`. -/
example : mk exLib { exIn with xx := some [0, 1, 0] } = none ∧ mk exLib { exIn with what := "spline" } = none :=
  ⟨(C171_conflict exLib _ rfl).1 (by simp [exIn]) (by simp), C171_unknown exLib _ (by decide)⟩

end Pwtools.Interpol
