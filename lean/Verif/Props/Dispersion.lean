import Verif.Model.Dispersion
import Verif.Spec.Dispersion
import Verif.Props.Num
/-!
# C147: labels and curves of a dispersion plot
-/
namespace Pwtools.Dispersion
open Num Spec

theorem euclid_between {d : Nat} (a b : Fin d → ℝ) (j N : Nat) (hN : 1 ≤ N) :
    euclid (between a b j N) (between a b (j + 1) N) = euclid a b / N := by
  have hN' : (0 : ℝ) < N := by exact_mod_cast hN
  have h : ∀ i, (between a b j N i - between a b (j + 1) N i) ^ 2 = (a i - b i) ^ 2 * (1 / (N : ℝ)) ^ 2 := by
    intro i
    simp only [between]
    push_cast
    field_simp
    ring
  unfold euclid
  simp only [h]
  rw [← Finset.sum_mul, Real.sqrt_mul (Finset.sum_nonneg (fun i _ => sq_nonneg _)),
    Real.sqrt_sq (by positivity)]
  ring

/-- The values of `get_path_norm` are the norm of the first point plus the length of the way. -/
theorem pathNorm_way {d : Nat} (k0 : Fin d → ℝ) (rest : List (Fin d → ℝ)) :
    ∃ p, getPathNorm (k0 :: rest) = some p ∧ p.length = rest.length + 1 ∧
      ∀ i, i ≤ rest.length → p[i]? = some (vnorm k0 + wayLength (k0 :: rest) i) := by
  obtain ⟨p, h1, h2, h3, h4⟩ := getPathNorm_get k0 rest
  refine ⟨p, h1, h2, ?_⟩
  intro i
  induction i with
  | zero => intro _; rw [h3]; simp [wayLength]
  | succ i ih =>
    intro hi
    have hx := ih (by omega)
    have ha : (k0 :: rest)[i]? = some ((k0 :: rest)[i]'(by simp; omega)) := List.getElem?_eq_getElem _
    have hb : (k0 :: rest)[i + 1]? = some ((k0 :: rest)[i + 1]'(by simp; omega)) := List.getElem?_eq_getElem _
    have hy : p[i + 1]? = some (p[i + 1]'(by omega)) := List.getElem?_eq_getElem _
    rw [hy, h4 i _ _ _ _ ha hb hx hy, wayLength, ha, hb]
    simp [add_assoc]

/-- The fine path of `kpath`, all rows assigned. -/
theorem kpath_rows {d : Nat} (vecs : List (Fin d → ℝ)) (N : Nat) (hN : 1 ≤ N) (hK : 1 ≤ vecs.length) :
    ∃ rows : List (Fin d → ℝ), kpath vecs N = some (rows.map some) ∧
      rows.length = (vecs.length - 1) * N + 1 ∧
      ∀ i j a b, j ≤ N → vecs[i]? = some a → vecs[i + 1]? = some b →
        rows[i * N + j]? = some (between a b j N) := by
  obtain ⟨r, h1, h2, h3, h4⟩ := C21_kpath vecs N hN hK
  obtain ⟨r', h1', h5⟩ := C21_kpath_vertices vecs N hN hK
  rw [h1] at h1'
  cases h1'
  have hall : ∀ n, n < r.length → ∃ v, r[n]? = some (some v) := by
    intro n hn
    by_cases hl : n = (vecs.length - 1) * N
    · subst hl
      exact ⟨_, h5 (vecs.length - 1) _ (List.getElem?_eq_getElem (by omega))⟩
    · have hn2 : n / N + 1 < vecs.length := by
        have : n / N < vecs.length - 1 := Nat.div_lt_of_lt_mul (by rw [Nat.mul_comm]; omega)
        omega
      have := h3 (n / N) (n % N) _ _ (Nat.mod_lt _ hN) (List.getElem?_eq_getElem (by omega : n / N < vecs.length))
        (List.getElem?_eq_getElem hn2)
      rw [Nat.div_add_mod'] at this
      exact ⟨_, this⟩
  refine ⟨r.map (fun o => o.getD 0), ?_, by simpa using h2, ?_⟩
  · rw [h1, List.map_map]
    congr 1
    apply List.ext_getElem?
    intro n
    rw [List.getElem?_map]
    by_cases hn : n < r.length
    · obtain ⟨v, hv⟩ := hall n hn
      rw [hv]; rfl
    · rw [List.getElem?_eq_none (by omega)]; rfl
  · intro i j a b hj ha hb
    rw [List.getElem?_map]
    rcases Nat.lt_or_eq_of_le hj with hj | rfl
    · rw [h3 i j a b hj ha hb]; rfl
    · have h6 := h5 (i + 1) b hb
      rw [Nat.succ_mul] at h6
      rw [h6]
      simp only [Option.map_some, Option.getD_some]
      congr 1
      funext m
      have : (j : ℝ) ≠ 0 := by exact_mod_cast (by omega : j ≠ 0)
      simp [between, this]

/-- The way along the fine path is as long as the way along the vertices. -/
theorem way_fine {d : Nat} (vecs rows : List (Fin d → ℝ)) (N : Nat) (hN : 1 ≤ N)
    (h : ∀ i j a b, j ≤ N → vecs[i]? = some a → vecs[i + 1]? = some b →
        rows[i * N + j]? = some (between a b j N)) (i : Nat) (hi : i < vecs.length) :
    wayLength rows (i * N) = wayLength vecs i := by
  induction i with
  | zero => simp [wayLength]
  | succ i ih =>
    have ha : vecs[i]? = some (vecs[i]'(by omega)) := List.getElem?_eq_getElem _
    have hb : vecs[i + 1]? = some (vecs[i + 1]'hi) := List.getElem?_eq_getElem _
    have key : ∀ j, j ≤ N → wayLength rows (i * N + j) =
        wayLength vecs i + j * (euclid (vecs[i]'(by omega)) (vecs[i + 1]'hi) / N) := by
      intro j
      induction j with
      | zero => intro _; simpa using ih (by omega)
      | succ j ihj =>
        intro hj
        rw [← Nat.add_assoc, wayLength, ihj (by omega), h i j _ _ (by omega) ha hb, Nat.add_assoc,
          h i (j + 1) _ _ hj ha hb]
        simp only [euclid_between _ _ _ _ hN]
        push_cast; ring
    have hN' : (N : ℝ) ≠ 0 := by exact_mod_cast (by omega : N ≠ 0)
    rw [Nat.succ_mul, key N (le_refl N), wayLength, ha, hb]
    simp only
    field_simp

/-- **C147** (labels sit at their points, part that holds). Special points `vecs` (with fractional
coordinates and one symbol each, which both have to be given, see `C147_frac_required_counterexample`), a fine path
made of them by `kpath` with `N ≥ 1`, and frequencies, one row per point of the fine path. Then
`plot_dis` draws all frequencies; tick number `i` carries symbol number `i` and has the x value at
which the frequencies of special point `i` are drawn, which is point `i*N` of the fine path; vertical
lines are drawn at just these x values, over the range `ylim` if given; the x axis ranges from the first to the last special point.
Missing: the case without special points, see `C147_no_special_points_counterexample`. -/
theorem C147_labels_partial (fmt : ℝ → Text) (auto : ℝ × ℝ) (vecs frac : List V3) (symbols : List Text) (N : Nat)
    (freqs : List (List ℝ)) (dos : Option (List (ℝ × ℝ))) (ylim : Option (ℝ × ℝ))
    (hN : 1 ≤ N) (hK : 1 ≤ vecs.length) (hs : symbols.length = vecs.length)
    (hf : freqs.length = (vecs.length - 1) * N + 1) :
    ∃ (fine : List V3) (x : List ℝ) (spp : SpecialPoints) (fig : Figure),
      kpath vecs N = some (fine.map some) ∧ getPathNorm fine = some x ∧
      specialPointsPath (some vecs) (some frac) (some symbols) = .ok spp ∧
      plotDis fmt auto x freqs (some spp) .no dos ylim = .ok fig ∧
      fig.curveX = x ∧ fig.curveY = freqs ∧ fig.ticks.length = vecs.length ∧
      fig.vlines = fig.ticks.map Prod.fst ∧ (∀ yl, ylim = some yl → fig.vlinesLim = yl) ∧
      (ylim = none → fig.vlinesLim = auto) ∧
      (∀ i v s, vecs[i]? = some v → symbols[i]? = some s →
        ∃ xi, fig.ticks[i]? = some (xi, s) ∧ fig.curveX[i * N]? = some xi ∧ fine[i * N]? = some v) ∧
      fig.ticks.head?.map Prod.fst = some fig.xlim.1 ∧ fig.ticks.getLast?.map Prod.fst = some fig.xlim.2 := by
  obtain ⟨fine, h1, h2, h3⟩ := kpath_rows vecs N hN hK
  have hfv : ∀ i v, vecs[i]? = some v → fine[i * N]? = some v := by
    obtain ⟨r', h1', h5⟩ := C21_kpath_vertices vecs N hN hK
    rw [h1] at h1'
    cases h1'
    intro i v hv
    have := h5 i v hv
    rw [List.getElem?_map] at this
    rcases hfi : fine[i * N]? with _ | w
    · rw [hfi] at this; cases this
    · rw [hfi] at this; simpa using this
  rcases vecs with _ | ⟨v0, vrest⟩
  · simp at hK
  rcases fine with _ | ⟨f0, frest⟩
  · simp at h2
  have h0 : f0 = v0 := by
    have := hfv 0 v0 rfl
    simpa using this
  subst h0
  obtain ⟨x, hx1, hx2, hx3⟩ := pathNorm_way f0 frest
  obtain ⟨q, hq1, hq2, hq3⟩ := pathNorm_way f0 vrest
  have hfl : frest.length = vrest.length * N := by simpa using h2
  have hvx : ∀ i, i ≤ vrest.length → x[i * N]? = q[i]? := by
    intro i hi
    rw [hq3 i hi, hx3 (i * N) (by rw [hfl]; exact Nat.mul_le_mul_right _ hi),
      way_fine _ _ N hN h3 i (by simp; omega)]
  have hsl : symbols.length = vrest.length + 1 := by simpa using hs
  have hxh : x.head? = q.head? := by
    have := hvx 0 (by omega)
    simpa [List.head?_eq_getElem?] using this
  have hxl : x.getLast? = q.getLast? := by
    rw [List.getLast?_eq_getElem?, List.getLast?_eq_getElem?, hx2, hq2]
    have := hvx vrest.length (le_refl _)
    rw [← hfl] at this
    simpa using this
  obtain ⟨x0, hx0⟩ : ∃ a, q.head? = some a := ⟨_, List.head?_eq_some_head (by rintro rfl; simp at hq2)⟩
  obtain ⟨x1, hx1'⟩ : ∃ a, q.getLast? = some a := ⟨_, List.getLast?_eq_some_getLast (by rintro rfl; simp at hq2)⟩
  refine ⟨f0 :: frest, x, ⟨f0 :: vrest, frac, some symbols, q⟩,
    ⟨x, freqs, q, ylim.getD auto, List.zip q symbols, (x0, x1), dos.map (fun rows => rows.map (fun r => (r.2, r.1)))⟩,
    h1, hx1, ?_, ?_, rfl, rfl, ?_, ?_, by rintro yl rfl; rfl, by rintro rfl; rfl, ?_, ?_, ?_⟩
  · simp [specialPointsPath, hq1]
  · unfold plotDis
    rw [if_neg (by rw [hx2, hf, hfl]; simp)]
    simp only [labelsOf]
    rw [if_neg (by rw [hq2, hsl]; simp), hxh, hxl, hx0, hx1']
  · simp [hq2, hsl]
  · rw [List.map_fst_zip (by omega)]
  · intro i v s hv hsy
    have hi : i ≤ vrest.length := by
      have := (List.getElem?_eq_some_iff.1 hv).1
      simp at this; omega
    refine ⟨q[i]'(by omega), ?_, ?_, hfv i v hv⟩
    · rw [List.getElem?_zip_eq_some]
      exact ⟨List.getElem?_eq_getElem _, hsy⟩
    · simp only []
      rw [hvx i hi]
      exact List.getElem?_eq_getElem _
  · simp only []
    rw [← List.head?_map, List.map_fst_zip (by omega), hx0]
  · simp only []
    rw [← List.getLast?_map, List.map_fst_zip (by omega), hx1']

/-- **C147** (distances on the x axis). Between two ticks the x axis is as long as the straight way
between the two special points. -/
theorem C147_tick_distance (ks frac : List V3) (symbols : Option (List Text)) (spp : SpecialPoints)
    (h : specialPointsPath (some ks) (some frac) symbols = .ok spp) (i : Nat) (a b : V3) (x y : ℝ)
    (ha : ks[i]? = some a) (hb : ks[i + 1]? = some b) (hx : spp.pathNorm[i]? = some x)
    (hy : spp.pathNorm[i + 1]? = some y) : y - x = euclid a b := by
  rcases ks with _ | ⟨k0, rest⟩
  · simp at ha
  obtain ⟨p, h1, h2, h3, h4⟩ := getPathNorm_get k0 rest
  simp only [specialPointsPath, h1, Except.ok.injEq] at h
  subst h
  rw [h4 i a b x y ha hb hx hy]; ring

/-- **C147** (coordinates in the labels). With `show_coords='cart'` the ticks are at the same places
and their labels are the symbol and the coordinates of the same special point, with
`show_coords='frac'` its fractional coordinates. -/
theorem C147_coords (fmt : ℝ → Text) (auto : ℝ × ℝ) (x : List ℝ) (freqs : List (List ℝ)) (spp : SpecialPoints)
    (symbols : List Text) (dos : Option (List (ℝ × ℝ))) (ylim : Option (ℝ × ℝ)) (fig : Figure)
    (hsym : spp.symbols = some symbols) (hl : spp.ks.length = symbols.length) (hlf : spp.ksFrac.length = symbols.length)
    (h : plotDis fmt auto x freqs (some spp) .no dos ylim = .ok fig) :
    ∃ figc figf, plotDis fmt auto x freqs (some spp) .cart dos ylim = .ok figc ∧
      plotDis fmt auto x freqs (some spp) .frac dos ylim = .ok figf ∧
      (∀ (i : Nat) (xi : ℝ) (s : Text) (k kf : V3), fig.ticks[i]? = some (xi, s) → spp.ks[i]? = some k → spp.ksFrac[i]? = some kf →
        figc.ticks[i]? = some (xi, labelWithCoords fmt s k) ∧
        figf.ticks[i]? = some (xi, labelWithCoords fmt s kf)) ∧
      figc.ticks.length = fig.ticks.length ∧ figf.ticks.length = fig.ticks.length ∧
      { figc with ticks := fig.ticks } = fig ∧ { figf with ticks := fig.ticks } = fig := by
  have hc : ∀ s k, coordText fmt s k = labelWithCoords fmt s k := by
    intro s k
    simp [coordText, labelWithCoords, seq2str, joinSep, List.ofFn_succ, List.append_assoc]
  unfold plotDis at h ⊢
  by_cases hlen : x.length ≠ freqs.length
  · rw [if_pos hlen] at h; cases h
  rw [if_neg hlen] at h ⊢
  rw [if_neg hlen]
  simp only [labelsOf, hsym] at h ⊢
  by_cases hn : spp.pathNorm.length ≠ symbols.length
  · rw [if_pos hn] at h; cases h
  rw [if_neg hn] at h
  have hzc : ¬ spp.pathNorm.length ≠ (List.zipWith (coordText fmt) symbols spp.ks).length := by
    rw [List.length_zipWith]; omega
  have hzf : ¬ spp.pathNorm.length ≠ (List.zipWith (coordText fmt) symbols spp.ksFrac).length := by
    rw [List.length_zipWith]; omega
  rw [if_neg hzc, if_neg hzf]
  rcases hh : x.head? with _ | x0
  · rw [hh] at h; cases h
  rcases hg : x.getLast? with _ | x1
  · rw [hh, hg] at h; cases h
  rw [hh, hg] at h
  simp only [Except.ok.injEq] at h ⊢
  subst h
  refine ⟨_, _, rfl, rfl, ?_, ?_, ?_, rfl, rfl⟩
  · intro i xi s k kf ht hk hkf
    rw [List.getElem?_zip_eq_some] at ht
    simp only [List.getElem?_zip_eq_some, List.getElem?_zipWith, ht.1, ht.2, hk, hkf, Option.map_some, hc]
    simp
  · simp only [List.length_zip, List.length_zipWith]; omega
  · simp only [List.length_zip, List.length_zipWith]; omega

/-- **C147** (density of states). The second axes exist exactly if a density of states is given; its
points have the frequency (first column) on the shared y axis. -/
theorem C147_dos (fmt : ℝ → Text) (auto : ℝ × ℝ) (x : List ℝ) (freqs : List (List ℝ)) (spp : Option SpecialPoints)
    (sh : Show) (dos : Option (List (ℝ × ℝ))) (ylim : Option (ℝ × ℝ)) (fig : Figure)
    (h : plotDis fmt auto x freqs spp sh dos ylim = .ok fig) :
    (fig.axdos = none ↔ dos = none) ∧
    ∀ rows pts, dos = some rows → fig.axdos = some pts → pts.length = rows.length ∧
      ∀ (i : Nat) (r p : ℝ × ℝ), rows[i]? = some r → pts[i]? = some p → p.1 = r.2 ∧ p.2 = r.1 := by
  have hax : fig.axdos = dos.map (fun rows => rows.map (fun r => (r.2, r.1))) := by
    unfold plotDis at h
    by_cases hlen : x.length ≠ freqs.length
    · rw [if_pos hlen] at h; cases h
    rw [if_neg hlen] at h
    rcases spp with _ | spp
    · cases h
    rcases hlab : labelsOf fmt spp sh with e | labels
    · simp only [hlab] at h; cases h
    simp only [hlab] at h
    by_cases hn : spp.pathNorm.length ≠ labels.length
    · rw [if_pos hn] at h; cases h
    rw [if_neg hn] at h
    rcases hh : x.head? with _ | x0
    · rw [hh] at h; cases h
    rcases hg : x.getLast? with _ | x1
    · rw [hh, hg] at h; cases h
    rw [hh, hg] at h
    simp only [Except.ok.injEq] at h
    subst h
    rfl
  rw [hax]
  refine ⟨by cases dos <;> simp, ?_⟩
  rintro rows pts rfl hp
  simp only [Option.map_some, Option.some.injEq] at hp
  subst hp
  refine ⟨by simp, ?_⟩
  intro i r p hr hp
  rw [List.getElem?_map, hr] at hp
  simp only [Option.map_some, Option.some.injEq] at hp
  subst hp
  exact ⟨rfl, rfl⟩

/-- **C147** fails without special points: `special_points_path` is documented as optional, but
without it every call raises, because `axdos` is returned and never assigned. -/
theorem C147_no_special_points_counterexample (fmt : ℝ → Text) (auto : ℝ × ℝ) (x : List ℝ) (freqs : List (List ℝ))
    (sh : Show) (dos : Option (List (ℝ × ℝ))) (ylim : Option (ℝ × ℝ)) (hl : x.length = freqs.length) :
    plotDis fmt auto x freqs none sh dos ylim = .error .unboundLocalError := by
  simp [plotDis, hl]

/-- **C147** fails without fractional coordinates: they are documented as optional, but without them
every call of the constructor fails an assertion, also the one in the example of the docstring of
`plot_dis`. -/
theorem C147_frac_required_counterexample (ks : Option (List V3)) (symbols : Option (List Text)) :
    specialPointsPath ks none symbols = .error .assertionError := by
  cases ks <;> rfl

/-- **C147** (`symbols` is needed to plot). Without symbols the object can be made but not
plotted. -/
theorem C147_symbols_required (fmt : ℝ → Text) (auto : ℝ × ℝ) (ks frac : List V3) (hk : ks ≠ []) :
    ∃ spp, specialPointsPath (some ks) (some frac) none = .ok spp ∧
      ∀ x freqs sh dos ylim, ∃ e, plotDis fmt auto x freqs (some spp) sh dos ylim = .error e := by
  rcases ks with _ | ⟨k0, rest⟩
  · exact absurd rfl hk
  obtain ⟨p, h1, h2, h3, h4⟩ := getPathNorm_get k0 rest
  refine ⟨_, by simp only [specialPointsPath, h1]; rfl, ?_⟩
  intro x freqs sh dos ylim
  unfold plotDis
  split
  · exact ⟨_, rfl⟩
  · cases sh <;> exact ⟨_, rfl⟩

/-- Non-vacuity of `C147_labels_partial`: three special points, 4 points per segment: the label of
the second special point is at the x value of point number 4, which is that special point. -/
example : ∃ (fine : List V3) (x : List ℝ) (spp : SpecialPoints) (fig : Figure),
    kpath [![0, 0, 0], ![1, 0, 0], ![1, 2, 0]] 4 = some (fine.map some) ∧ getPathNorm fine = some x ∧
    plotDis (fun _ => []) (0, 1) x (List.replicate 9 [1, 2]) (some spp) .no none none = .ok fig ∧
    ∃ xi, fig.ticks[1]? = some (xi, "X".toList) ∧ fig.curveX[4]? = some xi ∧ fine[4]? = some ![1, 0, 0] := by
  obtain ⟨fine, x, spp, fig, h1, h2, _, h4, _, _, _, _, _, _, h9, _⟩ :=
    C147_labels_partial (fun _ => []) (0, 1) [![0, 0, 0], ![1, 0, 0], ![1, 2, 0]] []
      ["G".toList, "X".toList, "M".toList] 4 (List.replicate 9 [1, 2]) none none
      (by decide) (by simp) (by simp) (by simp)
  exact ⟨fine, x, spp, fig, h1, h2, h4, h9 1 _ _ rfl rfl⟩

/-- Non-vacuity of `C147_coords`, `C147_dos` and `C147_tick_distance`: a plot of two special points
with a density of states. -/
example : ∃ (spp : SpecialPoints) (figc : Figure) (x : List ℝ),
    specialPointsPath (some [![0, 0, 0], ![3, 4, 0]]) (some [![0, 0, 0], ![1/2, 1/2, 0]])
      (some ["G".toList, "X".toList]) = .ok spp ∧
    plotDis (fun _ => "0".toList) (0, 1) x (List.replicate 3 [1]) (some spp) .cart (some [(1, 2)]) none = .ok figc ∧
    figc.axdos = some [(2, 1)] := by
  obtain ⟨fine, x, spp, fig, _, _, h3, h4, _⟩ :=
    C147_labels_partial (fun _ => "0".toList) (0, 1) [![0, 0, 0], ![3, 4, 0]] [![0, 0, 0], ![1/2, 1/2, 0]]
      ["G".toList, "X".toList] 2 (List.replicate 3 [1]) (some [(1, 2)]) none
      (by decide) (by simp) (by simp) (by simp)
  have hspp := h3
  obtain ⟨p, h1, _⟩ := getPathNorm_get (![0, 0, 0] : V3) [![3, 4, 0]]
  simp only [specialPointsPath, h1, Except.ok.injEq] at hspp
  subst hspp
  obtain ⟨figc, figf, hc, _⟩ := C147_coords (fun _ => "0".toList) (0, 1) x (List.replicate 3 [1]) _
    ["G".toList, "X".toList] (some [(1, 2)]) none fig rfl (by simp) (by simp) h4
  refine ⟨_, figc, x, h3, hc, ?_⟩
  obtain ⟨hd, he⟩ := C147_dos _ _ _ _ _ _ _ _ figc hc
  rcases hax : figc.axdos with _ | pts
  · exact absurd (hd.1 hax) (by simp)
  · obtain ⟨hl, hp⟩ := he _ pts rfl hax
    rcases pts with _ | ⟨q, _ | ⟨q', t⟩⟩
    · simp at hl
    · obtain ⟨a, b⟩ := hp 0 (1, 2) q rfl rfl
      have : q = (2, 1) := Prod.ext a b
      rw [this]
    · simp at hl

end Pwtools.Dispersion
