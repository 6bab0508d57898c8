import Verif.Model.RandomStruct
import Verif.Spec.RandomStruct
import Verif.Props.Pbc
import Verif.Props.Cell2
import Mathlib.Analysis.Real.Pi.Bounds
/-!
# Random structures (C92)
-/
namespace Pwtools.Rnd
open Pwtools.Cry Pwtools.Spec

/-! ## distances -/

theorem minImg_loops (s : ℝ) : MinImageF s (minImg s) := by
  rw [minImageF_char]
  unfold minImg
  have h1 := Int.floor_le (s + 1 / 2)
  have h2 := Int.lt_floor_add_one (s + 1 / 2)
  refine ⟨⟨by linarith, by linarith⟩, -⌊s + 1 / 2⌋, by push_cast; ring⟩

theorem isDist_dist (cell : Cell) (x y : V3) : IsDist cell true x y (dist cell x y) :=
  ⟨fun k => minImg (x k - y k), by simpa [DistVecFrac] using fun k => minImg_loops _, rfl⟩

theorem isDist_iff (cell : Cell) (x y : V3) (d : ℝ) : IsDist cell true x y d ↔ d = dist cell x y :=
  ⟨fun h => (C37_dist_exists cell true x y).unique h (isDist_dist cell x y), fun h => h ▸ isDist_dist cell x y⟩

theorem latticeDist_eq (cell : Cell) (x y : V3) (n : Fin 3 → Int) :
    latticeDist cell x y n = Cry.norm (frac2cart cell (image x y fun k => - n k)) := by
  unfold latticeDist Cry.norm dot
  congr 1
  apply Finset.sum_congr rfl
  intro k _
  have : (∑ i, (x i - (y i + (n i : ℝ))) * cell i k) = frac2cart cell (image x y fun k => - n k) k := by
    unfold frac2cart image Matrix.vecMul dotProduct
    apply Finset.sum_congr rfl
    intro i _
    push_cast
    ring
  rw [this, sq]

theorem latticeDist_swap (cell : Cell) (x y : V3) (n : Fin 3 → Int) : latticeDist cell x y n = latticeDist cell y x (fun k => - n k) := by
  unfold latticeDist
  congr 1
  apply Finset.sum_congr rfl
  intro k _
  have : (∑ i, (x i - (y i + (n i : ℝ))) * cell i k) = - ∑ i, (y i - (x i + ((- n i : Int) : ℝ))) * cell i k := by
    rw [← Finset.sum_neg_distrib]
    apply Finset.sum_congr rfl
    intro i _
    push_cast
    ring
  rw [this, neg_sq]

/-- The computed distance is the smallest one up to `rmax_smith`. -/
theorem dist_images (cell : Cell) (h : cell.det ≠ 0) (x y : V3) (d : ℝ) (hd : d ≤ dist cell x y) (n : Fin 3 → Int) :
    min d (rmaxSmith cell) ≤ latticeDist cell x y n := by
  rw [latticeDist_eq]
  by_contra hc
  rw [not_le] at hc
  have h1 := lt_of_lt_of_le hc (min_le_right _ _)
  have h2 := lt_of_lt_of_le hc (min_le_left _ _)
  have := (C37_exact cell h x y _ h1).1 _ (isDist_dist cell x y)
  linarith

/-! ## the loops -/

section
variable {rs : RS} {rnd : Nat → ℝ}

theorem getCC_ok {fuel cnt pos : Nat} {cc : CrystConst} {c p : Nat} (h : getCC rs rnd fuel cnt pos = .ok (cc, c, p)) :
    (∃ q, cc = drawCC rs rnd q) ∧ 0 ≤ ccRoot cc ∧ (rs.volRange.1 ≤ volumeCc cc ∧ volumeCc cc ≤ rs.volRange.2) ∧ cnt ≤ c ∧ c < cnt + fuel := by
  induction fuel generalizing cnt pos with
  | zero => simp [getCC] at h
  | succ fuel ih =>
    unfold getCC at h
    simp only at h
    split at h
    · simp at h
    · rename_i hroot
      split at h
      · obtain ⟨a1, a2, a3, a4, a5⟩ := ih h
        exact ⟨a1, a2, a3, by omega, by omega⟩
      · rename_i hvol
        simp only [Except.ok.injEq, Prod.mk.injEq] at h
        obtain ⟨rfl, rfl, rfl⟩ := h
        exact ⟨⟨pos, rfl⟩, not_lt.1 hroot, not_not.1 hvol, le_refl _, by omega⟩

theorem getCC_error {fuel cnt pos : Nat} {e : RErr} (h : getCC rs rnd fuel cnt pos = .error e) :
    (e = .fail ∧ ∀ k < fuel, ¬ (rs.volRange.1 ≤ volumeCc (drawCC rs rnd (pos + 12 * k)) ∧ volumeCc (drawCC rs rnd (pos + 12 * k)) ≤ rs.volRange.2)) ∨
    (e = .domain ∧ ∃ q, ccRoot (drawCC rs rnd q) < 0) := by
  induction fuel generalizing cnt pos with
  | zero =>
    simp only [getCC, Except.error.injEq] at h
    exact Or.inl ⟨h.symm, by omega⟩
  | succ fuel ih =>
    unfold getCC at h
    simp only at h
    split at h
    · rename_i hroot
      simp only [Except.error.injEq] at h
      exact Or.inr ⟨h.symm, pos, hroot⟩
    · split at h
      · rename_i hvol
        rcases ih h with ⟨rfl, h1⟩ | h1
        · refine Or.inl ⟨rfl, fun k hk => ?_⟩
          cases k with
          | zero => simpa using hvol
          | succ k =>
            have := h1 k (by omega)
            rwa [show pos + 12 + 12 * k = pos + 12 * (k + 1) by ring] at this
        · exact Or.inr h1
      · simp at h

theorem getCC_first {fuel : Nat} (cnt pos : Nat) (hf : 0 < fuel) (h0 : 0 ≤ ccRoot (drawCC rs rnd pos))
    (hv : rs.volRange.1 ≤ volumeCc (drawCC rs rnd pos) ∧ volumeCc (drawCC rs rnd pos) ≤ rs.volRange.2) :
    getCC rs rnd fuel cnt pos = .ok (drawCC rs rnd pos, cnt, pos + 6) := by
  obtain ⟨f, rfl⟩ : ∃ f, fuel = f + 1 := ⟨fuel - 1, by omega⟩
  unfold getCC
  simp only
  rw [if_neg (not_lt.2 h0), if_neg (not_not.2 hv)]

theorem tryAtom_spec (cell : Cell) (coords : List V3) (fuel cnt pos : Nat) :
    ((tryAtom rs cell rnd coords fuel cnt pos).1 = none ∧ (tryAtom rs cell rnd coords fuel cnt pos).2.1 = cnt + fuel ∧
      ∀ k < fuel, TooClose rs cell (coords ++ [rand3 rnd (pos + 6 * k)])) ∨
    ∃ q, (tryAtom rs cell rnd coords fuel cnt pos).1 = some (rand3 rnd q) ∧ ¬ TooClose rs cell (coords ++ [rand3 rnd q]) ∧
      cnt ≤ (tryAtom rs cell rnd coords fuel cnt pos).2.1 ∧ (tryAtom rs cell rnd coords fuel cnt pos).2.1 < cnt + fuel := by
  induction fuel generalizing cnt pos with
  | zero => exact Or.inl ⟨rfl, rfl, by omega⟩
  | succ fuel ih =>
    unfold tryAtom
    simp only
    split
    · rename_i hc
      rcases ih (cnt + 1) (pos + 6) with ⟨h1, h2, h3⟩ | ⟨q, h1, h2, h3, h4⟩
      · refine Or.inl ⟨h1, by omega, fun k hk => ?_⟩
        cases k with
        | zero => simpa using hc
        | succ k =>
          have := h3 k (by omega)
          rwa [show pos + 6 + 6 * k = pos + 6 * (k + 1) by ring] at this
      · exact Or.inr ⟨q, h1, h2, by omega, by omega⟩
    · rename_i hc
      exact Or.inr ⟨pos, rfl, hc, le_refl _, by simp⟩

/-- What holds after each atom. -/
structure Inv (rs : RS) (rnd : Nat → ℝ) (cell : Cell) (coords : List V3) (cnts : List Nat) : Prop where
  far : ¬ TooClose rs cell coords
  drawn : ∀ x ∈ coords, ∃ q, x = rand3 rnd q
  counts : ∀ c ∈ cnts, 1 ≤ c ∧ c ≤ rs.atomMaxtry
  length : cnts.length = coords.length

theorem not_close_one (cell : Cell) (x : V3) : ¬ TooClose rs cell [x] := by
  rintro ⟨i, j, h1, h2, -⟩
  simp at h2
  omega

theorem place_ok (cell : Cell) (n : Nat) {coords : List V3} {cnts : List Nat} {pos : Nat} (hi : Inv rs rnd cell coords cnts)
    {coords' : List V3} {cnts' : List Nat} {p : Nat} (h : place rs cell rnd n coords cnts pos = .ok (coords', cnts', p)) :
    Inv rs rnd cell coords' cnts' ∧ coords'.length = coords.length + n := by
  induction n generalizing coords cnts pos with
  | zero =>
    simp only [place, Except.ok.injEq, Prod.mk.injEq] at h
    obtain ⟨rfl, rfl, rfl⟩ := h
    exact ⟨hi, rfl⟩
  | succ n ih =>
    unfold place at h
    simp only at h
    by_cases h0 : coords.length = 0
    · have hn : coords = [] := List.eq_nil_of_length_eq_zero h0
      rw [if_pos h0] at h
      split at h
      · simp at h
      · rename_i hm
        have hm : 1 ≤ rs.atomMaxtry := not_lt.1 hm
        have hi' : Inv rs rnd cell (coords ++ [rand3 rnd pos]) (cnts ++ [1]) := by
          refine ⟨?_, ?_, ?_, by simp [hi.length]⟩
          · rw [hn]; exact not_close_one cell _
          · intro x hx
            rcases List.mem_append.1 hx with hx | hx
            · exact hi.drawn x hx
            · exact ⟨pos, List.mem_singleton.1 hx⟩
          · intro c hc
            rcases List.mem_append.1 hc with hc | hc
            · exact hi.counts c hc
            · rw [List.mem_singleton.1 hc]; exact ⟨le_refl _, hm⟩
        obtain ⟨g1, g2⟩ := ih hi' h
        exact ⟨g1, by rw [g2, List.length_append, List.length_singleton]; omega⟩
    · rw [if_neg h0] at h
      split at h
      · simp at h
      · rename_i hm
        rcases tryAtom_spec (rs := rs) (rnd := rnd) cell coords rs.atomMaxtry 1 pos with ⟨-, t2, -⟩ | ⟨q, t1, t2, t3, t4⟩
        · omega
        · rw [t1] at h
          have hi' : Inv rs rnd cell (coords ++ [rand3 rnd q]) (cnts ++ [(tryAtom rs cell rnd coords rs.atomMaxtry 1 pos).2.1]) := by
            refine ⟨t2, ?_, ?_, by simp [hi.length]⟩
            · intro x hx
              rcases List.mem_append.1 hx with hx | hx
              · exact hi.drawn x hx
              · exact ⟨q, List.mem_singleton.1 hx⟩
            · intro c hc
              rcases List.mem_append.1 hc with hc | hc
              · exact hi.counts c hc
              · rw [List.mem_singleton.1 hc]; exact ⟨t3, by omega⟩
          obtain ⟨g1, g2⟩ := ih hi' h
          exact ⟨g1, by rw [g2, List.length_append, List.length_singleton]; omega⟩

theorem place_first (cell : Cell) (n pos : Nat) (h : 0 < rs.atomMaxtry) :
    place rs cell rnd (n + 1) [] [] pos = place rs cell rnd n [rand3 rnd pos] [1] (pos + 3) := by
  rw [place]
  simp only [List.length_nil, if_true]
  rw [if_neg (not_lt.2 h)]
  rfl

theorem place_next (cell : Cell) (n pos : Nat) (coords : List V3) (cnts : List Nat) (h0 : coords ≠ []) (x : V3) (c p : Nat)
    (ht : tryAtom rs cell rnd coords rs.atomMaxtry 1 pos = (some x, c, p)) (hc : c ≤ rs.atomMaxtry) :
    place rs cell rnd (n + 1) coords cnts pos = place rs cell rnd n (coords ++ [x]) (cnts ++ [c]) p := by
  have hl : ¬ coords.length = 0 := fun h => h0 (List.eq_nil_of_length_eq_zero h)
  rw [place]
  simp only [hl, if_false, ht, if_neg (not_lt.2 hc), Option.getD_some]

theorem place_error (cell : Cell) (n : Nat) {coords : List V3} {cnts : List Nat} {pos : Nat} {e : RErr}
    (h : place rs cell rnd n coords cnts pos = .error e) :
    e = .fail ∧ (rs.atomMaxtry = 0 ∨ ∃ coords' pos', coords'.length < coords.length + n ∧
      ∀ k < rs.atomMaxtry, TooClose rs cell (coords' ++ [rand3 rnd (pos' + 6 * k)])) := by
  induction n generalizing coords cnts pos with
  | zero => simp [place] at h
  | succ n ih =>
    unfold place at h
    simp only at h
    have step : ∀ x c p, place rs cell rnd n (coords ++ [x]) c p = .error e → e = .fail ∧ (rs.atomMaxtry = 0 ∨ ∃ coords' pos',
        coords'.length < coords.length + (n + 1) ∧ ∀ k < rs.atomMaxtry, TooClose rs cell (coords' ++ [rand3 rnd (pos' + 6 * k)])) := by
      intro x c p hp
      obtain ⟨h1, h2⟩ := ih hp
      refine ⟨h1, h2.imp_right ?_⟩
      rintro ⟨cs, q, h3, h4⟩
      refine ⟨cs, q, ?_, h4⟩
      rw [List.length_append, List.length_singleton] at h3
      omega
    by_cases h0 : coords.length = 0
    · rw [if_pos h0] at h
      split at h
      · rename_i hm
        simp only [Except.error.injEq] at h
        exact ⟨h.symm, Or.inl (by simpa using hm)⟩
      · exact step _ _ _ h
    · rw [if_neg h0] at h
      split at h
      · rename_i hm
        simp only [Except.error.injEq] at h
        rcases tryAtom_spec (rs := rs) (rnd := rnd) cell coords rs.atomMaxtry 1 pos with ⟨-, -, t3⟩ | ⟨q, t1, t2, t3, t4⟩
        · exact ⟨h.symm, Or.inr ⟨coords, pos, by omega, t3⟩⟩
        · omega
      · exact step _ _ _ h

end

/-! ## parameters -/

/-- Settings which make sense (the defaults do). -/
structure Sensible (a : Args) (radii : List ℝ) : Prop where
  radii : ∀ r ∈ radii, 0 < r
  atoms : a.symbols ≠ []
  vol : 0 < a.volScale ∧ 0 < a.volRangeScale.1
  len : 0 < a.lengthRangeScale.1 ∧ a.lengthRangeScale.1 ≤ a.lengthRangeScale.2
  ang : 0 < a.angleRange.1 ∧ a.angleRange.1 ≤ a.angleRange.2 ∧ a.angleRange.2 < 180

theorem uniform_range (r : ℝ × ℝ) (hr : r.1 ≤ r.2) (u : ℝ) (hu : 0 ≤ u ∧ u < 1) : r.1 ≤ uniform r u ∧ uniform r u ≤ r.2 := by
  unfold uniform
  constructor <;> nlinarith [hu.1, hu.2]

theorem init_eq {covRad : String → Option ℝ} {a : Args} {rs : RS} {radii : List ℝ} (hr : a.symbols.mapM covRad = some radii)
    (h : init covRad a = .ok rs) :
    rs = { symbols := a.symbols, angleRange := a.angleRange, cellMaxtry := a.cellMaxtry, atomMaxtry := a.atomMaxtry,
           dijMin := fun i j => (radii.getD j 0 + radii.getD i 0) * a.closeScale,
           volRange := (meanVolume radii a.volScale * a.volRangeScale.1, meanVolume radii a.volScale * a.volRangeScale.2),
           lengthRange := (meanVolume radii a.volScale ^ (1 / 3 : ℝ) * a.lengthRangeScale.1,
             meanVolume radii a.volScale ^ (1 / 3 : ℝ) * a.lengthRangeScale.2) } := by
  unfold init at h
  rw [hr] at h
  simp only [Except.ok.injEq] at h
  have e : 4 / 3 * Real.pi * (radii.map fun r => r ^ (3 : ℝ)).sum * a.volScale = meanVolume radii a.volScale := by
    unfold meanVolume
    rw [List.sum_map_mul_left]
    congr 3
    apply List.map_congr_left
    intro r _
    exact Real.rpow_natCast r 3
  rw [← h, e]

theorem meanVolume_pos {a : Args} {radii : List ℝ} (hs : Sensible a radii) (hne : radii ≠ []) : 0 < meanVolume radii a.volScale := by
  refine mul_pos (List.sum_pos _ ?_ (by simpa using hne)) hs.vol.1
  intro x hx
  obtain ⟨r, hr, rfl⟩ := List.mem_map.1 hx
  have := hs.radii r hr
  have := Real.pi_pos
  positivity

theorem mapM_length {A B : Type} (f : A → Option B) (l : List A) (r : List B) (h : l.mapM f = some r) : r.length = l.length := by
  induction l generalizing r with
  | nil =>
    simp at h
    simp [← h]
  | cons x l ih =>
    rw [List.mapM_cons] at h
    simp only [Option.bind_eq_bind, Option.bind_eq_some_iff, Option.pure_def] at h
    obtain ⟨y, -, ys, h2, h3⟩ := h
    have := ih ys h2
    simp only [Option.some.injEq] at h3
    rw [← h3]
    simp [this]

/-- What the documentation promises about a structure, with an upper limit `cut` for the distances of periodic images. -/
structure RandomOk (a : Args) (radii : List ℝ) (r : Result) (cut : ℝ → ℝ) : Prop where
  symbols : r.symbols = a.symbols
  natoms : r.coordsFrac.length = a.symbols.length
  inside : ∀ x ∈ r.coordsFrac, ∀ k, 0 ≤ x k ∧ x k < 1
  cell : CellInRange r.cell
    (meanVolume radii a.volScale ^ (1 / 3 : ℝ) * a.lengthRangeScale.1, meanVolume radii a.volScale ^ (1 / 3 : ℝ) * a.lengthRangeScale.2)
    a.angleRange (meanVolume radii a.volScale * a.volRangeScale.1, meanVolume radii a.volScale * a.volRangeScale.2)
  distances : NotClose r.cell r.coordsFrac radii a.closeScale cut
  cellCount : 1 ≤ r.cellCount ∧ r.cellCount ≤ a.cellMaxtry
  atomCounts : r.atomCounts.length = a.symbols.length ∧ ∀ c ∈ r.atomCounts, 1 ≤ c ∧ c ≤ a.atomMaxtry

theorem inRange_of_cc {rs : RS} {rnd : Nat → ℝ} (hrnd : IsStream rnd) (hl : 0 < rs.lengthRange.1 ∧ rs.lengthRange.1 ≤ rs.lengthRange.2)
    (ha : 0 < rs.angleRange.1 ∧ rs.angleRange.1 ≤ rs.angleRange.2 ∧ rs.angleRange.2 < 180) (hv : 0 < rs.volRange.1) (q : Nat)
    (h0 : 0 ≤ ccRoot (drawCC rs rnd q)) (h1 : rs.volRange.1 ≤ volumeCc (drawCC rs rnd q) ∧ volumeCc (drawCC rs rnd q) ≤ rs.volRange.2) :
    CellInRange (cc2cell (drawCC rs rnd q)) rs.lengthRange rs.angleRange rs.volRange ∧ (cc2cell (drawCC rs rnd q)).det ≠ 0 := by
  have L := fun k => uniform_range rs.lengthRange hl.2 (rnd k) (hrnd k)
  have A := fun k => uniform_range rs.angleRange ha.2.1 (rnd k) (hrnd k)
  have hvalid : ValidCC (drawCC rs rnd q) := by
    have la := fun k => lt_of_lt_of_le hl.1 (L k).1
    have aa := fun k => lt_of_lt_of_le ha.1 (A k).1
    have ab := fun k => lt_of_le_of_lt (A k).2 ha.2.2
    exact ⟨la _, la _, la _, ⟨aa _, ab _⟩, ⟨aa _, ab _⟩, ⟨aa _, ab _⟩, h0⟩
  have hrt := C41_cc_roundtrip _ hvalid
  have hvol := (C41_volume _ hvalid 1 (by simp)).1
  rw [hvol] at h1
  have hdet : (cc2cell (drawCC rs rnd q)).det ≠ 0 := by
    intro hc
    rw [volumeCell, hc, abs_zero] at h1
    linarith [h1.1]
  refine ⟨⟨?_, ?_, h1⟩, hdet⟩
  · have e0 := congrArg CrystConst.a hrt
    have e1 := congrArg CrystConst.b hrt
    have e2 := congrArg CrystConst.c hrt
    simp only [cell2cc] at e0 e1 e2
    intro i
    fin_cases i
    · simp only [Fin.zero_eta, e0]; exact L _
    · simp only [Fin.mk_one, e1]; exact L _
    · simp only [Fin.reduceFinMk, e2]; exact L _
  · have e0 := congrArg CrystConst.alpha hrt
    have e1 := congrArg CrystConst.beta hrt
    have e2 := congrArg CrystConst.gamma hrt
    simp only [cell2cc] at e0 e1 e2
    have hsym : ∀ x y : V3, angle x y = angle y x := by
      intro x y
      unfold angle
      rw [show dot x y = dot y x by unfold dot; exact Finset.sum_congr rfl fun k _ => mul_comm _ _, div_right_comm]
    intro i j hij
    fin_cases i <;> fin_cases j <;> first | exact absurd rfl hij | skip
    · simp only [Fin.zero_eta, Fin.mk_one, e2]; exact A _
    · simp only [Fin.zero_eta, Fin.reduceFinMk, e1]; exact A _
    · simp only [Fin.zero_eta, Fin.mk_one]; rw [hsym, e2]; exact A _
    · simp only [Fin.mk_one, Fin.reduceFinMk, e0]; exact A _
    · simp only [Fin.zero_eta, Fin.reduceFinMk]; rw [hsym, e1]; exact A _
    · simp only [Fin.mk_one, Fin.reduceFinMk]; rw [hsym, e0]; exact A _

section
variable {covRad : String → Option ℝ} {a : Args} {radii : List ℝ} {rs : RS} {rnd : Nat → ℝ}

/-- **C92**: every structure which is returned has the symbols, a cell with lengths, angles and volume in the requested ranges and atoms in the cell.
Distances of all periodic images are at least the smaller of the requested distance and `rmax_smith(cell)`; the distances pwtools itself computes
are at least the requested ones. (The full claim, without `rmax_smith`, is false: `C92_close_counterexample`.) -/
theorem C92_valid_partial (hr : a.symbols.mapM covRad = some radii) (hinit : init covRad a = .ok rs) (hs : Sensible a radii)
    (hrnd : IsStream rnd) (pos : Nat) (r : Result) (h : getStruct rs rnd pos = .ok r) :
    RandomOk a radii r (fun d => min d (rmaxSmith r.cell)) ∧
    ∀ i j, i < j → j < r.coordsFrac.length → ∀ d, IsDist r.cell true (r.coordsFrac.getD i 0) (r.coordsFrac.getD j 0) d →
      a.closeScale * (radii.getD i 0 + radii.getD j 0) ≤ d := by
  have hne : radii ≠ [] := by
    intro hc
    have := mapM_length _ _ _ hr
    rw [hc] at this
    exact hs.atoms (List.eq_nil_of_length_eq_zero this.symm)
  have hV := meanVolume_pos hs hne
  have hL : 0 < meanVolume radii a.volScale ^ (1 / 3 : ℝ) := Real.rpow_pos_of_pos hV _
  have hrs := init_eq hr hinit
  unfold getStruct at h
  split at h
  · simp at h
  · rename_i cc cnt p hcc
    split at h
    · simp at h
    · rename_i coords cnts p' hp
      simp only [Except.ok.injEq] at h
      obtain ⟨⟨q, hq⟩, c2, c3, c4, c5⟩ := getCC_ok hcc
      obtain ⟨inv, hlen⟩ := place_ok (cc2cell cc) _ (coords := []) (cnts := []) ⟨by rintro ⟨i, j, _, h2, _⟩; simp at h2, by simp, by simp, rfl⟩ hp
      rw [List.length_nil, Nat.zero_add] at hlen
      rw [hq] at c2 c3
      have hvr : rs.volRange = (meanVolume radii a.volScale * a.volRangeScale.1, meanVolume radii a.volScale * a.volRangeScale.2) := by rw [hrs]
      have hlr : rs.lengthRange = (meanVolume radii a.volScale ^ (1 / 3 : ℝ) * a.lengthRangeScale.1,
          meanVolume radii a.volScale ^ (1 / 3 : ℝ) * a.lengthRangeScale.2) := by rw [hrs]
      have har : rs.angleRange = a.angleRange := by rw [hrs]
      have hsy : rs.symbols = a.symbols := by rw [hrs]
      have hdij : ∀ i j, rs.dijMin i j = a.closeScale * (radii.getD i 0 + radii.getD j 0) := by
        intro i j
        rw [hrs]
        simp only
        ring
      obtain ⟨g1, g2⟩ := inRange_of_cc (rs := rs) hrnd (by rw [hlr]; exact ⟨mul_pos hL hs.len.1, mul_le_mul_of_nonneg_left hs.len.2 hL.le⟩)
        (by rw [har]; exact hs.ang) (by rw [hvr]; exact mul_pos hV hs.vol.2) q c2 c3
      rw [← hq] at g1 g2
      rw [hlr, har, hvr] at g1
      have hfar : ∀ i j, i < j → j < coords.length → a.closeScale * (radii.getD i 0 + radii.getD j 0) ≤
          dist (cc2cell cc) (coords.getD i 0) (coords.getD j 0) := by
        intro i j hij hj
        by_contra hc
        rw [← hdij] at hc
        exact inv.far ⟨i, j, hij, hj, not_le.1 hc⟩
      rw [← h]
      refine ⟨⟨hsy, by rw [hlen, hsy], ?_, g1, ?_, ?_, ?_⟩, ?_⟩
      · intro x hx
        obtain ⟨m, rfl⟩ := inv.drawn x hx
        intro k
        fin_cases k <;> exact hrnd _
      · intro i j hi hj hij n
        simp only
        rcases Nat.lt_or_gt_of_ne hij with hl | hl
        · exact dist_images _ g2 _ _ _ (hfar i j hl hj) n
        · rw [latticeDist_swap, add_comm (radii.getD i 0)]
          exact dist_images _ g2 _ _ _ (hfar j i hl hi) _
      · have : rs.cellMaxtry = a.cellMaxtry := by rw [hrs]
        rw [← this]
        exact ⟨c4, by simp only; omega⟩
      · have : rs.atomMaxtry = a.atomMaxtry := by rw [hrs]
        rw [← this]
        refine ⟨?_, inv.counts⟩
        simp only
        rw [inv.length, hlen, hsy]
      · intro i j hij hj d hd
        rw [(isDist_iff _ _ _ _).1 hd]
        exact hfar i j hij hj

/-- **C92**: `get_random_struct(fail=False)` returns such a structure, too. -/
theorem C92_nofail_partial (hr : a.symbols.mapM covRad = some radii) (hinit : init covRad a = .ok rs) (hs : Sensible a radii)
    (hrnd : IsStream rnd) (pos : Nat) (r : Result) (h : NoFail rs rnd pos (.ok r)) : RandomOk a radii r (fun d => min d (rmaxSmith r.cell)) := by
  have key : ∀ pos x, NoFail rs rnd pos x → ∀ r, x = .ok r → ∃ pos', getStruct rs rnd pos' = .ok r := by
    clear h
    intro pos x hx
    induction hx with
    | done h => rintro r ⟨⟩; exact ⟨_, h⟩
    | raise _ _ => rintro r ⟨⟩
    | again _ _ _ ih => exact ih
  obtain ⟨pos', hp⟩ := key _ _ h r rfl
  exact (C92_valid_partial hr hinit hs hrnd pos' r hp).1

/-- **C92**: `RandomStructureFail` is raised only after all attempts were used: either all `cell_maxtry` random cells had a volume out of range or, for
some number of atoms already placed, all `atom_maxtry` random positions for the next one were too close. -/
theorem C92_fail (pos : Nat) (h : getStruct rs rnd pos = .error .fail) :
    (∀ k < rs.cellMaxtry, ¬ (rs.volRange.1 ≤ volumeCc (drawCC rs rnd (pos + 12 * k)) ∧ volumeCc (drawCC rs rnd (pos + 12 * k)) ≤ rs.volRange.2)) ∨
    rs.atomMaxtry = 0 ∨ ∃ q coords pos', coords.length < rs.symbols.length ∧
      ∀ k < rs.atomMaxtry, TooClose rs (cc2cell (drawCC rs rnd q)) (coords ++ [rand3 rnd (pos' + 6 * k)]) := by
  unfold getStruct at h
  split at h
  · rename_i e hcc
    simp only [Except.error.injEq] at h
    rw [h] at hcc
    rcases getCC_error hcc with ⟨-, h1⟩ | ⟨h1, -⟩
    · exact Or.inl h1
    · simp at h1
  · rename_i cc cnt p hcc
    obtain ⟨⟨q, hq⟩, -⟩ := getCC_ok hcc
    split at h
    · rename_i e hp
      obtain ⟨-, h1⟩ := place_error _ _ hp
      refine Or.inr (h1.imp_right ?_)
      rintro ⟨cs, p', h2, h3⟩
      rw [hq] at h3
      exact ⟨q, cs, p', by simpa using h2, h3⟩
    · simp at h

theorem cos_half (x : ℝ) (h : 60 ≤ x ∧ x ≤ 120) : |Real.cos (x * Real.pi / 180)| ≤ 1 / 2 := by
  have hp := Real.pi_pos
  rw [abs_le]
  constructor
  · rw [show -(1 / 2 : ℝ) = Real.cos (Real.pi - Real.pi / 3) by rw [Real.cos_pi_sub, Real.cos_pi_div_three]]
    apply Real.cos_le_cos_of_nonneg_of_le_pi
    · have := h.1; positivity
    · linarith
    · nlinarith [h.2]
  · rw [← Real.cos_pi_div_three]
    apply Real.cos_le_cos_of_nonneg_of_le_pi
    · positivity
    · nlinarith [h.2]
    · nlinarith [h.1]

/-- **C92**: with angles between 60 and 120 degrees (the default), `RandomStructureFail` is the only exception. -/
theorem C92_only_fail (ha : 60 ≤ rs.angleRange.1 ∧ rs.angleRange.1 ≤ rs.angleRange.2 ∧ rs.angleRange.2 ≤ 120) (hrnd : IsStream rnd) (pos : Nat)
    (e : RErr) (h : getStruct rs rnd pos = .error e) : e = .fail := by
  unfold getStruct at h
  split at h
  · rename_i e' hcc
    simp only [Except.error.injEq] at h
    rw [h] at hcc
    rcases getCC_error hcc with ⟨h1, -⟩ | ⟨-, q, hq⟩
    · exact h1
    · exfalso
      have A : ∀ k, |Real.cos (uniform rs.angleRange (rnd k) * Real.pi / 180)| ≤ 1 / 2 := by
        intro k
        obtain ⟨h1, h2⟩ := uniform_range rs.angleRange ha.2.1 (rnd k) (hrnd k)
        exact cos_half _ ⟨ha.1.trans h1, h2.trans ha.2.2⟩
      unfold ccRoot drawCC at hq
      simp only at hq
      have a1 := A (q + 3)
      have a2 := A (q + 4)
      have a3 := A (q + 5)
      revert hq a1 a2 a3
      generalize Real.cos (uniform rs.angleRange (rnd (q + 3)) * Real.pi / 180) = x
      generalize Real.cos (uniform rs.angleRange (rnd (q + 4)) * Real.pi / 180) = y
      generalize Real.cos (uniform rs.angleRange (rnd (q + 5)) * Real.pi / 180) = z
      intro hq a1 a2 a3
      have hx : x ^ 2 ≤ 1 / 4 := by rw [← sq_abs]; nlinarith [abs_nonneg x]
      have hy : y ^ 2 ≤ 1 / 4 := by rw [← sq_abs]; nlinarith [abs_nonneg y]
      have hz : z ^ 2 ≤ 1 / 4 := by rw [← sq_abs]; nlinarith [abs_nonneg z]
      have hxyz : |x * y * z| ≤ 1 / 8 := by
        rw [abs_mul, abs_mul]
        have : |x| * |y| ≤ 1 / 2 * (1 / 2) := mul_le_mul a1 a2 (abs_nonneg _) (by norm_num)
        have := mul_le_mul this a3 (abs_nonneg _) (by norm_num)
        linarith
      have := neg_abs_le (x * y * z)
      nlinarith
  · split at h
    · rename_i e' hp
      simp only [Except.error.injEq] at h
      rw [← h]
      exact (place_error _ _ hp).1
    · simp at h

end

/-! ## what is wrong -/

/-- **C92**: what is missing, 1: with a wider range of angles (here 20 to 160 degrees, all other settings default), `ValueError` instead of
`RandomStructureFail` can be raised, and `fail=False` does not catch it: random angles need not fit together in space. -/
theorem C92_domain_counterexample (covRad : String → Option ℝ) (s : String) (r : ℝ) (hs : covRad s = some r) :
    ∃ rs rnd, init covRad { symbols := [s], angleRange := (20, 160) } = .ok rs ∧ IsStream rnd ∧ getStruct rs rnd 0 = .error .domain ∧
      NoFail rs rnd 0 (.error .domain) := by
  obtain ⟨rs, hinit⟩ : ∃ rs, init covRad { symbols := [s], angleRange := (20, 160) } = .ok rs := by
    unfold init
    simp [hs]
  have hrs := init_eq (radii := [r]) (by simp [hs]) hinit
  let rnd : Nat → ℝ := fun n => if n = 5 then 1 / 2 else 0
  have hrnd : IsStream rnd := by
    intro n
    simp only [rnd]
    split <;> norm_num
  have har : rs.angleRange = (20, 160) := by rw [hrs]
  have hct : rs.cellMaxtry = 99 + 1 := by rw [hrs]
  have hroot : ccRoot (drawCC rs rnd 0) < 0 := by
    have e1 : uniform rs.angleRange (rnd 3) = 20 := by rw [har]; simp [uniform, rnd]
    have e2 : uniform rs.angleRange (rnd 4) = 20 := by rw [har]; simp [uniform, rnd]
    have e3 : uniform rs.angleRange (rnd 5) = 90 := by rw [har]; simp [uniform, rnd]; norm_num
    unfold ccRoot drawCC
    simp only [Nat.zero_add, e1, e2, e3]
    have h90 : Real.cos (90 * Real.pi / 180) = 0 := by
      rw [show 90 * Real.pi / 180 = Real.pi / 2 by ring]
      exact Real.cos_pi_div_two
    have h20 : Real.cos (Real.pi / 4) < Real.cos (20 * Real.pi / 180) := by
      have := Real.pi_pos
      apply Real.cos_lt_cos_of_nonneg_of_le_pi
      · positivity
      · linarith
      · linarith
    rw [Real.cos_pi_div_four] at h20
    have h2 : (Real.sqrt 2 / 2) ^ 2 = 1 / 2 := by
      rw [div_pow, Real.sq_sqrt (by norm_num)]
      norm_num
    rw [h90]
    have : 0 ≤ Real.sqrt 2 / 2 := by positivity
    nlinarith
  have hget : getStruct rs rnd 0 = .error .domain := by
    unfold getStruct
    rw [hct]
    unfold getCC
    simp only
    rw [if_pos hroot]
  exact ⟨rs, rnd, hinit, hrnd, hget, NoFail.raise hget (by decide)⟩

/-- **C92**: what is missing, 2: with the default settings and two atoms of any element, a structure may be returned in which an atom is closer to a
periodic image of the other one than the sum of the covalent radii: in skew cells the minimum image convention does not find the closest image.
(The comment in the code says "too big dists are no problem".) -/
theorem C92_close_counterexample (covRad : String → Option ℝ) (s : String) (r : ℝ) (hs : covRad s = some r) (hr : 0 < r) :
    ∃ rs rnd st n, init covRad { symbols := [s, s] } = .ok rs ∧ IsStream rnd ∧ getStruct rs rnd 0 = .ok st ∧
      latticeDist st.cell (st.coordsFrac.getD 0 0) (st.coordsFrac.getD 1 0) n < r + r := by
  obtain ⟨rs, hinit⟩ : ∃ rs, init covRad { symbols := [s, s] } = .ok rs := by
    unfold init
    simp [hs]
  have hrs := init_eq (radii := [r, r]) (by simp [hs]) hinit
  have hpi1 := Real.pi_gt_d2
  have hpi2 := Real.pi_lt_d2
  set V := meanVolume [r, r] 4 with hVdef
  have hV : V = 32 / 3 * Real.pi * r ^ 3 := by
    rw [hVdef]
    simp [meanVolume]
    ring
  have hr3 : 0 < r ^ 3 := by positivity
  have hVpos : 0 < V := by rw [hV]; positivity
  set M := V ^ (1 / 3 : ℝ) with hM
  have hMpos : 0 < M := Real.rpow_pos_of_pos hVpos _
  have hM3 : M ^ 3 = V := by
    rw [hM, ← Real.rpow_natCast, ← Real.rpow_mul hVpos.le]
    norm_num
  have hlow : 0.7 * M < 10 / 3 * r := by
    by_contra hc
    have := pow_le_pow_left₀ (by positivity) (not_lt.1 hc) 3
    rw [mul_pow, mul_pow, hM3, hV] at this
    nlinarith
  have hhigh : 10 / 3 * r < 1.3 * M := by
    by_contra hc
    have := pow_le_pow_left₀ (by positivity) (not_lt.1 hc) 3
    rw [mul_pow, mul_pow, hM3, hV] at this
    nlinarith
  let u : ℝ := (10 / 3 * r - 0.7 * M) / (0.6 * M)
  have hu : 0 ≤ u ∧ u < 1 := by
    constructor
    · apply div_nonneg <;> linarith
    · rw [div_lt_one (by positivity)]
      linarith
  let rnd : Nat → ℝ := fun n => if n < 3 then u else if n < 5 then 1 / 2 else if n = 9 ∨ n = 10 then 2 / 5 else 0
  have hrnd : IsStream rnd := by
    intro n
    simp only [rnd]
    split
    · exact hu
    · split
      · norm_num
      · split <;> norm_num
  have har : rs.angleRange = (60, 120) := by rw [hrs]
  have hlr : rs.lengthRange = (M * 0.7, M * 1.3) := by rw [hrs]
  have hvr : rs.volRange = (V * 0.7, V * 1.3) := by rw [hrs]
  have hlen : ∀ n < 3, uniform rs.lengthRange (rnd n) = 10 / 3 * r := by
    intro n hn
    rw [hlr]
    simp only [uniform, rnd, if_pos hn, u]
    field_simp
    ring
  have hcc : drawCC rs rnd 0 = ⟨10 / 3 * r, 10 / 3 * r, 10 / 3 * r, 90, 90, 60⟩ := by
    unfold drawCC
    rw [hlen 0 (by norm_num), hlen (0 + 1) (by norm_num), hlen (0 + 2) (by norm_num), har]
    simp [uniform, rnd]
    norm_num
  have h90 : Real.cos (90 * Real.pi / 180) = 0 := by
    rw [show 90 * Real.pi / 180 = Real.pi / 2 by ring]
    exact Real.cos_pi_div_two
  have c60 : Real.cos (60 * Real.pi / 180) = 1 / 2 := by
    rw [show 60 * Real.pi / 180 = Real.pi / 3 by ring]
    exact Real.cos_pi_div_three
  have s60 : Real.sin (60 * Real.pi / 180) = Real.sqrt 3 / 2 := by
    rw [show 60 * Real.pi / 180 = Real.pi / 3 by ring]
    exact Real.sin_pi_div_three
  have hroot : ccRoot (drawCC rs rnd 0) = 3 / 4 := by
    rw [hcc]
    unfold ccRoot
    simp only [h90, c60]
    norm_num
  have q3 : Real.sqrt 3 ^ 2 = 3 := Real.sq_sqrt (by norm_num)
  have q0 : 0 ≤ Real.sqrt 3 := Real.sqrt_nonneg 3
  have q1 : 1.7 < Real.sqrt 3 := by nlinarith
  have q2 : Real.sqrt 3 < 1.74 := by nlinarith
  have hvol : volumeCc (drawCC rs rnd 0) = (10 / 3 * r) ^ 3 * (Real.sqrt 3 / 2) := by
    unfold volumeCc
    rw [hroot, show (3 / 4 : ℝ) = (Real.sqrt 3 / 2) ^ 2 by rw [div_pow, q3]; norm_num, Real.sqrt_sq (by positivity), hcc]
    ring
  have hcell : cc2cell (drawCC rs rnd 0) = Matrix.of ![![10 / 3 * r, 0, 0], ![10 / 3 * r * (1 / 2), 10 / 3 * r * (Real.sqrt 3 / 2), 0],
      ![0, 0, 10 / 3 * r]] := by
    rw [hcc]
    unfold cc2cell
    simp only [h90, c60, s60]
    have e : Real.sqrt ((10 / 3 * r) ^ 2 - (10 / 3 * r * (0 - 0 * (1 / 2)) / (Real.sqrt 3 / 2)) ^ 2 - (10 / 3 * r * 0) ^ 2) = 10 / 3 * r := by
      rw [show (10 / 3 * r) ^ 2 - (10 / 3 * r * (0 - 0 * (1 / 2)) / (Real.sqrt 3 / 2)) ^ 2 - (10 / 3 * r * 0) ^ 2 = (10 / 3 * r) ^ 2 by ring]
      exact Real.sqrt_sq (by positivity)
    rw [e]
    simp
  have hx0 : rand3 rnd 6 = 0 := by
    funext k
    fin_cases k <;> simp [rand3, rnd]
  have hx1 : rand3 rnd 9 = ![2 / 5, 2 / 5, 0] := by
    funext k
    fin_cases k <;> simp [rand3, rnd]
  have hmin : (fun k => minImg ((0 : V3) k - (![2 / 5, 2 / 5, 0] : V3) k)) = ![-(2 / 5), -(2 / 5), 0] := by
    funext k
    fin_cases k
    · simp only [minImg, Fin.zero_eta, Pi.zero_apply, Matrix.cons_val_zero]
      rw [show ⌊(0 : ℝ) - 2 / 5 + 1 / 2⌋ = 0 by rw [Int.floor_eq_iff]; norm_num]
      norm_num
    · simp only [minImg, Fin.mk_one, Pi.zero_apply, Matrix.cons_val_one, Matrix.cons_val_zero]
      rw [show ⌊(0 : ℝ) - 2 / 5 + 1 / 2⌋ = 0 by rw [Int.floor_eq_iff]; norm_num]
      norm_num
    · simp only [minImg, Fin.reduceFinMk, Pi.zero_apply, Matrix.cons_val]
      rw [show ⌊(0 : ℝ) - 0 + 1 / 2⌋ = 0 by rw [Int.floor_eq_iff]; norm_num]
      norm_num
  have hdist : r + r ≤ dist (cc2cell (drawCC rs rnd 0)) 0 ![2 / 5, 2 / 5, 0] := by
    unfold dist distOf
    rw [hmin, hcell]
    apply Real.le_sqrt_of_sq_le
    simp only [frac2cart, Matrix.vecMul, dotProduct, Fin.sum_univ_three, Matrix.of_apply, Matrix.cons_val_zero, Matrix.cons_val_one, Matrix.cons_val]
    nlinarith [sq_nonneg r]
  have hget : getStruct rs rnd 0 = .ok ⟨[s, s], [0, ![2 / 5, 2 / 5, 0]], cc2cell (drawCC rs rnd 0), 1, [1, 1], 12⟩ := by
    have hct : rs.cellMaxtry = 100 := by rw [hrs]
    have hat : rs.atomMaxtry = 999 + 1 := by rw [hrs]
    have hsy : rs.symbols = [s, s] := by rw [hrs]
    unfold getStruct
    rw [hct, getCC_first 1 0 (by norm_num) (by rw [hroot]; norm_num) (by
      rw [hvol, hvr, hV]
      simp only
      constructor <;> nlinarith)]
    simp only [hsy, List.length_cons, List.length_nil]
    have hnc : ¬ TooClose rs (cc2cell (drawCC rs rnd 0)) [(0 : V3), ![2 / 5, 2 / 5, 0]] := by
      rintro ⟨i, j, h1, h2, h3⟩
      simp only [List.length_cons, List.length_nil] at h2
      obtain ⟨rfl, rfl⟩ : i = 0 ∧ j = 1 := by omega
      have : rs.dijMin 0 1 = r + r := by rw [hrs]; simp
      rw [this] at h3
      simp only [List.getD_cons_zero, List.getD_cons_succ] at h3
      linarith
    have htry : tryAtom rs (cc2cell (drawCC rs rnd 0)) rnd [(0 : V3)] (999 + 1) 1 9 = (some ![2 / 5, 2 / 5, 0], 1, 12) := by
      unfold tryAtom
      simp only
      rw [hx1, if_neg (by simpa using hnc)]
    have hplace : place rs (cc2cell (drawCC rs rnd 0)) rnd (0 + 1 + 1) [] [] (0 + 6) = .ok ([0, ![2 / 5, 2 / 5, 0]], [1, 1], 12) := by
      rw [place_first _ _ _ (by rw [hat]; norm_num), place_next _ _ _ _ _ (by simp) ![2 / 5, 2 / 5, 0] 1 12 (by
        rw [hat, show (0 + 6 : Nat) = 6 from rfl, hx0]
        exact htry) (by rw [hat]; norm_num), show (0 + 6 : Nat) = 6 from rfl, hx0, place]
      rfl
    rw [hplace]
  refine ⟨rs, rnd, _, ![-1, 0, 0], hinit, hrnd, hget, ?_⟩
  simp only [List.getD_cons_zero, List.getD_cons_succ]
  unfold latticeDist
  rw [hcell, Real.sqrt_lt' (by positivity)]
  simp [Fin.sum_univ_three]
  nlinarith [sq_nonneg r, mul_pos hr hr]

/-- Non-vacuity: the structure of the counterexample meets the hypotheses of `C92_valid_partial`. -/
example (covRad : String → Option ℝ) (s : String) (r : ℝ) (hs : covRad s = some r) (hr : 0 < r) :
    ∃ rs rnd st, ({ symbols := [s, s] } : Args).symbols.mapM covRad = some [r, r] ∧ init covRad { symbols := [s, s] } = .ok rs ∧
      Sensible { symbols := [s, s] } [r, r] ∧ IsStream rnd ∧ getStruct rs rnd 0 = .ok st := by
  obtain ⟨rs, rnd, st, n, h1, h2, h3, -⟩ := C92_close_counterexample covRad s r hs hr
  exact ⟨rs, rnd, st, by simp [hs], h1, ⟨by simp [hr], by simp, by norm_num, by norm_num, by norm_num⟩, h2, h3⟩

/-- Non-vacuity of `C92_fail`: no attempts allowed. -/
example (covRad : String → Option ℝ) (s : String) (r : ℝ) (hs : covRad s = some r) (rnd : Nat → ℝ) :
    ∃ rs, init covRad { symbols := [s], cellMaxtry := 0 } = .ok rs ∧ getStruct rs rnd 0 = .error .fail := by
  obtain ⟨rs, hinit⟩ : ∃ rs, init covRad { symbols := [s], cellMaxtry := 0 } = .ok rs := by
    unfold init
    simp [hs]
  have hrs := init_eq (radii := [r]) (by simp [hs]) hinit
  refine ⟨rs, hinit, ?_⟩
  unfold getStruct
  rw [show rs.cellMaxtry = 0 by rw [hrs]]
  rfl

end Pwtools.Rnd
