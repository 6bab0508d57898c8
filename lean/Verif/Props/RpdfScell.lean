import Verif.Props.Rpdf
import Verif.Props.Scell
/-!
# C155: the radial pair distribution function does not depend on the supercell

No new model: the statements combine `rpdf` (C52) with `scell` (C34).
-/
namespace Pwtools.Rp
open Pwtools.Cry Pwtools.Spec

/-- Pairs by minimum image distance and pairs by images are the same below `rmax_smith`. -/
theorem pairs_images {A B : Nat} (cell : Cell) (hdet : cell.det ≠ 0) (x : Fin A → V3) (y : Fin B → V3)
    (d : Fin A → Fin B → ℝ) (hd : ∀ i j, IsDist cell true (x i) (y j) (d i j))
    (P : ℝ → Prop) (hP : ∀ r, P r → r < rmaxSmith cell) :
    pairs d P = (Set.ncard {p : Fin A × Fin B × (Fin 3 → Int) | P (imageDist cell (x p.1) (y p.2.1) p.2.2)} : ℝ) := by
  classical
  unfold pairs
  congr 1
  have hmin : ∀ i j, ∃ n : Fin 3 → Int, d i j = imageDist cell (x i) (y j) n := by
    intro i j
    obtain ⟨v, hv, e⟩ := hd i j
    simp only [DistVecFrac, if_true] at hv
    have : ∀ k, ∃ n : Int, v k = x i k - y j k + n := fun k => ((minImageF_char _ _).1 (hv k)).2
    choose n hn using this
    refine ⟨n, ?_⟩
    rw [e, imageDist_eq]
    unfold distOf Cry.norm dot image
    have : v = fun k => x i k - y j k + (n k : ℝ) := funext hn
    rw [this]
    congr 1
    apply Finset.sum_congr rfl
    intro k _; ring
  choose n hn using hmin
  symm
  apply Set.ncard_congr (fun p _ => (p.1, p.2.1))
  · rintro ⟨i, j, m⟩ h1
    have he := (C37_exact cell hdet (x i) (y j) m (by rw [← imageDist_eq]; exact hP _ h1)).1 _ (hd i j)
    have he' : d i j = imageDist cell (x i) (y j) m := by rw [imageDist_eq]; exact he
    simp only [Set.mem_ofPred_eq]
    rw [he']
    exact h1
  · rintro ⟨i, j, m⟩ ⟨i', j', m'⟩ h3 h3' he
    simp only [Prod.mk.injEq] at he
    obtain ⟨rfl, rfl⟩ := he
    have h4 := hP _ h3
    have h4' := hP _ h3'
    simp only [imageDist_eq] at h4 h4'
    have := (C37_exact cell hdet (x i) (y j) m h4).2 m'
    by_cases hm : m' = m
    · rw [hm]
    · exact absurd h4' (not_lt.2 (this hm))
  · rintro ⟨i, j⟩ hp
    simp only [Set.mem_ofPred_eq] at hp
    refine ⟨(i, j, n i j), ?_, rfl⟩
    simp only [Set.mem_ofPred_eq]
    rw [← hn i j]
    exact hp

/-- Division with remainder in a block of either sign. -/
theorem block_div (D z : Int) (hD : D ≠ 0) : ∃ v q : Int, ((0 ≤ v ∧ v < D) ∨ (D < v ∧ v ≤ 0)) ∧ z = v + D * q := by
  rcases lt_or_gt_of_ne hD with h | h
  · refine ⟨-((-z) % D), -((-z) / D), Or.inr ⟨?_, ?_⟩, ?_⟩
    · have := Int.emod_lt_of_neg (-z) h
      omega
    · have := Int.emod_nonneg (-z) hD
      omega
    · have := Int.emod_add_mul_ediv (-z) D
      linarith [mul_neg D ((-z) / D)]
  · refine ⟨z % D, z / D, Or.inl ⟨Int.emod_nonneg z hD, Int.emod_lt_of_pos z h⟩, ?_⟩
    exact (Int.emod_add_mul_ediv z D).symm

theorem block_unique (D v q v' q' : Int) (h : (0 ≤ v ∧ v < D) ∨ (D < v ∧ v ≤ 0))
    (h' : (0 ≤ v' ∧ v' < D) ∨ (D < v' ∧ v' ≤ 0)) (e : -v + D * q = -v' + D * q') : v = v' ∧ q = q' := by
  have hq : q = q' := by
    by_contra hne
    have h1 : D * (q - q') = v - v' := by linarith
    have h2 : |D * (q - q')| < |D| := by
      rw [h1, abs_lt]
      rcases h with ⟨a, b⟩ | ⟨a, b⟩ <;> rcases h' with ⟨a', b'⟩ | ⟨a', b'⟩
      · rw [abs_of_pos (by omega)]; constructor <;> omega
      · omega
      · omega
      · rw [abs_of_neg (by omega)]; constructor <;> omega
    rw [abs_mul] at h2
    have h3 : 1 ≤ |q - q'| := Int.one_le_abs (sub_ne_zero.2 hne)
    nlinarith [abs_nonneg D]
  subst hq
  exact ⟨by linarith, rfl⟩

/-- Cell of the supercell. -/
noncomputable def bigCell (cell : Cell) (dims : Fin 3 → Int) : Cell := Matrix.of (fun i k => cell i k * (dims i : ℝ))

theorem imageDist_big (cell : Cell) (dims : Fin 3 → Int) (h : ∀ k, dims k ≠ 0) (x y : V3) (a b n : Fin 3 → Int) :
    imageDist (bigCell cell dims) (fun k => (x k + (a k : ℝ)) / (dims k : ℝ)) (fun k => (y k + (b k : ℝ)) / (dims k : ℝ)) n =
      imageDist cell x y (fun k => a k + (-b k + dims k * n k)) := by
  unfold imageDist
  congr 1
  apply Finset.sum_congr rfl
  intro k _
  congr 1
  apply Finset.sum_congr rfl
  intro l _
  have : (dims l : ℝ) ≠ 0 := by exact_mod_cast h l
  simp only [bigCell, Matrix.of_apply]
  push_cast
  field_simp
  ring

theorem norm_smul3 (c : ℝ) (v : V3) : Cry.norm (fun k => c * v k) = |c| * Cry.norm v := by
  unfold Cry.norm
  rw [show dot (fun k => c * v k) (fun k => c * v k) = c ^ 2 * dot v v by
    simp only [dot, Finset.mul_sum]; apply Finset.sum_congr rfl; intro k _; ring]
  rw [Real.sqrt_mul (sq_nonneg c), Real.sqrt_sq_eq_abs]

/-- Width of a parallelepiped after scaling of the edges. -/
theorem width_scale (a b c : V3) (p q r : ℝ) (hq : q ≠ 0) (hr : r ≠ 0) :
    |dot (fun k => a k * p) (cross (fun k => b k * q) (fun k => c k * r))| /
      Cry.norm (cross (fun k => b k * q) (fun k => c k * r)) =
    |p| * (|dot a (cross b c)| / Cry.norm (cross b c)) := by
  have e : cross (fun k => b k * q) (fun k => c k * r) = fun k => (q * r) * cross b c k := by
    funext k
    fin_cases k <;> simp [cross] <;> ring
  have e2 : dot (fun k => a k * p) (fun k => (q * r) * cross b c k) = (q * r) * (p * dot a (cross b c)) := by
    simp only [dot, Finset.mul_sum]
    apply Finset.sum_congr rfl; intro k _; ring
  rw [e, norm_smul3, e2, abs_mul, mul_div_mul_left _ _ (abs_ne_zero.2 (mul_ne_zero hq hr)), abs_mul, mul_div_assoc]

/-- The radius of `rmax_smith` does not shrink in a supercell. -/
theorem smith_big (cell : Cell) (dims : Fin 3 → Int) (h : ∀ k, dims k ≠ 0) : rmaxSmith cell ≤ rmaxSmith (bigCell cell dims) := by
  have h' : ∀ k, (dims k : ℝ) ≠ 0 := fun k => by exact_mod_cast h k
  have h1 : ∀ k, (1 : ℝ) ≤ |(dims k : ℝ)| := fun k => by
    have := Int.one_le_abs (h k)
    exact_mod_cast this
  have hrow : ∀ i, bigCell cell dims i = fun k => cell i k * (dims i : ℝ) := fun i => rfl
  have mono : ∀ (w : ℝ) k, 0 ≤ w → w ≤ |(dims k : ℝ)| * w := fun w k hw => le_mul_of_one_le_left hw (h1 k)
  have pos : ∀ u v : V3, 0 ≤ |dot u v| / Cry.norm v := fun u v => div_nonneg (abs_nonneg _) (Real.sqrt_nonneg _)
  unfold rmaxSmith
  simp only [hrow]
  rw [width_scale _ _ _ _ _ _ (h' 1) (h' 2), width_scale _ _ _ _ _ _ (h' 2) (h' 0), width_scale _ _ _ _ _ _ (h' 0) (h' 1)]
  apply mul_le_mul_of_nonneg_left _ (by norm_num)
  exact min_le_min (min_le_min (mono _ _ (pos _ _)) (mono _ _ (pos _ _))) (mono _ _ (pos _ _))

/-- Counting of images in a supercell: `M` times the number in the cell. -/
theorem images_big {A B M : Nat} (cell : Cell) (dims : Fin 3 → Int) (h : ∀ k, dims k ≠ 0) (v : Fin M → Fin 3 → Int)
    (hinj : Function.Injective v) (hv : ∀ n, (∃ b, v b = n) ↔ InBlock dims n)
    (x : Fin A → V3) (y : Fin B → V3) (x' : Fin (A * M) → V3) (y' : Fin (B * M) → V3)
    (hx : ∀ i b, x' (finProdFinEquiv (i, b)) = fun k => (x i k + (v b k : ℝ)) / (dims k : ℝ))
    (hy : ∀ i b, y' (finProdFinEquiv (i, b)) = fun k => (y i k + (v b k : ℝ)) / (dims k : ℝ)) (P : ℝ → Prop) :
    Set.ncard {p : Fin (A * M) × Fin (B * M) × (Fin 3 → Int) | P (imageDist (bigCell cell dims) (x' p.1) (y' p.2.1) p.2.2)} =
      M * Set.ncard {p : Fin A × Fin B × (Fin 3 → Int) | P (imageDist cell (x p.1) (y p.2.1) p.2.2)} := by
  classical
  let F : (Fin A × Fin M) × (Fin B × Fin M) × (Fin 3 → Int) → Fin M × (Fin A × Fin B × (Fin 3 → Int)) :=
    fun p => (p.1.2, (p.1.1, p.2.1.1, fun k => v p.1.2 k + (-v p.2.1.2 k + dims k * p.2.2 k)))
  have hF : Function.Bijective F := by
    constructor
    · rintro ⟨⟨i, b⟩, ⟨j, c⟩, n⟩ ⟨⟨i', b'⟩, ⟨j', c'⟩, n'⟩ e
      simp only [F, Prod.mk.injEq] at e
      obtain ⟨rfl, rfl, rfl, e⟩ := e
      have hb := (hv (v c)).1 ⟨c, rfl⟩
      have hb' := (hv (v c')).1 ⟨c', rfl⟩
      have key : ∀ k, v c k = v c' k ∧ n k = n' k := by
        intro k
        have := congrFun e k
        exact block_unique (dims k) _ _ _ _ (hb k) (hb' k) (by linarith)
      have e1 : c = c' := hinj (funext (fun k => (key k).1))
      have e2 : n = n' := funext (fun k => (key k).2)
      rw [e1, e2]
    · rintro ⟨b, i, j, n⟩
      have : ∀ k, ∃ w q : Int, ((0 ≤ w ∧ w < dims k) ∨ (dims k < w ∧ w ≤ 0)) ∧ v b k - n k = w + dims k * q :=
        fun k => block_div _ _ (h k)
      choose w q hw e using this
      obtain ⟨c, hc⟩ := (hv w).2 hw
      refine ⟨((i, b), (j, c), fun k => -q k), ?_⟩
      simp only [F, Prod.mk.injEq, true_and]
      funext k
      have := e k
      rw [hc]
      linarith [mul_neg (dims k) (q k)]
  let E : (Fin A × Fin M) × (Fin B × Fin M) × (Fin 3 → Int) ≃ Fin (A * M) × Fin (B * M) × (Fin 3 → Int) :=
    Equiv.prodCongr finProdFinEquiv (Equiv.prodCongr finProdFinEquiv (Equiv.refl _))
  have s1 : Set.ncard (E ⁻¹' {p : Fin (A * M) × Fin (B * M) × (Fin 3 → Int) |
      P (imageDist (bigCell cell dims) (x' p.1) (y' p.2.1) p.2.2)}) =
      Set.ncard {p : Fin (A * M) × Fin (B * M) × (Fin 3 → Int) |
      P (imageDist (bigCell cell dims) (x' p.1) (y' p.2.1) p.2.2)} :=
    Set.ncard_preimage_of_injective_subset_range E.injective (by rw [E.surjective.range_eq]; exact Set.subset_univ _)
  have s2 : Set.ncard (F ⁻¹' ((Set.univ : Set (Fin M)) ×ˢ
      {p : Fin A × Fin B × (Fin 3 → Int) | P (imageDist cell (x p.1) (y p.2.1) p.2.2)})) = _ :=
    Set.ncard_preimage_of_injective_subset_range hF.1 (by rw [hF.2.range_eq]; exact Set.subset_univ _)
  rw [← s1, show (M * Set.ncard {p : Fin A × Fin B × (Fin 3 → Int) | P (imageDist cell (x p.1) (y p.2.1) p.2.2)}) =
    Set.ncard ((Set.univ : Set (Fin M)) ×ˢ {p : Fin A × Fin B × (Fin 3 → Int) | P (imageDist cell (x p.1) (y p.2.1) p.2.2)}) by
    rw [Set.ncard_prod, Set.ncard_univ, Nat.card_eq_fintype_card, Fintype.card_fin], ← s2]
  congr 1
  ext ⟨⟨i, b⟩, ⟨j, c⟩, n⟩
  simp only [E, F, Set.mem_preimage, Set.mem_ofPred_eq, Set.mem_prod, Set.mem_univ, true_and,
    Equiv.prodCongr_apply, Prod.map, Equiv.refl_apply, hx, hy, imageDist_big cell dims h]

/-- `x'`, `cell'` are the coordinates and the cell which `scell` returns for the structure with
coordinates `x` and cell `cell`. -/
def IsScell {A A' : Nat} (cell : Cell) (dims : Fin 3 → Int) (method : Nat) (direc : Int)
    (x : Fin A → V3) (cell' : Cell) (x' : Fin A' → V3) : Prop :=
  ∃ syms sc, scell ⟨List.ofFn x, cell, some syms⟩ dims method direc = .ok sc ∧
    sc.coordsFrac = List.ofFn x' ∧ sc.cell = cell'

/-- What `IsScell` says atom by atom. -/
theorem isScell_index (dims : Fin 3 → Int) (h : ∀ k, dims k ≠ 0) (method : Nat)
    (direc : Int) (hd : direc = 1 ∨ direc = -1) :
    ∃ (M : Nat) (v : Fin M → Fin 3 → Int), Function.Injective v ∧ (∀ n, (∃ b, v b = n) ↔ InBlock dims n) ∧
      M = (dims 0).natAbs * (dims 1).natAbs * (dims 2).natAbs ∧
      ∀ {A A' : Nat} (cell cell' : Cell) (x : Fin A → V3) (x' : Fin A' → V3), IsScell cell dims method direc x cell' x' →
        cell' = bigCell cell dims ∧ ∃ e : A * M = A', ∀ i b, x' (Fin.cast e (finProdFinEquiv (i, b))) =
          fun k => (x i k + (v b k : ℝ)) / (dims k : ℝ) := by
  obtain ⟨mask, e, hnd, hmem, hlen⟩ := scellMask_spec dims direc hd
  refine ⟨mask.length, fun b => rowVec mask[b], ?_, ?_, hlen, ?_⟩
  · intro a b hab
    have := (List.nodup_iff_injective_get.1 hnd) (a₁ := ⟨a, by simp⟩) (a₂ := ⟨b, by simp⟩) (by simpa using hab)
    simp only [Fin.mk.injEq] at this
    exact Fin.ext this
  · intro n
    rw [← hmem n, List.mem_map]
    constructor
    · rintro ⟨b, hb⟩; exact ⟨mask[b], List.getElem_mem _, hb⟩
    · rintro ⟨m, hm, rfl⟩
      obtain ⟨k, hk, rfl⟩ := List.getElem_of_mem hm
      exact ⟨⟨k, hk⟩, rfl⟩
  · rintro A A' cell cell' x x' ⟨syms, sc, h1, h2, h3⟩
    have hne : mask.isEmpty = false := by
      rw [List.isEmpty_eq_false_iff, ← List.length_pos_iff, hlen]
      exact Nat.mul_pos (Nat.mul_pos (Int.natAbs_pos.2 (h 0)) (Int.natAbs_pos.2 (h 1))) (Int.natAbs_pos.2 (h 2))
    have key : sc.cell = bigCell cell dims ∧
        sc.coordsFrac = (scellCoords1 (List.ofFn x) mask).map (fun s => (fun k => s k / (dims k : ℝ) : V3)) := by
      unfold scell at h1
      simp only [e, hne, ← scellCoords_eq] at h1
      split at h1
      · simp only [Bool.false_eq_true, if_false, Except.ok.injEq] at h1
        rw [← h1]; exact ⟨rfl, rfl⟩
      · split at h1
        · simp only [Except.ok.injEq] at h1
          rw [← h1]; exact ⟨rfl, rfl⟩
        · cases h1
    obtain ⟨k1, k2⟩ := key
    rw [h2] at k2
    have hl := congrArg List.length k2
    simp only [List.length_ofFn, List.length_map, scellCoords1, List.length_range] at hl
    refine ⟨by rw [← h3, k1], hl.symm, ?_⟩
    intro i b
    have hlt : (finProdFinEquiv (i, b) : Fin (A * mask.length)).val < A' := by rw [hl]; exact (finProdFinEquiv (i, b)).2
    have := congrArg (fun l : List V3 => l[(finProdFinEquiv (i, b)).val]?) k2
    have hlt2 := (finProdFinEquiv (i, b)).2
    have hM : 0 < mask.length := b.pos
    have hdiv : (finProdFinEquiv (i, b) : Fin (A * mask.length)).val / mask.length = i.val := by
      simp [finProdFinEquiv, Nat.add_mul_div_left _ _ hM, Nat.div_eq_of_lt b.2]
    have hmod : (finProdFinEquiv (i, b) : Fin (A * mask.length)).val % mask.length = b.val := by
      simp [finProdFinEquiv, Nat.mod_eq_of_lt b.2]
    simp only [scellCoords1, List.map_map, List.getElem?_map, List.length_ofFn, List.getElem?_range hlt2, List.getElem?_ofFn,
      hlt, Option.map_some, Function.comp, hdiv, hmod, dite_true, Option.some.injEq] at this
    rw [show Fin.cast hl.symm (finProdFinEquiv (i, b)) = ⟨(finProdFinEquiv (i, b)).val, hlt⟩ from rfl, this]
    funext k
    simp [List.getD, maskVec, rowVec]

/-- Pairs of the supercell by distance. -/
theorem pairs_big {A B A' B' : Nat} (cell cell' : Cell) (hdet : cell.det ≠ 0) (dims : Fin 3 → Int) (h : ∀ k, dims k ≠ 0)
    (method : Nat) (direc : Int) (hdi : direc = 1 ∨ direc = -1)
    (x : Fin A → V3) (y : Fin B → V3) (x' : Fin A' → V3) (y' : Fin B' → V3)
    (hx : IsScell cell dims method direc x cell' x') (hy : IsScell cell dims method direc y cell' y') :
    cell' = bigCell cell dims ∧ A' = A * ((dims 0).natAbs * (dims 1).natAbs * (dims 2).natAbs) ∧
    B' = B * ((dims 0).natAbs * (dims 1).natAbs * (dims 2).natAbs) ∧
    ∀ (d : Fin A → Fin B → ℝ) (_ : ∀ i j, IsDist cell true (x i) (y j) (d i j))
      (d' : Fin A' → Fin B' → ℝ) (_ : ∀ i j, IsDist cell' true (x' i) (y' j) (d' i j))
      (P : ℝ → Prop) (_ : ∀ r, P r → r < rmaxSmith cell),
      pairs d' P = ((dims 0).natAbs * (dims 1).natAbs * (dims 2).natAbs : Nat) * pairs d P := by
  obtain ⟨M, v, hinj, hv, hM, key⟩ := isScell_index dims h method direc hdi
  obtain ⟨e1, eA, hxi⟩ := key cell cell' x x' hx
  obtain ⟨_, eB, hyi⟩ := key cell cell' y y' hy
  rw [← hM]
  refine ⟨e1, eA.symm, eB.symm, ?_⟩
  intro d hd d' hd' P hP
  subst eA eB
  subst e1
  have hdet' : (bigCell cell dims).det ≠ 0 := by
    have : (bigCell cell dims).det = (dims 0 * dims 1 * dims 2 : ℝ) * cell.det := by
      simp only [bigCell, Matrix.det_fin_three, Matrix.of_apply]; ring
    rw [this]
    have h' : ∀ k, (dims k : ℝ) ≠ 0 := fun k => by exact_mod_cast h k
    exact mul_ne_zero (mul_ne_zero (mul_ne_zero (h' 0) (h' 1)) (h' 2)) hdet
  rw [pairs_images cell hdet x y d hd P hP,
    pairs_images _ hdet' x' y' d' hd' P (fun r hr => lt_of_lt_of_le (hP r hr) (smith_big cell dims h)),
    images_big cell dims h v hinj hv x y x' y' (fun i b => by simpa using hxi i b) (fun i b => by simpa using hyi i b) P]
  push_cast
  ring

theorem volume_big (cell : Cell) (dims : Fin 3 → Int) :
    volumeCell (bigCell cell dims) = ((dims 0).natAbs * (dims 1).natAbs * (dims 2).natAbs : Nat) * volumeCell cell := by
  have : (bigCell cell dims).det = (dims 0 * dims 1 * dims 2 : ℝ) * cell.det := by
    simp only [bigCell, Matrix.det_fin_three, Matrix.of_apply]; ring
  unfold volumeCell
  rw [this, abs_mul, abs_mul, abs_mul]
  push_cast [Nat.cast_natAbs]
  rfl

section
variable {T A B A' B' : Nat} {cell cell' : Cell} {dims : Fin 3 → Int} {method : Nat} {direc : Int}
  {x : Fin T → Fin A → V3} {y : Fin T → Fin B → V3} {x' : Fin T → Fin A' → V3} {y' : Fin T → Fin B' → V3}
  {dr rmax : ℝ} {dmask : Option (ℝ → Prop)} {eps : ℝ} {out out' : List (ℝ × ℝ × ℝ)}

theorem number_big (hT : 0 < T) (hdet : cell.det ≠ 0) (h : ∀ k, dims k ≠ 0) (hdi : direc = 1 ∨ direc = -1)
    (hx : ∀ t, IsScell cell dims method direc (x t) cell' (x' t))
    (hy : ∀ t, IsScell cell dims method direc (y t) cell' (y' t)) {normVmd : Bool}
    (ho : IsRpdf cell (volumeCell cell) x y dr (some rmax) dmask true normVmd eps out)
    (ho' : IsRpdf cell' (volumeCell cell') x' y' dr (some rmax) dmask true normVmd eps out')
    (hdr : 0 < dr) (hr : 0 < rmax) (hsm : rmax ≤ rmaxSmith cell) :
    out'.length = out.length ∧ ∀ (k : Nat) (hk : k < out.length) (hk' : k < out'.length),
      (out'[k]).1 = (out[k]).1 ∧ (out'[k]).2.2 = (out[k]).2.2 ∧ (normVmd = false → (out'[k]).2.1 = (out[k]).2.1) := by
  have hlen : out'.length = out.length := by
    obtain ⟨u, _, rfl⟩ := ho
    obtain ⟨u', _, rfl⟩ := ho'
    simp
  refine ⟨hlen, ?_⟩
  intro k hk hk'
  have hd : ∀ t i j, ∃ r, IsDist cell true (x t i) (y t j) r := fun t i j => (C37_dist_exists cell true (x t i) (y t j)).exists
  choose d hd using hd
  have hd' : ∀ t i j, ∃ r, IsDist cell' true (x' t i) (y' t j) r := fun t i j => (C37_dist_exists cell' true (x' t i) (y' t j)).exists
  choose d' hd' using hd'
  have hb := fun t => pairs_big cell cell' hdet dims h method direc hdi (x t) (y t) (x' t) (y' t) (hx t) (hy t)
  set M := (dims 0).natAbs * (dims 1).natAbs * (dims 2).natAbs with hM
  have hM0 : (M : ℝ) ≠ 0 := by
    rw [hM, Nat.cast_ne_zero]
    exact (Nat.mul_pos (Nat.mul_pos (Int.natAbs_pos.2 (h 0)) (Int.natAbs_pos.2 (h 1))) (Int.natAbs_pos.2 (h 2))).ne'
  obtain ⟨ec, eA, eB, _⟩ := hb ⟨0, hT⟩
  have hp := fun t => (hb t).2.2.2 (d t) (hd t) (d' t) (hd' t)
  obtain ⟨_, _, _, b⟩ := C52_bins ho hdr (by simpa using hr) d hd
  obtain ⟨_, _, _, b'⟩ := C52_bins ho' hdr (by simpa using hr) d' hd'
  obtain ⟨b1, b2, b3⟩ := b k hk
  obtain ⟨b1', b2', b3'⟩ := b' k hk'
  refine ⟨by rw [b1, b1'], ?_, ?_⟩
  · rw [C52_number_integral ho hdr (by simpa using hr) d hd k hk, C52_number_integral ho' hdr (by simpa using hr) d' hd' k hk']
    simp only [Option.getD_some]
    rw [Finset.sum_congr rfl (fun t _ => hp t _ (fun r hr => lt_of_lt_of_le hr.2.2.1 hsm)), ← Finset.mul_sum, eA]
    push_cast
    rw [show (A : ℝ) * M * T = M * (A * T) by ring, mul_div_mul_left _ _ hM0]
  · rintro rfl
    rcases Nat.eq_zero_or_pos k with rfl | hk1
    · rw [b2 rfl, b2' rfl]
    · rw [b3 hk1, b3' hk1]
      simp only [Option.getD_some, Bool.false_eq_true, if_false, sub_zero]
      congr 1
      apply Finset.sum_congr rfl
      intro t _
      rw [hp t _ (fun r hr => lt_of_lt_of_le hr.2.2.1 hsm), ec, volume_big, ← hM, eA, eB]
      generalize 4 / 3 * Real.pi * _ = S
      push_cast
      rw [show (A : ℝ) * M * (B * M) * S / (M * volumeCell cell) = M * (A * B * S / volumeCell cell) by
        rw [show (A : ℝ) * M * (B * M) * S = M * (M * (A * B * S)) by ring, mul_div_mul_left _ _ hM0, mul_div_assoc]]
      rw [mul_div_mul_left _ _ hM0]

/-- **C155**. For every supercell (all non-zero dimensions, both implementations and directions of
`scell`), every bin width, every mask on the distances and every `rmax` up to the radius of `rmax_smith` of the
small cell: `rpdf(norm_vmd=False)` of the supercells of the two selections is the same array as `rpdf`
of the selections themselves. -/
theorem C155_supercell (hT : 0 < T) (hdet : cell.det ≠ 0) (h : ∀ k, dims k ≠ 0) (hdi : direc = 1 ∨ direc = -1)
    (hx : ∀ t, IsScell cell dims method direc (x t) cell' (x' t))
    (hy : ∀ t, IsScell cell dims method direc (y t) cell' (y' t))
    (ho : IsRpdf cell (volumeCell cell) x y dr (some rmax) dmask true false eps out)
    (ho' : IsRpdf cell' (volumeCell cell') x' y' dr (some rmax) dmask true false eps out')
    (hdr : 0 < dr) (hr : 0 < rmax) (hsm : rmax ≤ rmaxSmith cell) : out' = out := by
  obtain ⟨hl, hk⟩ := number_big hT hdet h hdi hx hy ho ho' hdr hr hsm
  apply List.ext_getElem hl
  intro k h1 h2
  obtain ⟨a, b, c⟩ := hk k h2 h1
  exact Prod.ext a (Prod.ext (c rfl) b)

/-- **C155** (partial: `norm_vmd=True`). The radii and the number integral are still the same. -/
theorem C155_number_partial (hT : 0 < T) (hdet : cell.det ≠ 0) (h : ∀ k, dims k ≠ 0) (hdi : direc = 1 ∨ direc = -1)
    (hx : ∀ t, IsScell cell dims method direc (x t) cell' (x' t))
    (hy : ∀ t, IsScell cell dims method direc (y t) cell' (y' t)) {normVmd : Bool}
    (ho : IsRpdf cell (volumeCell cell) x y dr (some rmax) dmask true normVmd eps out)
    (ho' : IsRpdf cell' (volumeCell cell') x' y' dr (some rmax) dmask true normVmd eps out')
    (hdr : 0 < dr) (hr : 0 < rmax) (hsm : rmax ≤ rmaxSmith cell) :
    out'.map (fun r => (r.1, r.2.2)) = out.map (fun r => (r.1, r.2.2)) := by
  obtain ⟨hl, hk⟩ := number_big hT hdet h hdi hx hy ho ho' hdr hr hsm
  apply List.ext_getElem (by simpa using hl)
  intro k h1 h2
  rw [List.length_map] at h1 h2
  obtain ⟨a, b, _⟩ := hk k h2 h1
  simp [a, b]

/-- **C155** (where it does not hold). With `norm_vmd=True` and both selections the same `A` atoms (no two of
them closer than `eps`), `g(r)` of a supercell of `N` cells is not that of the cell: every value is
`N·(A-1)/(N·A-1)` times the old one. -/
theorem C155_vmd_counterexample (hT : 0 < T) (hdet : cell.det ≠ 0) (h : ∀ k, dims k ≠ 0) (hdi : direc = 1 ∨ direc = -1)
    (hx : ∀ t, IsScell cell dims method direc (x t) cell' (x' t))
    (ho : IsRpdf cell (volumeCell cell) x x dr (some rmax) dmask true true eps out)
    (ho' : IsRpdf cell' (volumeCell cell') x' x' dr (some rmax) dmask true true eps out')
    (hdr : 0 < dr) (hr : 0 < rmax) (hsm : rmax ≤ rmaxSmith cell) (heps : 0 < eps) (he : eps ≤ rmaxSmith cell)
    (hA : 1 < A) (hfar : ∀ t i j r, i ≠ j → IsDist cell true (x t i) (x t j) r → eps ≤ r)
    (N : Nat) (hN : N = (dims 0).natAbs * (dims 1).natAbs * (dims 2).natAbs)
    (k : Nat) (hk : k < out.length) (hk' : k < out'.length) :
    (out'[k]).2.1 = N * (A - 1) / (N * A - 1) * (out[k]).2.1 := by
  classical
  have hd : ∀ t i j, ∃ r, IsDist cell true (x t i) (x t j) r := fun t i j => (C37_dist_exists cell true (x t i) (x t j)).exists
  choose d hd using hd
  have hd' : ∀ t i j, ∃ r, IsDist cell' true (x' t i) (x' t j) r := fun t i j => (C37_dist_exists cell' true (x' t i) (x' t j)).exists
  choose d' hd' using hd'
  have hb := fun t => pairs_big cell cell' hdet dims h method direc hdi (x t) (x t) (x' t) (x' t) (hx t) (hx t)
  rw [← hN] at hb
  have hNp : 0 < N := by
    rw [hN]
    exact (Nat.mul_pos (Nat.mul_pos (Int.natAbs_pos.2 (h 0)) (Int.natAbs_pos.2 (h 1))) (Int.natAbs_pos.2 (h 2)))
  have hN0 : (N : ℝ) ≠ 0 := by exact_mod_cast hNp.ne'
  obtain ⟨ec, eA, _, _⟩ := hb ⟨0, hT⟩
  have hp := fun t => (hb t).2.2.2 (d t) (hd t) (d' t) (hd' t)
  have hdup : ∀ t, pairs (d t) (fun r => r < eps) = A := by
    intro t
    unfold pairs
    rw [show {p : Fin A × Fin A | d t p.1 p.2 < eps} = (fun i : Fin A => (i, i)) '' Set.univ by
      ext ⟨i, j⟩
      simp only [Set.mem_ofPred_eq, Set.image_univ, Set.mem_range, Prod.mk.injEq]
      constructor
      · intro hlt
        by_contra hne
        have hij : i ≠ j := fun e => hne ⟨i, rfl, e⟩
        exact absurd hlt (not_lt.2 (hfar t i j _ hij (hd t i j)))
      · rintro ⟨a, rfl, rfl⟩
        have h0 := (C82_diagonal cell true (x t a) (x t a) _ (hd t a a)).2
        rw [(C37_dist_exists cell true (x t a) (x t a)).unique (hd t a a) h0]
        exact heps]
    rw [Set.ncard_image_of_injective _ (fun a b e => (Prod.mk.inj e).1), Set.ncard_univ, Nat.card_eq_fintype_card, Fintype.card_fin]
  obtain ⟨_, _, _, b⟩ := C52_bins ho hdr (by simpa using hr) d hd
  obtain ⟨_, _, _, b'⟩ := C52_bins ho' hdr (by simpa using hr) d' hd'
  obtain ⟨_, b2, b3⟩ := b k hk
  obtain ⟨_, b2', b3'⟩ := b' k hk'
  rcases Nat.eq_zero_or_pos k with rfl | hk1
  · rw [b2 rfl, b2' rfl, mul_zero]
  · rw [b3 hk1, b3' hk1, ← mul_div_assoc, Finset.mul_sum]
    simp only [Option.getD_some, if_true]
    congr 1
    apply Finset.sum_congr rfl
    intro t _
    rw [hp t _ (fun r hr => lt_of_lt_of_le hr.2.2.1 hsm), hp t _ (fun r hr => lt_of_lt_of_le hr he), hdup, ec, volume_big, ← hN, eA]
    generalize 4 / 3 * Real.pi * _ = S
    generalize volumeCell cell = V
    generalize pairs (d t) _ = p
    have hA' : (1 : ℝ) < A := by exact_mod_cast hA
    have hN1 : (1 : ℝ) ≤ N := by exact_mod_cast hNp
    have h1 : (N : ℝ) * A - 1 ≠ 0 := by nlinarith
    have h2 : (A : ℝ) - 1 ≠ 0 := by linarith
    have h3 : (A : ℝ) ≠ 0 := by linarith
    push_cast
    rw [show ((A : ℝ) * N * (A * N) - N * A) * S / (N * V) = (N * A - 1) * (A * (S / V)) by
        rw [show ((A : ℝ) * N * (A * N) - N * A) * S = N * ((N * A - 1) * (A * S)) by ring, mul_div_mul_left _ _ hN0]
        ring,
      show ((A : ℝ) * A - A) * S / V = (A - 1) * (A * (S / V)) by ring]
    by_cases hS : S / V = 0
    · simp [hS]
    · field_simp
end

/-! Non-vacuity: atoms at 0 and (1/4, 0, 0) in a unit cube, supercell `2 × 1 × 1`. -/

/-- The two atoms. -/
noncomputable def exTwo : Fin 1 → Fin 2 → V3 := fun _ i => ![![0, 0, 0], ![1/4, 0, 0]] i

theorem exTwo_dist : IsDist (1 : Cell) true (exTwo 0 0) (exTwo 0 1) (1/4) := exDist

/-- The supercell exists, and both calls of `rpdf` return; the number integral contains the pair. -/
example : ∃ (A' : Nat) (cell' : Cell) (x' : Fin 1 → Fin A' → V3) (out out' : List (ℝ × ℝ × ℝ)),
    (∀ t, IsScell (1 : Cell) ![2, 1, 1] 1 1 (exTwo t) cell' (x' t)) ∧
    IsRpdf (1 : Cell) (volumeCell 1) exTwo exTwo (1/10) (some (1/2)) none true false 0 out ∧
    IsRpdf cell' (volumeCell cell') x' x' (1/10) (some (1/2)) none true false 0 out' ∧
    (1 / 2 : ℝ) ≤ rmaxSmith (1 : Cell) ∧ out' = out ∧ ∃ h : out ≠ [], 0 < (out.getLast h).2.2 := by
  have hdims : ∀ k, (![2, 1, 1] : Fin 3 → Int) k ≠ 0 := by intro k; fin_cases k <;> simp
  obtain ⟨sc, _, hsc, _⟩ := C34_scell ⟨List.ofFn (exTwo 0), 1, some ["H", "H"]⟩ ![2, 1, 1]
    hdims 1 (Or.inl rfl) 1 (Or.inl rfl) ["H", "H"] rfl
  have hS : ∀ t, IsScell (1 : Cell) ![2, 1, 1] 1 1 (exTwo t) sc.cell
      (fun i : Fin sc.coordsFrac.length => sc.coordsFrac[i]) := by
    intro t
    rw [Subsingleton.elim t 0]
    exact ⟨_, sc, hsc, by simp [List.ofFn_getElem], rfl⟩
  obtain ⟨out, ho, _⟩ := C52_total (cell := (1 : Cell)) (volume := volumeCell 1) (x := exTwo) (y := exTwo)
    (dr := 1/10) (rmax := some (1/2)) (dmask := none) (pbc := true) (normVmd := false) (eps := 0)
  obtain ⟨out', ho', _⟩ := C52_total (T := 1) (cell := sc.cell) (volume := volumeCell sc.cell)
    (x := fun _ (i : Fin sc.coordsFrac.length) => sc.coordsFrac[i])
    (y := fun _ (i : Fin sc.coordsFrac.length) => sc.coordsFrac[i])
    (dr := 1/10) (rmax := some (1/2)) (dmask := none) (pbc := true) (normVmd := false) (eps := 0)
  have hsm : (1 / 2 : ℝ) ≤ rmaxSmith (1 : Cell) := by rw [exSmith]
  have hr : 0 < (some (1/2 : ℝ)).getD (rmaxSmith (1 : Cell)) := by norm_num
  have hd : ∀ t i j, ∃ r, IsDist (1 : Cell) true (exTwo t i) (exTwo t j) r := fun t i j =>
    (C37_dist_exists _ true (exTwo t i) (exTwo t j)).exists
  choose d hd using hd
  have hne : out ≠ [] := List.ne_nil_of_length_pos (C52_bins ho (by norm_num) hr d hd).1
  refine ⟨_, sc.cell, _, out, out', hS, ho, ho', hsm,
    C155_supercell (by norm_num) (by simp) hdims (Or.inl rfl) hS hS ho ho' (by norm_num) (by norm_num) hsm, hne, ?_⟩
  rw [C52_largest_radius_partial ho (by norm_num) hr d hd hne]
  apply div_pos _ (by norm_num)
  rw [Fin.sum_univ_one]
  unfold pairs
  rw [Nat.cast_pos, Set.ncard_pos]
  refine ⟨(0, 1), ?_⟩
  have : d 0 0 1 = 1/4 := (C37_dist_exists _ true _ _).unique (hd 0 0 1) exTwo_dist
  simp only [Set.mem_ofPred_eq, this]
  exact ⟨by norm_num, by norm_num, by intro p hp; cases hp⟩

end Pwtools.Rp
