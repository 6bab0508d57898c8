import Verif.Model.Num
import Verif.Spec.Num
import Verif.Spec.NdArray
import Verif.Props.Comb
import Mathlib.Tactic.Ring
import Mathlib.Tactic.FieldSimp
import Mathlib.Tactic.Linarith
import Mathlib.LinearAlgebra.Matrix.Determinant.Basic
/-!
# C21, C22, C26, C27, C29, C31: vectors and numbers
-/
namespace Pwtools.Num
open Spec Nd

/-! ### vlinspace, kpath -/
section vec
variable {K ι : Type} [Field K]

theorem cumsumFrom_replicate (acc d : ι → K) (n j : Nat) (hj : j < n) :
    (cumsumFrom acc (List.replicate n d))[j]? = some (fun i => acc i + ((j + 1 : Nat) : K) * d i) := by
  induction n generalizing acc j with
  | zero => omega
  | succ n ih =>
    rw [List.replicate_succ, cumsumFrom]
    cases j with
    | zero => simp; rfl
    | succ j =>
      rw [List.getElem?_cons_succ, ih (acc + d) j (by omega)]
      congr 1
      funext i
      simp only [Pi.add_apply]
      push_cast
      ring

theorem cumsumFrom_length {V : Type} [Add V] (acc : V) (l : List V) : (cumsumFrom acc l).length = l.length := by
  induction l generalizing acc with
  | nil => rfl
  | cons r l ih => simp [cumsumFrom, ih]

theorem between_zero (a b : ι → K) (n : Nat) : between a b 0 n = a := by
  funext i; simp [between]

theorem between_self [CharZero K] (a b : ι → K) (n : Nat) (h : n ≠ 0) : between a b n n = b := by
  funext i
  have : (n : K) ≠ 0 := Nat.cast_ne_zero.2 h
  simp [between, div_self this]

/-- **C21** (points of `vlinspace`). For `num ≥ 1`: `num` points, point `j` divides the way from `a`
to `b` in the proportion `j : num - 1` (with the end point) or `j : num` (without). -/
theorem C21_vlinspace (a b : ι → K) (num : Nat) (endpoint : Bool) (hn : 1 ≤ num) :
    ∃ rows, vlinspace a b num endpoint = some rows ∧ rows.length = num ∧
      ∀ j, j < num → rows[j]? = some (between a b j (if endpoint then num - 1 else num)) := by
  obtain ⟨n, rfl⟩ : ∃ n, num = n + 1 := ⟨num - 1, by omega⟩
  unfold vlinspace
  rw [if_pos hn]
  simp only [List.replicate_succ, List.set_cons_zero, cumsum]
  refine ⟨_, rfl, by simp [cumsumFrom_length], ?_⟩
  intro j hj
  cases j with
  | zero => simp [between_zero]
  | succ j =>
    rw [List.getElem?_cons_succ, cumsumFrom_replicate _ _ _ _ (by omega)]
    congr 1
    funext i
    simp only [between]
    cases endpoint
    · simp only [Bool.false_eq_true, if_false, Pi.sub_apply]
      ring
    · have : ¬ (n + 1 = 1) := by omega
      simp only [if_true, this, if_false, Pi.sub_apply]
      ring

/-- **C21** (ends of `vlinspace`). The first point is `a`; the last point is `b` with
`endpoint=True`, and is not `b` with `endpoint=False` unless `a = b`. -/
theorem C21_vlinspace_ends [CharZero K] (a b : ι → K) (num : Nat) (endpoint : Bool) (rows : List (ι → K))
    (h : vlinspace a b num endpoint = some rows) :
    rows[0]? = some a ∧
    (2 ≤ num → endpoint = true → rows[num - 1]? = some b) ∧
    (endpoint = false → a ≠ b → rows[num - 1]? ≠ some b) := by
  have hn : 1 ≤ num := by
    by_contra hc
    unfold vlinspace at h
    rw [if_neg hc] at h; cases h
  obtain ⟨r, h1, h2, h3⟩ := C21_vlinspace a b num endpoint hn
  rw [h] at h1; cases h1
  refine ⟨?_, ?_, ?_⟩
  · rw [h3 0 (by omega), between_zero]
  · rintro h2 rfl
    rw [h3 (num - 1) (by omega), if_pos rfl, between_self a b _ (by omega)]
  · rintro rfl hab
    rw [h3 (num - 1) (by omega)]
    simp only [Bool.false_eq_true, if_false, ne_eq, Option.some.injEq]
    intro hb
    apply hab
    have hk : ((num : Nat) : K) ≠ 0 := by rw [Nat.cast_ne_zero]; omega
    have hk1 : ((num - 1 : Nat) : K) = (num : K) - 1 := by rw [Nat.cast_sub hn]; simp
    funext i
    have hi := congrFun hb i
    simp only [between] at hi
    rw [hk1] at hi
    field_simp at hi
    linear_combination hi

/-- **C21** (errors). -/
theorem C21_vlinspace_error (a b : ι → K) (endpoint : Bool) : vlinspace a b 0 endpoint = none := rfl

theorem kpathLoop_spec (vecs : List (ι → K)) (N : Nat) (hN : 1 ≤ N) (s c : Nat) (hs : 1 ≤ s) (hc : s + c ≤ vecs.length)
    (new : Nat → Option (ι → K)) :
    ∃ new', kpathLoop vecs N ((List.range' s c)) new = some new' ∧
      (∀ j, j < (s - 1) * N → new' j = new j) ∧
      (∀ i j a b, s - 1 ≤ i → i < s - 1 + c → j < N → vecs[i]? = some a → vecs[i + 1]? = some b →
        new' (i * N + j) = some (between a b j N)) := by
  induction c generalizing s new with
  | zero =>
    refine ⟨new, rfl, fun _ _ => rfl, ?_⟩
    intro i j a b h1 h2; omega
  | succ c ih =>
    obtain ⟨a, ha⟩ : ∃ a, vecs[s - 1]? = some a := ⟨_, List.getElem?_eq_getElem (by omega)⟩
    obtain ⟨b, hb⟩ : ∃ b, vecs[s]? = some b := ⟨_, List.getElem?_eq_getElem (by omega)⟩
    obtain ⟨rows, h1, h2, h3⟩ := C21_vlinspace a b N false hN
    obtain ⟨new', h4, h5, h6⟩ := ih (s + 1) (by omega) (by omega) (setRows new ((s - 1) * N) rows)
    have hsN : (s + 1 - 1) * N = (s - 1) * N + N := by
      rw [← Nat.succ_mul]; congr 1; omega
    refine ⟨new', ?_, ?_, ?_⟩
    · rw [List.range'_succ, kpathLoop, ha, hb]
      simp only [h1, h4]
    · intro j hj
      rw [h5 j (by omega)]
      unfold setRows
      rw [if_neg (by omega)]
    · intro i j a' b' hi1 hi2 hj ha' hb'
      by_cases his : i = s - 1
      · subst his
        rw [ha] at ha'
        rw [show s - 1 + 1 = s by omega, hb] at hb'
        cases ha'; cases hb'
        rw [h5 _ (by rw [hsN]; omega)]
        unfold setRows
        rw [if_pos (by omega), show (s - 1) * N + j - (s - 1) * N = j by omega, h3 j hj]
        simp
      · exact h6 i j a' b' (by omega) (by omega) hj ha' hb'

/-- **C21** (`kpath`). For `K ≥ 1` vertices and `N ≥ 1` there are `N*(K-1)+1` points, all assigned;
point `i*N + j` (`j < N`) divides the way from vertex `i` to vertex `i+1` in the proportion `j : N`,
and the last point is the last vertex. -/
theorem C21_kpath (vecs : List (ι → K)) (N : Nat) (hN : 1 ≤ N) (hK : 1 ≤ vecs.length) :
    ∃ rows, kpath vecs N = some rows ∧ rows.length = (vecs.length - 1) * N + 1 ∧
      (∀ i j a b, j < N → vecs[i]? = some a → vecs[i + 1]? = some b →
        rows[i * N + j]? = some (some (between a b j N))) ∧
      (∀ last, vecs.getLast? = some last → rows[(vecs.length - 1) * N]? = some (some last)) := by
  obtain ⟨last, hl⟩ : ∃ last, vecs.getLast? = some last := by
    rcases h : vecs.getLast? with _ | l
    · rw [List.getLast?_eq_none_iff] at h; simp [h] at hK
    · exact ⟨l, rfl⟩
  obtain ⟨new, h1, h2, h3⟩ := kpathLoop_spec vecs N hN 1 (vecs.length - 1) (by omega) (by omega) (fun _ => none)
  have hr : (List.range (vecs.length - 1)).map (· + 1) = List.range' 1 (vecs.length - 1) := by
    rw [List.range'_eq_map_range]
    simp only [Nat.add_comm]
  unfold kpath
  simp only [hl, hr, h1]
  refine ⟨_, rfl, by simp, ?_, ?_⟩
  · intro i j a b hj ha hb
    have hi : i + 1 < vecs.length := (List.getElem?_eq_some_iff.1 hb).1
    have hlt : i * N + j < (vecs.length - 1) * N := by
      have : (i + 1) * N ≤ (vecs.length - 1) * N := Nat.mul_le_mul_right _ (by omega)
      rw [Nat.succ_mul] at this; omega
    rw [List.getElem?_map, List.getElem?_range (by omega)]
    simp only [Option.map_some, setRows, List.length_singleton]
    rw [if_neg (by omega), h3 i j a b (by omega) (by omega) hj ha hb]
  · rintro l h
    cases h
    rw [List.getElem?_map, List.getElem?_range (by omega)]
    simp [setRows]

/-- **C21** (vertices). `kpath` passes vertex `i` at index `i*N`, for every vertex. -/
theorem C21_kpath_vertices (vecs : List (ι → K)) (N : Nat) (hN : 1 ≤ N) (hK : 1 ≤ vecs.length) :
    ∃ rows, kpath vecs N = some rows ∧
      ∀ i v, vecs[i]? = some v → rows[i * N]? = some (some v) := by
  obtain ⟨rows, h1, h2, h3, h4⟩ := C21_kpath vecs N hN hK
  refine ⟨rows, h1, ?_⟩
  intro i v hv
  have hi : i < vecs.length := (List.getElem?_eq_some_iff.1 hv).1
  by_cases hl : i + 1 < vecs.length
  · have := h3 i 0 v _ (by omega) hv (List.getElem?_eq_getElem hl)
    rw [Nat.add_zero] at this
    rw [this, between_zero]
  · have : i = vecs.length - 1 := by omega
    subst this
    apply h4
    rw [List.getLast?_eq_getElem?, hv]

/-- **C21** (nothing twice). In a segment between two different vertices all points are different,
also from the vertex that ends it. -/
theorem C21_kpath_distinct [CharZero K] (a b : ι → K) (hab : a ≠ b) (N : Nat) (hN : 1 ≤ N) (j k : Nat)
    (h : between a b j N = between a b k N) : j = k := by
  obtain ⟨i, hi⟩ := Function.ne_iff.1 hab
  have := congrFun h i
  simp only [between, add_right_inj] at this
  have hne : b i - a i ≠ 0 := sub_ne_zero.2 (Ne.symm hi)
  have hN' : (N : K) ≠ 0 := by rw [Nat.cast_ne_zero]; omega
  have h2 := mul_right_cancel₀ hne this
  rw [div_left_inj' hN'] at h2
  exact_mod_cast h2

/-- **C21** (errors of `kpath`). No vertices, or no points per segment for at least two vertices. -/
theorem C21_kpath_errors (N : Nat) (a b : ι → K) (rest : List (ι → K)) :
    kpath ([] : List (ι → K)) N = none ∧ kpath (a :: b :: rest) 0 = none := by
  refine ⟨rfl, ?_⟩
  unfold kpath
  simp only [List.length_cons, Nat.add_sub_cancel, List.range_succ_eq_map, List.map_cons, kpathLoop,
    List.getElem?_cons_zero, List.getElem?_cons_succ, Nat.zero_add, Nat.sub_self, C21_vlinspace_error]
  rcases h : (a :: b :: rest).getLast? with _ | l <;> rfl

/-- Non-vacuity: three vertices in the plane, 2 points per segment. -/
example : ∃ rows, kpath ([![0, 0], ![2, 0], ![2, 4]] : List (Fin 2 → ℚ)) 2 = some rows ∧
    rows.length = 5 ∧ rows[3]? = some (some (between ![2, 0] ![2, 4] 1 2)) ∧ rows[4]? = some (some ![2, 4]) := by
  obtain ⟨rows, h1, h2, h3, h4⟩ := C21_kpath ([![0, 0], ![2, 0], ![2, 4]] : List (Fin 2 → ℚ)) 2 (by decide) (by decide)
  exact ⟨rows, h1, h2, h3 1 1 _ _ (by decide) rfl rfl, h4 _ rfl⟩

end vec

/-! ### Path norm -/

theorem vnorm_sub {d : Nat} (a b : Fin d → ℝ) : vnorm (b - a) = euclid a b := by
  unfold vnorm euclid
  congr 1
  apply Finset.sum_congr rfl
  intro i _
  simp only [Pi.sub_apply]; ring

theorem cumsumFrom_get (acc : ℝ) (l : List ℝ) (j : Nat) (hj : j < l.length) :
    (cumsumFrom acc l)[j]? = some (acc + (l.take (j + 1)).sum) := by
  induction l generalizing acc j with
  | nil => simp at hj
  | cons r l ih =>
    rw [cumsumFrom]
    cases j with
    | zero => simp
    | succ j =>
      rw [List.getElem?_cons_succ, ih (acc + r) j (by simpa using hj)]
      simp [add_assoc]

theorem getPathNorm_get {d : Nat} (k0 : Fin d → ℝ) (rest : List (Fin d → ℝ)) :
    ∃ p, getPathNorm (k0 :: rest) = some p ∧ p.length = rest.length + 1 ∧ p[0]? = some (vnorm k0) ∧
      ∀ (i : Nat) a b x y, (k0 :: rest)[i]? = some a → (k0 :: rest)[i + 1]? = some b →
        p[i]? = some x → p[i + 1]? = some y → y = x + euclid a b := by
  refine ⟨_, rfl, ?_, ?_, ?_⟩
  · simp [cumsum, cumsumFrom_length]
  · simp [cumsum]
  · intro i a b x y ha hb hx hy
    simp only [cumsum] at hx hy
    have hil : i < rest.length := by
      have := (List.getElem?_eq_some_iff.1 hb).1
      simpa using this
    have hlen : i < ((List.zipWith (fun a b => b - a) (k0 :: rest) rest).map vnorm).length := by simp; omega
    have hget : ((List.zipWith (fun a b => b - a) (k0 :: rest) rest).map vnorm)[i]? = some (euclid a b) := by
      rw [List.getElem?_map, List.getElem?_zipWith, ha]
      rw [List.getElem?_cons_succ] at hb
      rw [hb]
      simp [vnorm_sub]
    rw [List.getElem?_cons_succ, cumsumFrom_get _ _ _ hlen] at hy
    have hsum : (((List.zipWith (fun a b => b - a) (k0 :: rest) rest).map vnorm).take (i + 1)).sum =
        (((List.zipWith (fun a b => b - a) (k0 :: rest) rest).map vnorm).take i).sum + euclid a b := by
      rw [List.take_add_one, hget]; simp
    rw [hsum] at hy
    cases i with
    | zero => simp at hx hy; subst hx; rw [← hy]
    | succ i =>
      rw [List.getElem?_cons_succ, cumsumFrom_get _ _ _ (by omega)] at hx
      simp only [Option.some.injEq] at hx hy
      rw [← hx, ← hy]; ring

/-- **C22** (part that holds). `get_path_norm` has one value per k-point, neighbouring values differ
by the distance of the k-points, hence it never decreases. Missing: the first value is the norm of
the first k-point instead of 0, see `C22_start`. -/
theorem C22_path_norm_partial {d : Nat} (ks : List (Fin d → ℝ)) (h : ks ≠ []) :
    ∃ p, getPathNorm ks = some p ∧ p.length = ks.length ∧
      ∀ (i : Nat) a b x y, ks[i]? = some a → ks[i + 1]? = some b → p[i]? = some x → p[i + 1]? = some y →
        y = x + euclid a b ∧ x ≤ y := by
  rcases ks with _ | ⟨k0, rest⟩
  · exact absurd rfl h
  obtain ⟨p, h1, h2, h3, h4⟩ := getPathNorm_get k0 rest
  refine ⟨p, h1, h2, ?_⟩
  intro i a b x y ha hb hx hy
  have := h4 i a b x y ha hb hx hy
  refine ⟨this, ?_⟩
  have : 0 ≤ euclid a b := Real.sqrt_nonneg _
  linarith

/-- **C22** fails at the start: the first value is 0 if and only if the first k-point is the
origin. -/
theorem C22_start {d : Nat} (k0 : Fin d → ℝ) (rest : List (Fin d → ℝ)) :
    ∃ p, getPathNorm (k0 :: rest) = some p ∧ (p[0]? = some 0 ↔ k0 = 0) := by
  obtain ⟨p, h1, _, h3, _⟩ := getPathNorm_get k0 rest
  refine ⟨p, h1, ?_⟩
  rw [h3, Option.some.injEq]
  unfold vnorm
  rw [Real.sqrt_eq_zero (Finset.sum_nonneg (fun i _ => sq_nonneg _)),
    Finset.sum_eq_zero_iff_of_nonneg (fun i _ => sq_nonneg _)]
  constructor
  · intro h; funext i; simpa using h i (Finset.mem_univ i)
  · rintro rfl; simp

/-- The failure with numbers: a path that starts at (3, 4) starts with the value 5. -/
theorem C22_start_example : ∃ p, getPathNorm [![(3 : ℝ), 4], ![6, 8]] = some p ∧ p = [5, 10] := by
  refine ⟨_, rfl, ?_⟩
  have h1 : vnorm ![(3 : ℝ), 4] = 5 := by
    unfold vnorm
    rw [show (∑ i, (![(3 : ℝ), 4] i) ^ 2) = 5 ^ 2 by simp [Fin.sum_univ_two]; norm_num]
    exact Real.sqrt_sq (by norm_num)
  have h2 : vnorm (![(6 : ℝ), 8] - ![3, 4]) = 5 := by
    unfold vnorm
    rw [show (∑ i, ((![(6 : ℝ), 8] - ![3, 4] : Fin 2 → ℝ) i) ^ 2) = 5 ^ 2 by simp [Fin.sum_univ_two]; norm_num]
    exact Real.sqrt_sq (by norm_num)
  simp only [cumsum, cumsumFrom, List.zipWith_cons_cons, List.map_cons, h1, h2]
  norm_num [cumsumFrom]

end Pwtools.Num
