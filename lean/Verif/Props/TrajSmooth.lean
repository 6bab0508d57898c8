import Verif.Props.SmoothShape
import Verif.Spec.TrajSmooth
import Mathlib.LinearAlgebra.Pi
import Mathlib.Tactic.FinCases
/-!
# `crys.smooth`: C169
-/
namespace Pwtools.Tr
open Pwtools.Sig Pwtools.Spec Finset

variable {K : Type} [Field K] [DecidableEq K]

/-! ### The loops over columns -/

omit [Field K] [DecidableEq K] in
theorem zipWith_snd {α β : Type} (l : List α) (b : List β) (h : l.length = b.length) : List.zipWith (fun _ y => y) l b = b := by
  induction l generalizing b with
  | nil => cases b with
    | nil => rfl
    | cons _ _ => simp at h
  | cons x l ih => cases b with
    | nil => simp at h
    | cons y b => simp only [List.zipWith_cons_cons]; rw [ih b (by simpa using h)]

theorem smooth_col2 {m : Nat} (kern : List K) (a : List (Fin m → K)) (j : Fin m) :
    smooth (a.map (fun row => row j)) kern "m" true = (smooth a kern "m" true).map (List.map fun row => row j) :=
  C168_linear_map (LinearMap.proj (R := K) (φ := fun _ : Fin m => K) j) a kern "m" true

theorem smooth_col3 {n m : Nat} (kern : List K) (a : List (Fin n → Fin m → K)) (j : Fin n) (k : Fin m) :
    smooth (a.map (fun row => row j k)) kern "m" true = (smooth a kern "m" true).map (List.map fun row => row j k) :=
  C168_linear_map ((LinearMap.proj (R := K) (φ := fun _ : Fin m => K) k) ∘ₗ
    (LinearMap.proj (R := K) (φ := fun _ : Fin n => (Fin m → K)) j)) a kern "m" true

theorem cols2_some {m : Nat} (kern : List K) (a b : List (Fin m → K)) (hb : smooth a kern "m" true = some b) :
    ∀ (r : List (Fin m)) (tmp : List (Fin m → K)), tmp.length = b.length → cols2 kern a r tmp =
      some (List.zipWith (fun row brow => fun j => if j ∈ r then brow j else row j) tmp b) := by
  intro r
  induction r with
  | nil =>
    intro tmp ht
    simp only [cols2, List.not_mem_nil, if_false, Option.some.injEq]
    apply List.ext_getElem
    · rw [List.length_zipWith]; omega
    · intro i h1 h2
      rw [List.getElem_zipWith]
  | cons jj r ih =>
    intro tmp ht
    simp only [cols2]
    rw [smooth_col2, hb]
    simp only [Option.map_some]
    rw [ih _ (by rw [List.length_zipWith, List.length_map]; omega)]
    congr 1
    apply List.ext_getElem
    · simp only [List.length_zipWith, List.length_map]; omega
    · intro i h1 h2
      simp only [List.getElem_zipWith, List.getElem_map]
      funext j
      by_cases hj : j ∈ r
      · rw [if_pos hj, if_pos (List.mem_cons_of_mem _ hj)]
      · rw [if_neg hj]
        by_cases hjj : j = jj
        · subst hjj; rw [Function.update_self, if_pos (List.mem_cons_self ..)]
        · rw [Function.update_of_ne hjj, if_neg (by simp [hjj, hj])]

theorem cols3_some {n m : Nat} (kern : List K) (a b : List (Fin n → Fin m → K)) (hb : smooth a kern "m" true = some b) :
    ∀ (r : List (Fin n × Fin m)) (tmp : List (Fin n → Fin m → K)), tmp.length = b.length → cols3 kern a r tmp =
      some (List.zipWith (fun row brow => fun j k => if (j, k) ∈ r then brow j k else row j k) tmp b) := by
  intro r
  induction r with
  | nil =>
    intro tmp ht
    simp only [cols3, List.not_mem_nil, if_false, Option.some.injEq]
    apply List.ext_getElem
    · rw [List.length_zipWith]; omega
    · intro i h1 h2
      rw [List.getElem_zipWith]
  | cons jk r ih =>
    obtain ⟨jj, kk⟩ := jk
    intro tmp ht
    simp only [cols3]
    rw [smooth_col3, hb]
    simp only [Option.map_some]
    rw [ih _ (by rw [List.length_zipWith, List.length_map]; omega)]
    congr 1
    apply List.ext_getElem
    · simp only [List.length_zipWith, List.length_map]; omega
    · intro i h1 h2
      simp only [List.getElem_zipWith, List.getElem_map]
      funext j k
      by_cases hj : (j, k) ∈ r
      · rw [if_pos hj, if_pos (List.mem_cons_of_mem _ hj)]
      · rw [if_neg hj]
        by_cases hjj : j = jj
        · subst hjj
          rw [Function.update_self]
          by_cases hkk : k = kk
          · subst hkk; rw [Function.update_self, if_pos (List.mem_cons_self ..)]
          · rw [Function.update_of_ne hkk, if_neg (by simp [hkk, hj])]
        · rw [Function.update_of_ne hjj, if_neg (by simp [hjj, hj])]

theorem smooth_length {E : Type} [AddCommGroup E] [Module K E] (a b : List E) (kern : List K) (edge : String) (norm : Bool)
    (h : smooth a kern edge norm = some b) : b.length = a.length := by
  unfold smooth at h
  dsimp only at h
  cases hsig : smoothSig a kern.length edge with
  | none => rw [hsig] at h; simp at h
  | some sig =>
    rw [hsig] at h
    dsimp only at h
    generalize (if norm = true then List.map (fun v => v / kern.sum) kern else kern) = kk at h
    by_cases hc : norm = true ∧ kern.sum = 0
    · rw [if_pos hc] at h; simp at h
    rw [if_neg hc] at h
    by_cases hc2 : kern.length = 0 ∨ (convValid sig kk).length ≠ a.length + kern.length + 1
    · rw [if_pos hc2] at h; simp at h
    rw [if_neg hc2] at h
    by_cases hp : kern.length % 2 = 0
    · simp only [hp, if_true] at h
      split at h
      · rename_i hl
        rw [Option.some.injEq] at h
        rw [← h]; exact hl
      · simp at h
    · simp only [hp, if_false] at h
      split at h
      · rename_i hl
        rw [Option.some.injEq] at h
        rw [← h]; exact hl
      · simp at h

/-- **C169** (method). For arrays of positive width both methods do the same, whatever the unknown contents of new arrays:
same result or both fail. -/
theorem C169_methods (mem mem' : Mem K) (kern : List K) (a : Att K) (ha : attNonempty a) :
    smoothAtt mem 1 kern a = smoothAtt mem' 2 kern a := by
  cases a with
  | d1 a => rfl
  | other => rfl
  | d2 m a =>
    simp only [smoothAtt, if_true, show ¬ (2 : Nat) = 1 by decide, if_false]
    cases hb : smooth a kern "m" true with
    | none =>
      obtain ⟨m, rfl⟩ : ∃ m', m = m' + 1 := ⟨m - 1, by have : 0 < m := ha; omega⟩
      rw [List.finRange_succ]
      simp only [cols2]
      rw [smooth_col2, hb]
      rfl
    | some b =>
      have hl := smooth_length a b kern "m" true hb
      rw [cols2_some kern a b hb _ _ (by rw [mem.len2, hl])]
      simp only [List.mem_finRange, if_true, Option.map_some]
      congr 2
      exact zipWith_snd _ _ (by rw [mem.len2, hl])
  | d3 n m a =>
    simp only [smoothAtt, if_true, show ¬ (2 : Nat) = 1 by decide, if_false]
    cases hb : smooth a kern "m" true with
    | none =>
      obtain ⟨n, rfl⟩ : ∃ n', n = n' + 1 := ⟨n - 1, by have : 0 < n := ha.1; omega⟩
      obtain ⟨m, rfl⟩ : ∃ m', m = m' + 1 := ⟨m - 1, by have : 0 < m := ha.2; omega⟩
      rw [List.finRange_succ, List.finRange_succ]
      simp only [List.flatMap_cons, List.map_cons, List.cons_append, cols3]
      rw [smooth_col3, hb]
      rfl
    | some b =>
      have hl := smooth_length a b kern "m" true hb
      rw [cols3_some kern a b hb _ _ (by rw [mem.len3, hl])]
      have : ∀ (j : Fin n) (k : Fin m), (j, k) ∈ (List.finRange n).flatMap (fun jj => (List.finRange m).map (fun kk => (jj, kk))) := by
        intro j k
        simp
      simp only [this, if_true, Option.map_some]
      congr 2
      exact zipWith_snd _ _ (by rw [mem.len3, hl])

/-! ### The whole trajectory -/

theorem smoothAtt_series (mem : Mem K) (kern : List K) (method : Nat) (hm : method = 1 ∨ method = 2) (a : Att K)
    (hn : ∃ N, attSteps a = some N ∧ 1 ≤ N) (hM : 1 ≤ kern.length) (hs : kern.sum ≠ 0) :
    ∃ b, smoothAtt mem method kern a = some b ∧ attSteps b = attSteps a ∧ SeriesSmoothed kern a b := by
  obtain ⟨N, hN, hN1⟩ := hn
  cases a with
  | other => simp [attSteps] at hN
  | d1 a =>
    simp only [attSteps, Option.some.injEq] at hN
    obtain ⟨b, h1, h2⟩ := C59_shape a kern "m" (Or.inl rfl) true hM (by omega) (fun _ => hs)
    refine ⟨.d1 b, ?_, by simp [attSteps, h2], h1⟩
    rcases hm with rfl | rfl <;> simp [smoothAtt, h1]
  | d2 m a =>
    simp only [attSteps, Option.some.injEq] at hN
    obtain ⟨b, h1, h2⟩ := C59_shape a kern "m" (Or.inl rfl) true hM (by omega) (fun _ => hs)
    refine ⟨.d2 m b, ?_, by simp [attSteps, h2], rfl, h2.symm, ?_⟩
    · rcases hm with rfl | rfl
      · simp only [smoothAtt, if_true]
        rw [cols2_some kern a b h1 _ _ (by rw [mem.len2, h2])]
        simp only [List.mem_finRange, if_true, Option.map_some]
        congr 2
        exact zipWith_snd _ _ (by rw [mem.len2, h2])
      · simp [smoothAtt, h1]
    · intro j
      rw [smooth_col2, h1]; rfl
  | d3 n m a =>
    simp only [attSteps, Option.some.injEq] at hN
    obtain ⟨b, h1, h2⟩ := C59_shape a kern "m" (Or.inl rfl) true hM (by omega) (fun _ => hs)
    refine ⟨.d3 n m b, ?_, by simp [attSteps, h2], rfl, rfl, h2.symm, ?_⟩
    · rcases hm with rfl | rfl
      · simp only [smoothAtt, if_true]
        rw [cols3_some kern a b h1 _ _ (by rw [mem.len3, h2])]
        have : ∀ (j : Fin n) (k : Fin m), (j, k) ∈ (List.finRange n).flatMap (fun jj => (List.finRange m).map (fun kk => (jj, kk))) := by
          intro j k
          simp
        simp only [this, if_true, Option.map_some]
        congr 2
        exact zipWith_snd _ _ (by rw [mem.len3, h2])
      · simp [smoothAtt, h1]
    · intro j k
      rw [smooth_col3, h1]; rfl

theorem smoothLoop_spec {γ : Type} (mem : Mem K) (method : Nat) (kern : List K) (tr : ATraj γ K) (g : Per → Option (Att K))
    (hg : ∀ name, (tr.per name = none → g name = none) ∧
      ∀ a, tr.per name = some a → ∃ b, smoothAtt mem method kern a = some b ∧ g name = some b) :
    ∀ (names : List Per) (f : Per → Option (Att K)), (∀ name, tr.per name = none → f name = none) →
      ∃ per, smoothLoop mem method kern tr names f = some per ∧
        (∀ name ∈ names, per name = g name) ∧ (∀ name, name ∉ names → per name = f name) := by
  intro names
  induction names with
  | nil => intro f _; exact ⟨f, rfl, by simp, fun _ _ => rfl⟩
  | cons name names ih =>
    intro f hf
    unfold smoothLoop
    cases h : tr.per name with
    | none =>
      obtain ⟨per, h1, h2, h3⟩ := ih f hf
      refine ⟨per, h1, ?_, ?_⟩
      · intro x hx
        rcases List.mem_cons.1 hx with rfl | hx'
        · by_cases hx2 : x ∈ names
          · exact h2 x hx2
          · rw [h3 x hx2, hf x h, (hg x).1 h]
        · exact h2 x hx'
      · intro x hx
        exact h3 x (fun hc => hx (List.mem_cons_of_mem _ hc))
    | some a =>
      obtain ⟨b, hb1, hb2⟩ := (hg name).2 a h
      simp only [hb1]
      obtain ⟨per, h1, h2, h3⟩ := ih (put f name (some b)) (by
        intro x hx
        unfold put
        rw [if_neg (by rintro rfl; rw [h] at hx; simp at hx)]
        exact hf x hx)
      refine ⟨per, h1, ?_, ?_⟩
      · intro x hx
        rcases List.mem_cons.1 hx with rfl | hx'
        · by_cases hx2 : x ∈ names
          · exact h2 x hx2
          · rw [h3 x hx2, hb2]; simp [put]
        · exact h2 x hx'
      · intro x hx
        rw [h3 x (fun hc => hx (List.mem_cons_of_mem _ hc))]
        unfold put
        rw [if_neg (by rintro rfl; exact hx (List.mem_cons_self ..))]

theorem all_per (name : Per) : name ∈ perNames := by cases name <;> decide

/-- **C169** (series). With a 1d kernel of non-zero sum, of any length, and either method: the smoothed trajectory has the
same `nstep`, `timestep` and the same attributes without time axis; exactly the attributes that were set are set, with
the same number of steps; and every scalar time series in them is `signal.smooth` of the original series. -/
theorem C169_series {γ : Type} (mem : Mem K) (tr : ATraj γ K) (kern : List K) (method : Nat)
    (hm : method = 1 ∨ method = 2) (hM : 1 ≤ kern.length) (hs : kern.sum ≠ 0)
    (ha : ∀ name a, tr.per name = some a → ∃ N, attSteps a = some N ∧ 1 ≤ N) :
    ∃ out, crysSmooth mem tr kern method = some out ∧ out.oth = tr.oth ∧ out.nstep = tr.nstep ∧ out.timestep = tr.timestep ∧
      (∀ name, tr.per name = none → out.per name = none) ∧
      ∀ name a, tr.per name = some a → ∃ b, out.per name = some b ∧ attSteps b = attSteps a ∧ SeriesSmoothed kern a b := by
  obtain ⟨per, h1, h2, _⟩ := smoothLoop_spec mem method kern tr
    (fun name => (tr.per name).bind (smoothAtt mem method kern)) (by
      intro name
      refine ⟨fun h => by simp [h], ?_⟩
      intro a h
      obtain ⟨b, hb, _⟩ := smoothAtt_series mem kern method hm a (ha name a h) hM hs
      exact ⟨b, hb, by simp [h, hb]⟩) perNames (fun _ => none) (fun _ _ => rfl)
  refine ⟨{ per := per, oth := tr.oth, nstep := tr.nstep, timestep := tr.timestep }, ?_, rfl, rfl, rfl, ?_, ?_⟩
  · unfold crysSmooth; rw [h1]
  · intro name h
    show per name = none
    rw [h2 name (all_per name), h]; rfl
  · intro name a h
    obtain ⟨b, hb, hb2, hb3⟩ := smoothAtt_series mem kern method hm a (ha name a h) hM hs
    refine ⟨b, ?_, hb2, hb3⟩
    show per name = some b
    rw [h2 name (all_per name), h]; exact hb

/-- **C169** (errors). An unknown method fails as soon as one attribute is set. -/
theorem C169_method_error {γ : Type} (mem : Mem K) (tr : ATraj γ K) (kern : List K) (method : Nat)
    (h1 : method ≠ 1) (h2 : method ≠ 2) (name : Per) (h : tr.per name ≠ none) : crysSmooth mem tr kern method = none := by
  have hat : ∀ a, smoothAtt mem method kern a = none := by
    intro a; cases a <;> simp [smoothAtt, h1, h2]
  have : ∀ (names : List Per) f, name ∈ names → smoothLoop mem method kern tr names f = none := by
    intro names
    induction names with
    | nil => intro f hm; simp at hm
    | cons x names ih =>
      intro f hm
      unfold smoothLoop
      cases hx : tr.per x with
      | some a => simp only [hat]
      | none =>
        rcases List.mem_cons.1 hm with rfl | hm
        · exact absurd hx h
        · exact ih f hm
  unfold crysSmooth
  rw [this perNames _ (all_per name)]

/-! ### Consistency of the smoothed trajectory -/

/-- The linear map `coords_frac ↦ coords_frac · cell`. -/
def cartMap {n : Nat} (cell : Fin 3 → Fin 3 → K) : (Fin n → Fin 3 → K) →ₗ[K] (Fin n → Fin 3 → K) where
  toFun := fracToCart cell
  map_add' := by
    intro x y; funext i k
    simp only [fracToCart, Pi.add_apply, add_mul, sum_add_distrib]
  map_smul' := by
    intro c x; funext i k
    simp only [fracToCart, Pi.smul_apply, smul_eq_mul, RingHom.id_apply, mul_sum, mul_assoc]

/-- **C169** (fixed cell). If all steps have the same cell and cartesian and fractional coordinates belong together, they
still do after smoothing. Missing for the full property: a cell that changes, see `C169_varcell_counterexample`. -/
theorem C169_frac_partial {n : Nat} (mem : Mem K) (kern : List K) (method : Nat) (hm : method = 1 ∨ method = 2)
    (cell : Fin 3 → Fin 3 → K) (frac : List (Fin n → Fin 3 → K)) (hN : 1 ≤ frac.length) (hM : 1 ≤ kern.length) (hs : kern.sum ≠ 0) :
    ∃ sf, smoothAtt mem method kern (.d3 n 3 frac) = some (.d3 n 3 sf) ∧
      smoothAtt mem method kern (.d3 n 3 (frac.map (fracToCart cell))) = some (.d3 n 3 (sf.map (fracToCart cell))) := by
  obtain ⟨sf, h1, h2⟩ := C59_shape frac kern "m" (Or.inl rfl) true hM hN (fun _ => hs)
  have h3 : smooth (frac.map (fracToCart cell)) kern "m" true = some (sf.map (fracToCart cell)) := by
    have := C168_linear_map (cartMap (n := n) cell) frac kern "m" true
    rw [h1] at this
    exact this
  have key : ∀ a b : List (Fin n → Fin 3 → K), smooth a kern "m" true = some b →
      smoothAtt mem method kern (.d3 n 3 a) = some (.d3 n 3 b) := by
    intro a b hab
    have hl := smooth_length a b kern "m" true hab
    rcases hm with rfl | rfl
    · simp only [smoothAtt, if_true]
      rw [cols3_some kern a b hab _ _ (by rw [mem.len3, hl])]
      have : ∀ (j : Fin n) (k : Fin 3), (j, k) ∈ (List.finRange n).flatMap (fun jj => (List.finRange 3).map (fun kk => (jj, kk))) := by
        intro j k
        rw [List.mem_flatMap]
        exact ⟨j, List.mem_finRange j, List.mem_map.2 ⟨k, List.mem_finRange k, rfl⟩⟩
      simp only [this, if_true, Option.map_some]
      congr 2
      exact zipWith_snd _ _ (by rw [mem.len3, hl])
    · simp [smoothAtt, hab]
  exact ⟨sf, key _ _ h1, key _ _ h3⟩

/-- The smoothed values of two data `x, y` with the kernel `(1, 1, 1)`. -/
theorem smooth_two {E : Type} [AddCommGroup E] [Module ℝ E] (x y : E) : smooth [x, y] ([1, 1, 1] : List ℝ) "m" true =
    some [(1 / 3 : ℝ) • x + (2 / 3 : ℝ) • y, (2 / 3 : ℝ) • x + (1 / 3 : ℝ) • y] := by
  obtain ⟨out, h5, h6, h7⟩ := C59_smooth_mirror_partial [x, y] ([1, 1, 1] : List ℝ) true (by simp) (by simp) (by norm_num)
  rw [h5]
  congr 1
  have hl : out.length = 2 := h6
  obtain ⟨a, b, rfl⟩ := List.length_eq_two.1 hl
  have h8 := h7 0 (by simp)
  have h9 := h7 1 (by simp)
  simp only [List.getElem?_cons_zero, List.getElem?_cons_succ, Option.some.injEq] at h8 h9
  rw [h8, h9]
  have e : ([1, 1, 1] : List ℝ).sum = 3 := by norm_num
  simp only [List.length_cons, List.length_nil, Nat.zero_add, Nat.reduceAdd, Finset.sum_range_succ, Finset.sum_range_zero, e,
    if_true]
  have r1 : reflect 2 1 = 1 := by decide
  have r0 : reflect 2 0 = 0 := by decide
  have rm : reflect 2 (-1) = 1 := by decide
  have r2 : reflect 2 2 = 0 := by decide
  norm_num [r1, r0, rm, r2]
  constructor <;> module

/-- **C169** fails for a changing cell: one atom, two steps, cells 1 and 2 times the unit cube, fractional coordinates
0 and (1,0,0). After smoothing, `coords` of the first step differs from `coords_frac · cell`. -/
theorem C169_varcell_counterexample (mem : Mem ℝ) :
    ∃ (cell : List (Fin 3 → Fin 3 → ℝ)) (frac coords : List (Fin 1 → Fin 3 → ℝ)) (sc : List (Fin 3 → Fin 3 → ℝ))
      (sf sx : List (Fin 1 → Fin 3 → ℝ)), coords = List.zipWith fracToCart cell frac ∧
      smoothAtt mem 2 [1, 1, 1] (.d3 3 3 cell) = some (.d3 3 3 sc) ∧
      smoothAtt mem 2 [1, 1, 1] (.d3 1 3 frac) = some (.d3 1 3 sf) ∧
      smoothAtt mem 2 [1, 1, 1] (.d3 1 3 coords) = some (.d3 1 3 sx) ∧ sx ≠ List.zipWith fracToCart sc sf := by
  set c1 : Fin 3 → Fin 3 → ℝ := fun i j => if i = j then 1 else 0 with hc1
  set c2 : Fin 3 → Fin 3 → ℝ := fun i j => if i = j then 2 else 0 with hc2
  set f1 : Fin 1 → Fin 3 → ℝ := fun _ _ => 0 with hf1
  set f2 : Fin 1 → Fin 3 → ℝ := fun _ j => if j = 0 then 1 else 0 with hf2
  have key : ∀ (n : Nat) (x y : Fin n → Fin 3 → ℝ), smoothAtt mem 2 [1, 1, 1] (.d3 n 3 [x, y]) =
      some (.d3 n 3 [(1 / 3 : ℝ) • x + (2 / 3 : ℝ) • y, (2 / 3 : ℝ) • x + (1 / 3 : ℝ) • y]) := by
    intro n x y
    simp only [smoothAtt, show ¬ (2 : Nat) = 1 by decide, if_false, if_true]
    rw [smooth_two]; rfl
  refine ⟨[c1, c2], [f1, f2], [fracToCart c1 f1, fracToCart c2 f2], _, _, _, rfl, key 3 c1 c2, key 1 f1 f2, key 1 _ _, ?_⟩
  intro h
  rw [List.zipWith_cons_cons, List.cons.injEq] at h
  have := congrFun (congrFun h.1 0) 0
  simp [fracToCart, hc1, hc2, hf1, hf2] at this
  norm_num at this

/-- **C169** (time axis, middle). `time[i] = i dt` stays where a symmetric kernel of odd length does not reach beyond the
ends. Missing for the full property: the ends, see `C169_time_counterexample`. -/
theorem C169_time_partial (mem : Mem ℝ) (kern : List ℝ) (method : Nat) (hm : method = 1 ∨ method = 2) (N : Nat) (dt : ℝ)
    (hs : kern.sum ≠ 0) (hsym : kern.reverse = kern) (hodd : kern.length % 2 = 1) (hh : kern.length / 2 + 1 ≤ N) :
    ∃ out, smoothAtt mem method kern (.d1 ((List.range N).map fun i : Nat => (i : ℝ) * dt)) = some (.d1 out) ∧
      out.length = N ∧ ∀ i, kern.length / 2 ≤ i → i + kern.length / 2 < N → out[i]? = some ((i : ℝ) * dt) := by
  obtain ⟨out, h1, h2, h3⟩ := C168_ramp N (0 : ℝ) dt kern "m" (Or.inl rfl) hs (by omega) hh
  have e : ramp N (0 : ℝ) dt = (List.range N).map fun i : Nat => (i : ℝ) * dt := by
    unfold ramp; simp
  rw [e] at h1
  refine ⟨out, ?_, h2, ?_⟩
  · rcases hm with rfl | rfl <;> simp [smoothAtt, h1]
  · intro i hi1 hi2
    rw [h3 i hi1 (by omega)]
    have := (C168_centre kern hs hsym).2.1 hodd
    congr 1
    rw [add_sub_assoc, this]
    simp

/-- **C169** fails for the attribute `time` at the ends: `timestep` is copied, but the times are smoothed like any other
series; with two steps they even run backwards. -/
theorem C169_time_counterexample (mem : Mem ℝ) (dt : ℝ) (hdt : 0 < dt) :
    ∃ t0 t1, smoothAtt mem 1 [1, 1, 1] (.d1 [0, dt]) = some (.d1 [t0, t1]) ∧ t0 ≠ 0 ∧ t1 < t0 := by
  refine ⟨2 / 3 * dt, 1 / 3 * dt, ?_, by positivity, by linarith⟩
  simp only [smoothAtt, if_true]
  rw [smooth_two]
  simp

/-- Non-vacuity: a trajectory of two steps with energies and one atom. -/
example : ∃ (tr : ATraj Unit ℝ), (∃ a, tr.per .etot = some a ∧ attSteps a = some 2) ∧ (∃ a, tr.per .coords = some a ∧ attNonempty a) ∧
    (∀ name a, tr.per name = some a → ∃ N, attSteps a = some N ∧ 1 ≤ N) ∧ ([1, 2, 1] : List ℝ).sum ≠ 0 := by
  refine ⟨{ per := fun n => match n with
      | .etot => some (.d1 [1, 2])
      | .coords => some (.d3 1 3 [fun _ _ => 0, fun _ _ => 1])
      | _ => none, oth := fun _ => none, nstep := some 2, timestep := some 1 },
    ⟨_, rfl, rfl⟩, ⟨_, rfl, by simp [attNonempty]⟩, ?_, by norm_num⟩
  intro name a h
  cases name <;> simp at h
  · subst h; exact ⟨2, rfl, by omega⟩
  · subst h; exact ⟨2, rfl, by omega⟩

end Pwtools.Tr
