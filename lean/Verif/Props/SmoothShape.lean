import Verif.Props.Smooth
import Verif.Spec.SmoothShape
import Mathlib.Analysis.Convex.Combination
import Mathlib.Tactic.Module
/-!
# What `signal.smooth` does to data: C168
-/
namespace Pwtools.Sig
open Nd Spec Finset

/-! ### Naturality -/

theorem pySlice_map {β γ : Type} (f : β → γ) (l : List β) (s : Sl) : pySlice (l.map f) s = (pySlice l s).map f := by
  unfold pySlice
  rw [List.length_map]
  split
  · rfl
  · rw [List.map_filterMap]
    congr 1
    funext i
    rw [List.getElem?_map]

section
variable {K : Type} [Field K] [DecidableEq K] {E F : Type} [AddCommGroup E] [Module K E] [AddCommGroup F] [Module K F]

omit [DecidableEq K] in
theorem convValid_map (f : E →ₗ[K] F) (sig : List E) (kk : List K) :
    convValid (sig.map f) kk = (convValid sig kk).map f := by
  unfold convValid
  rw [List.length_map, List.map_map]
  congr 1
  funext i
  simp only [Function.comp_apply, map_sum, map_smul]
  apply sum_congr rfl
  intro j _
  congr 1
  rw [List.getD_eq_getElem?_getD, List.getElem?_map, List.getD_eq_getElem?_getD]
  cases sig[i + kk.length - 1 - j]? <;> simp

omit [DecidableEq K] in
theorem smoothSig_map (f : E →ₗ[K] F) (data : List E) (M : Nat) (edge : String) :
    smoothSig (data.map f) M edge = (smoothSig data M edge).map (List.map f) := by
  unfold smoothSig
  simp only [pySlice_map, List.length_map]
  split
  · split
    · simp only [Option.map_some]
      split <;> simp [map_zero]
    · rfl
  · split
    · rw [List.head?_map, List.getLast?_map]
      cases data.head? <;> cases data.getLast? <;> simp
    · rfl

/-- **C168** (linear maps). Smoothing commutes with every linear map of the values, for every data, kernel, edge method,
also where it fails. Components of vectors, rotations, changes of unit and of the cell basis are such maps. -/
theorem C168_linear_map (f : E →ₗ[K] F) (data : List E) (kern : List K) (edge : String) (norm : Bool) :
    smooth (data.map f) kern edge norm = (smooth data kern edge norm).map (List.map f) := by
  unfold smooth
  simp only [smoothSig_map, List.length_map]
  cases smoothSig data kern.length edge with
  | none => rfl
  | some sig =>
    simp only [Option.map_some, convValid_map, List.length_map, pySlice_map]
    generalize (if norm = true then List.map (fun v => v / kern.sum) kern else kern) = kk
    by_cases hc : norm = true ∧ kern.sum = 0
    · rw [if_pos hc, if_pos hc]; rfl
    rw [if_neg hc, if_neg hc]
    by_cases hc2 : kern.length = 0 ∨ (convValid sig kk).length ≠ data.length + kern.length + 1
    · rw [if_pos hc2, if_pos hc2]; rfl
    rw [if_neg hc2, if_neg hc2]
    by_cases h : kern.length % 2 = 0
    · simp only [h, if_true, List.length_map]
      split_ifs <;> rfl
    · simp only [h, if_false, List.length_map]
      split_ifs <;> rfl

/-- **C168** (linear combinations). -/
theorem C168_linear (x y : List E) (hl : x.length = y.length) (a b : K) (kern : List K) (edge : String) (norm : Bool)
    (ox oy : List E) (hx : smooth x kern edge norm = some ox) (hy : smooth y kern edge norm = some oy) :
    smooth (List.zipWith (fun u v => a • u + b • v) x y) kern edge norm =
      some (List.zipWith (fun u v => a • u + b • v) ox oy) := by
  set z : List (E × E) := List.zip x y with hz
  have e1 : x = z.map (LinearMap.fst K E E) := by
    rw [hz]; exact (List.map_fst_zip (by omega)).symm
  have e2 : y = z.map (LinearMap.snd K E E) := by
    rw [hz]; exact (List.map_snd_zip (by omega)).symm
  have e3 : List.zipWith (fun u v => a • u + b • v) x y =
      z.map (a • LinearMap.fst K E E + b • LinearMap.snd K E E) := by
    rw [hz, List.zip, List.map_zipWith]; rfl
  rw [e1, C168_linear_map] at hx
  rw [e2, C168_linear_map] at hy
  rw [e3, C168_linear_map]
  cases h : smooth z kern edge norm with
  | none => rw [h] at hx; simp at hx
  | some oz =>
    rw [h, Option.map_some, Option.some.injEq] at hx hy
    rw [Option.map_some, ← hx, ← hy, List.zipWith_map, List.zipWith_self]
    rfl

/-! ### Reversal -/

omit [AddCommGroup E] in
theorem pySlice_reverse_left (data : List E) (p : Nat) (hN : 1 ≤ data.length) (hp : p ≤ data.length) :
    pySlice data.reverse ⟨some (p : Int), some 0, some (-1)⟩ =
      (pySlice data ⟨some (-2), some (-((p : Int) + 2)), some (-1)⟩).reverse := by
  obtain ⟨hl1, hl2⟩ := pySlice_spec data.reverse _ _ _ _
    (by rw [List.length_reverse]; exact left_indices data.length p hN) (by
      intro i hi; rw [List.length_reverse]; omega)
  obtain ⟨hr1, hr2⟩ := pySlice_spec data _ _ _ _ (right_indices data.length p hN hp) (by
    intro i hi; omega)
  apply List.ext_getElem?
  intro i
  by_cases hi : i < min p (data.length - 1)
  · rw [hl2 i hi, List.getElem?_reverse (by omega), List.getElem?_reverse (by rw [hr1]; exact hi), hr1,
      hr2 _ (by omega)]
    congr 1
    omega
  · rw [List.getElem?_eq_none (by omega), List.getElem?_eq_none (by rw [List.length_reverse]; omega)]

theorem sig_reverse (data : List E) (M : Nat) (edge : String) :
    smoothSig data.reverse M edge = (smoothSig data M edge).map List.reverse := by
  rcases Nat.eq_zero_or_pos data.length with h0 | hN
  · have : data = [] := List.length_eq_zero_iff.1 h0
    subst this
    unfold smoothSig
    split
    · simp only [List.reverse_nil, List.length_nil]
      have e1 : ∀ s : Sl, pySlice ([] : List E) s = [] := by
        intro s; unfold pySlice; split
        · rfl
        · rw [List.filterMap_eq_nil_iff]; intro a _; rfl
      simp only [e1, if_true, Option.map_some, List.length_nil]
      split <;> simp
    · split <;> simp
  · unfold smoothSig
    have e1 := pySlice_reverse_left data (min M data.length) hN (by omega)
    have e2 := pySlice_reverse_left data.reverse (min M data.length) (by rw [List.length_reverse]; exact hN)
      (by rw [List.length_reverse]; omega)
    rw [List.reverse_reverse] at e2
    have e3 : pySlice data.reverse ⟨some (-2), some (-(((min M data.length : Nat) : Int) + 2)), some (-1)⟩ =
        (pySlice data ⟨some ((min M data.length : Nat) : Int), some 0, some (-1)⟩).reverse := by
      rw [e2, List.reverse_reverse]
    simp only [List.length_reverse, e1, e3, List.head?_reverse, List.getLast?_reverse]
    split
    · by_cases h : (pySlice data ⟨some ((min M data.length : Nat) : Int), some 0, some (-1)⟩).length =
        (pySlice data ⟨some (-2), some (-(((min M data.length : Nat) : Int) + 2)), some (-1)⟩).length
      · rw [if_pos h.symm, if_pos h, Option.map_some, ← h]
        congr 1
        split <;> simp [List.append_assoc]
      · rw [if_neg (Ne.symm h), if_neg h]; rfl
    · split
      · cases data.head? <;> cases data.getLast? <;> simp [List.append_assoc]
      · rfl

theorem getD_reverse {β : Type} (l : List β) (d : β) (i : Nat) (h : i < l.length) :
    l.reverse.getD i d = l.getD (l.length - 1 - i) d := by
  rw [List.getD_eq_getElem?_getD, List.getD_eq_getElem?_getD, List.getElem?_reverse h]

theorem sig_exists (data : List E) (M : Nat) (edge : String) (he : edge = "m" ∨ edge = "c") (hN : 1 ≤ data.length) :
    ∃ sig, smoothSig data M edge = some sig ∧ sig.length = data.length + 2 * M := by
  rcases he with rfl | rfl
  · obtain ⟨sig, h1, h2, _⟩ := sig_mirror data M hN
    exact ⟨sig, h1, h2⟩
  · obtain ⟨sig, h1, h2, _⟩ := sig_const data M hN
    exact ⟨sig, h1, h2⟩

/-- **C168** (reversal). With a kernel of odd length, the reversed data smoothed with the reversed kernel is the reversed
result; for a symmetric kernel smoothing therefore does not depend on the direction of time. For both edge methods and
all lengths. -/
theorem C168_reverse (data : List E) (kern : List K) (edge : String) (he : edge = "m" ∨ edge = "c") (norm : Bool)
    (hodd : kern.length % 2 = 1) (hN : 1 ≤ data.length) (hn : norm = true → kern.sum ≠ 0) :
    smooth data.reverse kern.reverse edge norm = (smooth data kern edge norm).map List.reverse := by
  obtain ⟨sig, h1, h2⟩ := sig_exists data kern.length edge he hN
  obtain ⟨out, h3, h4, h5⟩ := smooth_of_sig data kern edge norm sig h1 h2 (by omega) hn
  have hsum : kern.reverse.sum = kern.sum := List.sum_reverse kern
  have h1' : smoothSig data.reverse kern.reverse.length edge = some sig.reverse := by
    rw [List.length_reverse, sig_reverse, h1]; rfl
  obtain ⟨out', h3', h4', h5'⟩ := smooth_of_sig data.reverse kern.reverse edge norm sig.reverse h1'
    (by simp only [List.length_reverse]; exact h2) (by rw [List.length_reverse]; omega) (by rw [hsum]; exact hn)
  rw [h3, h3', Option.map_some]
  congr 1
  rw [List.length_reverse] at h4' h5'
  apply List.ext_getElem?
  intro i
  by_cases hi : i < data.length
  · rw [h5' i hi, List.getElem?_reverse (by omega), h4, h5 _ (by omega)]
    congr 1
    rw [List.length_reverse, ← sum_range_reflect]
    apply sum_congr rfl
    intro j hj
    rw [mem_range] at hj
    have hk : (usedKernel kern.reverse norm) = (usedKernel kern norm).reverse := by
      unfold usedKernel; cases norm <;> simp [hsum]
    have hkl : (usedKernel kern norm).length = kern.length := by unfold usedKernel; cases norm <;> simp
    rw [hk, getD_reverse _ _ _ (by omega), getD_reverse _ _ _ (by omega), hkl, h2]
    congr 2
    · omega
    · omega
  · rw [List.getElem?_eq_none (by omega), List.getElem?_eq_none (by rw [List.length_reverse]; omega)]

end

/-! ### Averages -/

section
variable {E : Type} [AddCommGroup E] [Module ℝ E]

theorem window_sum (kern : List ℝ) (h : IsWindow kern) :
    (∀ j, 0 ≤ (usedKernel kern true).getD j 0) ∧ ∑ j ∈ range kern.length, (usedKernel kern true).getD j 0 = 1 := by
  have e : ∀ j, (usedKernel kern true).getD j 0 = kern.getD j 0 / kern.sum := by
    intro j
    unfold usedKernel
    rw [if_pos rfl, List.getD_eq_getElem?_getD, List.getElem?_map, List.getD_eq_getElem?_getD]
    cases kern[j]? <;> simp
  refine ⟨?_, ?_⟩
  · intro j
    rw [e]
    apply div_nonneg _ h.2.le
    rw [List.getD_eq_getElem?_getD]
    cases hj : kern[j]? with
    | none => simp
    | some v => exact h.1 v (List.mem_of_getElem? hj)
  · simp only [e]
    exact kernel_sum kern h.2.ne'

theorem window_length (kern : List ℝ) (h : IsWindow kern) : 1 ≤ kern.length := by
  rcases kern with _ | ⟨a, l⟩
  · have := h.2; simp at this
  · simp

omit [Module ℝ E] in
theorem getD_mem' (l : List E) (i : Nat) (h : i < l.length) : l.getD i 0 ∈ l := by
  rw [List.getD_eq_getElem?_getD, List.getElem?_eq_getElem h]; exact List.getElem_mem h

omit [AddCommGroup E] [Module ℝ E] in
theorem mem_of_getElem_all {C : Set E} (out : List E) (h : ∀ i < out.length, ∀ v, out[i]? = some v → v ∈ C) : ∀ v ∈ out, v ∈ C := by
  intro v hv
  obtain ⟨i, hi, rfl⟩ := List.mem_iff_getElem.1 hv
  exact h i hi _ (List.getElem?_eq_getElem hi)

/-- **C168** (within the data). With a normalised kernel of non-negative weights the smoothed values lie in every convex
set that contains the data: for `edge='c'` always, for `edge='m'` if half of the kernel is shorter than the data. -/
theorem C168_within_partial (data : List E) (kern : List ℝ) (edge : String) (hk : IsWindow kern)
    (hN : 1 ≤ data.length) (he : edge = "c" ∨ edge = "m" ∧ kern.length / 2 + 1 ≤ data.length)
    (C : Set E) (hC : Convex ℝ C) (hd : ∀ v ∈ data, v ∈ C) :
    ∃ out, smooth data kern edge true = some out ∧ out.length = data.length ∧ ∀ v ∈ out, v ∈ C := by
  have hM := window_length kern hk
  have hn : true = true → kern.sum ≠ 0 := fun _ => hk.2.ne'
  obtain ⟨w0, w1⟩ := window_sum kern hk
  have key : ∀ (g : Nat → Nat → Nat) (out : List E), (∀ i j, i < data.length → j < kern.length → g i j < data.length) →
      out.length = data.length → (∀ i < data.length, out[i]? = some (∑ j ∈ range kern.length,
        (if true = true then kern.getD j 0 / kern.sum else kern.getD j 0) • data.getD (g i j) 0)) → ∀ v ∈ out, v ∈ C := by
    intro g out hg hl ho
    apply mem_of_getElem_all
    intro i hi v hv
    rw [ho i (by omega), Option.some.injEq] at hv
    rw [← hv]
    apply hC.sum_mem
    · intro j _
      rw [if_pos rfl]
      have := w0 j
      unfold usedKernel at this
      rw [if_pos rfl, List.getD_eq_getElem?_getD, List.getElem?_map] at this
      rw [List.getD_eq_getElem?_getD]
      cases h : kern[j]? with
      | none => simp
      | some x => rw [h] at this; simpa using this
    · simp only [if_true]
      exact kernel_sum kern hk.2.ne'
    · intro j hj
      exact hd _ (getD_mem' _ _ (hg i j (by omega) (mem_range.1 hj)))
  rcases he with rfl | ⟨rfl, hh⟩
  · obtain ⟨out, h1, h2, h3⟩ := C59_smooth_const data kern true hM hN hn
    refine ⟨out, h1, h2, key _ out ?_ h2 h3⟩
    intro i j hi hj
    unfold clamp
    split
    · omega
    · split <;> omega
  · obtain ⟨out, h1, h2, h3⟩ := C59_smooth_mirror_partial data kern true hM hh hn
    refine ⟨out, h1, h2, key _ out ?_ h2 h3⟩
    intro i j hi hj
    unfold reflect
    split
    · omega
    · split <;> omega

omit [Module ℝ E] in
/-- Every value of the padded signal is one of the data or zero. -/
theorem sig_mem (data : List E) (M : Nat) (edge : String) (sig : List E) (h : smoothSig data M edge = some sig) :
    ∀ v ∈ sig, v ∈ data ∨ v = 0 := by
  have hsl : ∀ s : Sl, ∀ v ∈ pySlice data s, v ∈ data := by
    intro s v hv
    unfold pySlice at hv
    split at hv
    · simp at hv
    · rw [List.mem_filterMap] at hv
      obtain ⟨i, _, hi⟩ := hv
      exact List.mem_of_getElem? hi
  unfold smoothSig at h
  split at h
  · dsimp only at h
    split at h
    · rw [Option.some.injEq] at h
      subst h
      intro v hv
      split at hv
      · simp only [List.mem_append, List.mem_replicate] at hv
        rcases hv with ((hv | hv) | hv) | (hv | hv)
        · exact Or.inr hv.2
        · exact Or.inl (hsl _ v hv)
        · exact Or.inl hv
        · exact Or.inl (hsl _ v hv)
        · exact Or.inr hv.2
      · simp only [List.mem_append] at hv
        rcases hv with (hv | hv) | hv
        · exact Or.inl (hsl _ v hv)
        · exact Or.inl hv
        · exact Or.inl (hsl _ v hv)
    · simp at h
  · split at h
    · split at h
      · rename_i a b ha hb
        rw [Option.some.injEq] at h
        subst h
        intro v hv
        left
        simp only [List.mem_append, List.mem_replicate] at hv
        rcases hv with (hv | hv) | hv
        · rw [hv.2]; exact List.mem_of_mem_head? ha
        · exact hv
        · rw [hv.2]; exact List.mem_of_mem_getLast? hb
      · simp at h
    · simp at h

/-- **C168** (kernels of every length). The smoothed values lie in every convex set that contains the data and zero. -/
theorem C168_within_zero (data : List E) (kern : List ℝ) (edge : String) (he : edge = "m" ∨ edge = "c")
    (hk : IsWindow kern) (hN : 1 ≤ data.length) (C : Set E) (hC : Convex ℝ C) (hd : ∀ v ∈ data, v ∈ C) (h0 : (0 : E) ∈ C) :
    ∃ out, smooth data kern edge true = some out ∧ out.length = data.length ∧ ∀ v ∈ out, v ∈ C := by
  obtain ⟨sig, h1, h2⟩ := sig_exists data kern.length edge he hN
  obtain ⟨out, h3, h4, h5⟩ := smooth_of_sig data kern edge true sig h1 h2 (window_length kern hk) (fun _ => hk.2.ne')
  refine ⟨out, h3, h4, ?_⟩
  obtain ⟨w0, w1⟩ := window_sum kern hk
  apply mem_of_getElem_all
  intro i hi v hv
  rw [h5 i (by omega), Option.some.injEq] at hv
  rw [← hv]
  apply hC.sum_mem (fun j _ => w0 j) w1
  intro j _
  rw [List.getD_eq_getElem?_getD]
  cases hj : sig[((kern.length : Int) + ((i : Int) + ((kern.length - 1) / 2 : Nat) - j)).toNat]? with
  | none => exact h0
  | some x =>
    rcases sig_mem data kern.length edge sig h1 x (List.mem_of_getElem? hj) with h | h
    · exact hd _ h
    · rw [Option.getD_some, h]; exact h0

/-- **C168** (ordered data stays ordered). If `y` lies nowhere below `x`, the same holds for the smoothed data; for
kernels of every length. -/
theorem C168_order (x y : List ℝ) (kern : List ℝ) (edge : String) (he : edge = "m" ∨ edge = "c") (hk : IsWindow kern)
    (hN : 1 ≤ x.length) (hl : x.length = y.length) (hxy : List.Forall₂ (· ≤ ·) x y) :
    ∃ ox oy, smooth x kern edge true = some ox ∧ smooth y kern edge true = some oy ∧ List.Forall₂ (· ≤ ·) ox oy := by
  have hM := window_length kern hk
  obtain ⟨ox, h1, h2⟩ := C59_shape x kern edge he true hM hN (fun _ => hk.2.ne')
  obtain ⟨oy, h3, h4⟩ := C59_shape y kern edge he true hM (by omega) (fun _ => hk.2.ne')
  refine ⟨ox, oy, h1, h3, ?_⟩
  have h5 := C168_linear x y hl (-1 : ℝ) 1 kern edge true ox oy h1 h3
  have hd : ∀ v ∈ List.zipWith (fun u v : ℝ => (-1 : ℝ) • u + (1 : ℝ) • v) x y, v ∈ Set.Ici (0 : ℝ) := by
    clear h1 h2 h3 h4 h5 hN hl
    induction hxy with
    | nil => simp
    | cons h _ ih =>
      intro v hv
      rw [List.zipWith_cons_cons, List.mem_cons] at hv
      rcases hv with rfl | hv
      · simp only [Set.mem_Ici, smul_eq_mul]; linarith
      · exact ih v hv
  obtain ⟨out, h6, h7, h8⟩ := C168_within_zero _ kern edge he hk (by rw [List.length_zipWith]; omega) (Set.Ici (0 : ℝ))
    (convex_Ici 0) hd (by simp)
  rw [h5, Option.some.injEq] at h6
  rw [← h6] at h8
  rw [List.forall₂_iff_get]
  refine ⟨by omega, ?_⟩
  intro i hi hi'
  have := h8 ((-1 : ℝ) • ox[i] + (1 : ℝ) • oy[i]) (by
    rw [List.mem_iff_getElem]
    exact ⟨i, by rw [List.length_zipWith]; omega, by rw [List.getElem_zipWith]⟩)
  simp only [Set.mem_Ici, smul_eq_mul] at this
  simp only [List.get_eq_getElem]
  linarith

/-- **C168** (middle). Where the kernel does not reach beyond the data, both edge methods give the plain weighted average
`Σ w(j) data(i + (M-1)/2 - j)`. -/
theorem C168_middle (data : List E) (kern : List ℝ) (edge : String) (he : edge = "m" ∨ edge = "c")
    (hs : kern.sum ≠ 0) (hM : 1 ≤ kern.length) (hh : kern.length / 2 + 1 ≤ data.length) :
    ∃ out, smooth data kern edge true = some out ∧ out.length = data.length ∧
      ∀ i, kern.length / 2 ≤ i → i + (kern.length - 1) / 2 < data.length → out[i]? = some (∑ j ∈ range kern.length,
        (kern.getD j 0 / kern.sum) • data.getD (i + (kern.length - 1) / 2 - j) 0) := by
  rcases he with rfl | rfl
  · obtain ⟨out, h1, h2, h3⟩ := C59_smooth_mirror_partial data kern true hM hh (fun _ => hs)
    refine ⟨out, h1, h2, ?_⟩
    intro i hi1 hi2
    rw [h3 i (by omega)]
    congr 1
    apply sum_congr rfl
    intro j hj
    rw [mem_range] at hj
    rw [if_pos rfl]
    congr 2
    unfold reflect
    rw [if_neg (by omega), if_neg (by omega)]
    omega
  · obtain ⟨out, h1, h2, h3⟩ := C59_smooth_const data kern true hM (by omega) (fun _ => hs)
    refine ⟨out, h1, h2, ?_⟩
    intro i hi1 hi2
    rw [h3 i (by omega)]
    congr 1
    apply sum_congr rfl
    intro j hj
    rw [mem_range] at hj
    rw [if_pos rfl]
    congr 2
    unfold clamp
    rw [if_neg (by omega), if_neg (by omega)]
    omega

/-- **C168** (lines). A line stays, away from the edges, a line with the same slope, shifted by the distance between the
kernel's middle entry `(M-1)/2` and its centre of mass. -/
theorem C168_ramp (N : Nat) (a b : E) (kern : List ℝ) (edge : String) (he : edge = "m" ∨ edge = "c")
    (hs : kern.sum ≠ 0) (hM : 1 ≤ kern.length) (hh : kern.length / 2 + 1 ≤ N) :
    ∃ out, smooth (ramp N a b) kern edge true = some out ∧ out.length = N ∧
      ∀ i, kern.length / 2 ≤ i → i + (kern.length - 1) / 2 < N →
        out[i]? = some (a + ((i : ℝ) + ((kern.length - 1) / 2 : Nat) - kernCentre kern) • b) := by
  have hl : (ramp N a b).length = N := by unfold ramp; simp
  obtain ⟨out, h1, h2, h3⟩ := C168_middle (ramp N a b) kern edge he hs hM (by omega)
  refine ⟨out, h1, by omega, ?_⟩
  intro i hi1 hi2
  rw [h3 i hi1 (by omega)]
  congr 1
  have e : ∀ j ∈ range kern.length, (kern.getD j 0 / kern.sum) • (ramp N a b).getD (i + (kern.length - 1) / 2 - j) 0 =
      (kern.getD j 0 / kern.sum) • (a + ((i : ℝ) + ((kern.length - 1) / 2 : Nat)) • b) -
        (kern.getD j 0 * j / kern.sum) • b := by
    intro j hj
    rw [mem_range] at hj
    have : (ramp N a b).getD (i + (kern.length - 1) / 2 - j) 0 =
        a + ((i : ℝ) + ((kern.length - 1) / 2 : Nat) - j) • b := by
      unfold ramp
      rw [List.getD_eq_getElem?_getD, List.getElem?_map, List.getElem?_range (by omega)]
      simp only [Option.map_some, Option.getD_some]
      congr 2
      rw [Nat.cast_sub (by omega)]
      push_cast
      ring
    rw [this]
    module
  rw [sum_congr rfl e, sum_sub_distrib, ← sum_smul, ← sum_smul, kernel_sum kern hs, one_smul, ← sum_div]
  unfold kernCentre
  module

/-- **C168** (symmetric kernels). The centre of a symmetric kernel is `(M-1)/2`: with odd length lines are unchanged in
the middle, with even length they are moved by half a step to the right. -/
theorem C168_centre (kern : List ℝ) (hs : kern.sum ≠ 0) (hsym : kern.reverse = kern) :
    kernCentre kern = ((kern.length : ℝ) - 1) / 2 ∧
    (kern.length % 2 = 1 → (((kern.length - 1) / 2 : Nat) : ℝ) - kernCentre kern = 0) ∧
    (kern.length % 2 = 0 → (((kern.length - 1) / 2 : Nat) : ℝ) - kernCentre kern = -(1 / 2)) := by
  have hM : 1 ≤ kern.length := by
    rcases kern with _ | ⟨a, l⟩
    · simp at hs
    · simp
  have hsum : ∑ j ∈ range kern.length, kern.getD j 0 = kern.sum := by
    have := kernel_sum kern hs
    rw [← sum_div, div_eq_one_iff_eq hs] at this
    exact this
  have e : ∑ j ∈ range kern.length, kern.getD j 0 * (j : ℝ) =
      ∑ j ∈ range kern.length, kern.getD j 0 * ((kern.length : ℝ) - 1 - j) := by
    rw [← sum_range_reflect]
    apply sum_congr rfl
    intro j hj
    rw [mem_range] at hj
    congr 1
    · have h1 := getD_reverse kern 0 j hj
      rw [hsym] at h1
      rw [h1]
    · rw [Nat.cast_sub (by omega), Nat.cast_sub hM]; push_cast; ring
  have e2 : 2 * ∑ j ∈ range kern.length, kern.getD j 0 * (j : ℝ) = ((kern.length : ℝ) - 1) * kern.sum := by
    have : ∑ j ∈ range kern.length, kern.getD j 0 * ((kern.length : ℝ) - 1 - j) =
        ((kern.length : ℝ) - 1) * kern.sum - ∑ j ∈ range kern.length, kern.getD j 0 * (j : ℝ) := by
      rw [← hsum, mul_sum, ← sum_sub_distrib]
      apply sum_congr rfl
      intro j _
      ring
    linarith
  have hc : kernCentre kern = ((kern.length : ℝ) - 1) / 2 := by
    unfold kernCentre
    rw [div_eq_div_iff hs two_ne_zero]
    linarith
  refine ⟨hc, ?_, ?_⟩
  · intro h
    obtain ⟨m, hm⟩ : ∃ m, kern.length = 2 * m + 1 := ⟨kern.length / 2, by omega⟩
    rw [hc, hm, show (2 * m + 1 - 1) / 2 = m by omega]
    push_cast
    ring
  · intro h
    obtain ⟨m, hm⟩ : ∃ m, kern.length = 2 * m + 2 := ⟨kern.length / 2 - 1, by omega⟩
    rw [hc, hm, show (2 * m + 2 - 1) / 2 = m by omega]
    push_cast
    ring

end

/-- **C168** fails for kernels longer than the mirrored data: all data is 1, but the smoothed value is 1/3. -/
theorem C168_long_counterexample : IsWindow [1, 1, 1] ∧
    ∃ v, smooth ([1] : List ℝ) ([1, 1, 1] : List ℝ) "m" true = some [v] ∧ v < 1 := by
  refine ⟨⟨by intro v hv; simp at hv; rw [hv]; norm_num, by norm_num⟩, 1 / 3, ?_, by norm_num⟩
  have h1 : smoothSig ([1] : List ℝ) 3 "m" = some [0, 0, 0, 1, 0, 0, 0] := by rfl
  obtain ⟨out, h5, h6, h7⟩ := smooth_of_sig ([1] : List ℝ) ([1, 1, 1] : List ℝ) "m" true [0, 0, 0, 1, 0, 0, 0] h1 rfl
    (by simp) (by norm_num)
  rw [h5]
  congr 1
  have h8 := h7 0 (by simp)
  have hl : out.length = 1 := by simpa using h6
  obtain ⟨a, rfl⟩ := List.length_eq_one_iff.1 hl
  simp only [List.getElem?_cons_zero, Option.some.injEq] at h8
  rw [h8]
  norm_num [usedKernel, Finset.sum_range_succ]
  show (1 / 3 : ℝ) * 0 + 1 / 3 * 1 + 1 / 3 * 0 = 1 / 3
  norm_num

/-- Non-vacuity: a symmetric window of odd length, and one of even length, for four data. -/
example : IsWindow [1, 2, 1] ∧ ([1, 2, 1] : List ℝ).reverse = [1, 2, 1] ∧ ([1, 2, 1] : List ℝ).length / 2 + 1 ≤ 4 ∧
    IsWindow [1, 2, 2, 1] ∧ kernCentre [1, 2, 2, 1] = 3 / 2 := by
  refine ⟨⟨?_, by norm_num⟩, by simp, by simp, ⟨?_, by norm_num⟩, ?_⟩
  · intro v hv; simp only [List.mem_cons, List.not_mem_nil, or_false] at hv; rcases hv with rfl | rfl | rfl <;> norm_num
  · intro v hv; simp only [List.mem_cons, List.not_mem_nil, or_false] at hv
    rcases hv with rfl | rfl | rfl | rfl <;> norm_num
  · have := (C168_centre [1, 2, 2, 1] (by norm_num) (by simp)).1
    rw [this]; norm_num

end Pwtools.Sig
