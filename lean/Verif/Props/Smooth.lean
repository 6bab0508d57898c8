import Verif.Model.Signal
import Verif.Spec.Signal
import Mathlib.Algebra.BigOperators.Field
import Mathlib.Algebra.Module.BigOperators
import Mathlib.Tactic.Ring
import Mathlib.Tactic.FieldSimp
import Mathlib.Tactic.Linarith
/-!
# `signal.smooth`: C59
-/
namespace Pwtools.Sig
open Nd Spec Finset

/-! ### Slices of lists -/

theorem filterMap_range {β : Type} (l : List β) (g : Nat → Nat) (c : Nat) (h : ∀ i < c, g i < l.length) :
    ((List.range c).filterMap (fun i => l[g i]?)).length = c ∧
    ∀ i < c, ((List.range c).filterMap (fun i => l[g i]?))[i]? = l[g i]? := by
  induction c with
  | zero => simp
  | succ c ih =>
    obtain ⟨h1, h2⟩ := ih (fun i hi => h i (by omega))
    have e : (List.range (c + 1)).filterMap (fun i => l[g i]?) =
        (List.range c).filterMap (fun i => l[g i]?) ++ [l[g c]'(h c (by omega))] := by
      rw [List.range_succ, List.filterMap_append]
      congr 1
      simp [List.getElem?_eq_getElem (h c (by omega))]
    rw [e]
    refine ⟨by simp [h1], ?_⟩
    intro i hi
    by_cases hic : i < c
    · rw [List.getElem?_append_left (by omega), h2 i hic]
    · have : i = c := by omega
      subst this
      rw [List.getElem?_append_right (by omega), h1, Nat.sub_self, List.getElem?_eq_getElem (h i (by omega))]
      rfl

theorem pySlice_spec {β : Type} (l : List β) (s : Sl) (st k : Int) (c : Nat) (hs : s.indices l.length = some (st, k, c))
    (h : ∀ i : Nat, i < c → 0 ≤ st + i * k ∧ st + i * k < l.length) :
    (pySlice l s).length = c ∧ ∀ i < c, (pySlice l s)[i]? = l[(st + (i : Int) * k).toNat]? := by
  have := filterMap_range l (fun i => (st + (i : Int) * k).toNat) c (fun i hi => by have := h i hi; show (st + (i : Int) * k).toNat < _; omega)
  unfold pySlice
  rw [hs]
  exact this

theorem left_indices (N p : Nat) (hN : 1 ≤ N) :
    (⟨some (p : Int), some 0, some (-1)⟩ : Sl).indices N = some (((min p (N - 1) : Nat) : Int), -1, min p (N - 1)) := by
  simp only [Sl.indices, Option.getD_some]
  rw [if_neg (by omega)]
  simp only [show ((-1 : Int) < 0) by omega, if_true]
  simp only [show ¬ ((p : Int) < 0) by omega, show ¬ ((0 : Int) < 0) by omega, if_false]
  have e1 : min (p : Int) ((N : Int) - 1) = ((min p (N - 1) : Nat) : Int) := by omega
  have e2 : min (0 : Int) ((N : Int) - 1) = 0 := by omega
  rw [e1, e2]
  congr 3
  by_cases h : (0 : Int) < ((min p (N - 1) : Nat) : Int)
  · rw [if_pos h]; simp only [neg_neg, Int.ediv_one]; omega
  · rw [if_neg h]; omega

theorem right_indices (N p : Nat) (hN : 1 ≤ N) (hp : p ≤ N) :
    (⟨some (-2), some (-((p : Int) + 2)), some (-1)⟩ : Sl).indices N =
      some ((N : Int) - 2, -1, min p (N - 1)) := by
  simp only [Sl.indices, Option.getD_some]
  rw [if_neg (by omega)]
  simp only [show ((-1 : Int) < 0) by omega, if_true]
  simp only [show ((-2 : Int) < 0) by omega, show (-((p : Int) + 2) < 0) by omega, if_true]
  have e1 : max (-2 + (N : Int)) (-1) = (N : Int) - 2 := by omega
  rw [e1]
  congr 3
  by_cases h : max (-((p : Int) + 2) + (N : Int)) (-1) < (N : Int) - 2
  · rw [if_pos h]; simp only [neg_neg, Int.ediv_one]; omega
  · rw [if_neg h]; omega

theorem final_indices (N M lo h : Nat) (hlo : lo + h + 1 = M + 1) (hM : 1 ≤ M) :
    (⟨some (lo : Int), some (-(h : Int) - 1), none⟩ : Sl).indices (N + M + 1) = some ((lo : Int), 1, N) := by
  simp only [Sl.indices, Option.getD_none]
  rw [if_neg (by omega)]
  simp only [show ¬ ((1 : Int) < 0) by omega, if_false]
  simp only [show ¬ ((lo : Int) < 0) by omega, show (-(h : Int) - 1 < 0) by omega, if_true, if_false]
  have e1 : min (lo : Int) ((N + M + 1 : Nat) : Int) = lo := by push_cast; omega
  have e2 : max (-(h : Int) - 1 + ((N + M + 1 : Nat) : Int)) 0 = (lo : Int) + N := by push_cast; omega
  rw [e1, e2]
  congr 3
  by_cases h : (lo : Int) < (lo : Int) + N
  · rw [if_pos h]; simp only [Int.ediv_one]; omega
  · rw [if_neg h]; omega

section
variable {K : Type} [Field K] [DecidableEq K] {E : Type} [AddCommGroup E] [Module K E]

/-! ### The padded signal -/

theorem getD_some {β : Type} (l : List β) (i : Nat) (d : β) (x : β) (h : l[i]? = some x) : l.getD i d = x := by
  rw [List.getD_eq_getElem?_getD, h]; rfl

/-- The signal for `edge='m'`: length, and the values at a distance of at most `min M (N-1)`. -/
theorem sig_mirror (data : List E) (M : Nat) (hN : 1 ≤ data.length) :
    ∃ sig, smoothSig data M "m" = some sig ∧ sig.length = data.length + 2 * M ∧
      (∀ i < data.length, sig.getD (M + i) 0 = data.getD i 0) ∧
      ∀ p : Int, -(min M (data.length - 1) : Nat) ≤ p → p < data.length + (min M (data.length - 1) : Nat) →
        sig.getD ((M : Int) + p).toNat 0 = data.getD (reflect data.length p) 0 := by
  set N := data.length with hNdef
  set k := min M (N - 1) with hk
  have hmin : min (min M N) (N - 1) = k := by omega
  obtain ⟨hl1, hl2⟩ := pySlice_spec data _ _ _ _ (left_indices N (min M N) hN) (by
    intro i hi; rw [hmin] at hi ⊢; simp only [← hNdef]; omega)
  obtain ⟨hr1, hr2⟩ := pySlice_spec data _ _ _ _ (right_indices N (min M N) hN (by omega)) (by
    intro i hi; rw [hmin] at hi; simp only [← hNdef]; omega)
  rw [hmin] at hl1 hl2 hr1 hr2
  set L := pySlice data ⟨some ((min M N : Nat) : Int), some 0, some (-1)⟩ with hL
  set R := pySlice data ⟨some (-2), some (-(((min M N : Nat) : Int) + 2)), some (-1)⟩ with hR
  have hsig : smoothSig data M "m" = some ((List.replicate (M - k) 0 ++ L) ++ data ++ (R ++ List.replicate (M - k) 0)) := by
    unfold smoothSig
    simp only [if_true, ← hNdef]
    rw [← hL, ← hR, if_pos (by rw [hl1, hr1]), hl1]
    by_cases h : k < M
    · rw [if_pos h]
    · rw [if_neg h, show M - k = 0 by omega]; simp
  refine ⟨_, hsig, ?_, ?_, ?_⟩
  · simp only [List.length_append, List.length_replicate, hl1, hr1]; omega
  · intro i hi
    simp only [List.getD_eq_getElem?_getD]
    rw [List.getElem?_append_left (by simp only [List.length_append, List.length_replicate, hl1]; omega),
      List.getElem?_append_right (by simp only [List.length_append, List.length_replicate, hl1]; omega)]
    simp only [List.length_append, List.length_replicate, hl1]
    rw [show M + i - (M - k + k) = i by omega]
  · intro p hp1 hp2
    simp only [List.getD_eq_getElem?_getD]
    by_cases hneg : p < 0
    · rw [List.getElem?_append_left (by simp only [List.length_append, List.length_replicate, hl1]; omega),
        List.getElem?_append_left (by simp only [List.length_append, List.length_replicate, hl1]; omega),
        List.getElem?_append_right (by simp only [List.length_replicate]; omega)]
      simp only [List.length_replicate]
      rw [hl2 _ (by omega)]
      congr 2
      unfold reflect
      rw [if_pos hneg]
      omega
    · by_cases hin : p ≤ (N : Int) - 1
      · rw [List.getElem?_append_left (by simp only [List.length_append, List.length_replicate, hl1]; omega),
          List.getElem?_append_right (by simp only [List.length_append, List.length_replicate, hl1]; omega)]
        simp only [List.length_append, List.length_replicate, hl1]
        congr 2
        unfold reflect
        rw [if_neg hneg, if_neg (by omega)]
        omega
      · rw [List.getElem?_append_right (by simp only [List.length_append, List.length_replicate, hl1]; omega)]
        simp only [List.length_append, List.length_replicate, hl1]
        rw [List.getElem?_append_left (by omega), hr2 _ (by omega)]
        congr 2
        unfold reflect
        rw [if_neg hneg, if_pos (by omega)]
        omega

/-- The signal for `edge='c'`. -/
theorem sig_const (data : List E) (M : Nat) (hN : 1 ≤ data.length) :
    ∃ sig, smoothSig data M "c" = some sig ∧ sig.length = data.length + 2 * M ∧
      ∀ p : Int, -(M : Int) ≤ p → p < data.length + (M : Int) →
        sig.getD ((M : Int) + p).toNat 0 = data.getD (clamp data.length p) 0 := by
  obtain ⟨a, t, hd⟩ : ∃ a t, data = a :: t := by
    cases data with
    | nil => simp at hN
    | cons a t => exact ⟨a, t, rfl⟩
  have hh : data.head? = some a := by rw [hd]; rfl
  obtain ⟨b, hb⟩ : ∃ b, data.getLast? = some b := by
    rw [hd]; exact ⟨_, List.getLast?_eq_some_getLast (by simp)⟩
  have ha0 : data[0]? = some a := by rw [hd]; rfl
  have hbl : data[data.length - 1]? = some b := by rw [← List.getLast?_eq_getElem?]; exact hb
  refine ⟨List.replicate M a ++ data ++ List.replicate M b, ?_, ?_, ?_⟩
  · unfold smoothSig
    rw [if_neg (by decide), if_pos rfl, hh, hb]
  · simp; omega
  · intro p hp1 hp2
    simp only [List.getD_eq_getElem?_getD]
    by_cases hneg : p < 0
    · rw [List.getElem?_append_left (by simp only [List.length_append, List.length_replicate]; omega),
        List.getElem?_append_left (by simp only [List.length_replicate]; omega), List.getElem?_replicate,
        if_pos (by omega)]
      unfold clamp
      rw [if_pos hneg, ha0]
    · by_cases hin : p ≤ (data.length : Int) - 1
      · rw [List.getElem?_append_left (by simp only [List.length_append, List.length_replicate]; omega),
          List.getElem?_append_right (by simp only [List.length_replicate]; omega)]
        simp only [List.length_replicate]
        congr 2
        unfold clamp
        rw [if_neg hneg, if_neg (by omega)]
        omega
      · rw [List.getElem?_append_right (by simp only [List.length_append, List.length_replicate]; omega)]
        simp only [List.length_append, List.length_replicate]
        rw [List.getElem?_replicate, if_pos (by omega)]
        unfold clamp
        rw [if_neg hneg, if_pos (by omega), hbl]

/-- The kernel after the optional normalisation. -/
def usedKernel (kern : List K) (norm : Bool) : List K := if norm then kern.map (fun v => v / kern.sum) else kern

/-- The result in terms of the padded signal. -/
theorem smooth_of_sig (data : List E) (kern : List K) (edge : String) (norm : Bool) (sig : List E)
    (hs : smoothSig data kern.length edge = some sig) (hl : sig.length = data.length + 2 * kern.length)
    (hM : 1 ≤ kern.length) (hn : norm = true → kern.sum ≠ 0) :
    ∃ out, smooth data kern edge norm = some out ∧ out.length = data.length ∧
      ∀ i < data.length, out[i]? = some (∑ j ∈ range kern.length, (usedKernel kern norm).getD j 0 •
        sig.getD ((kern.length : Int) + ((i : Int) + ((kern.length - 1) / 2 : Nat) - j)).toNat 0) := by
  set M := kern.length with hMdef
  set N := data.length with hNdef
  set kk := usedKernel kern norm with hkk
  have hkl : kk.length = M := by
    rw [hkk]; unfold usedKernel; cases norm <;> simp [hMdef]
  have hret : (convValid sig kk).length = N + M + 1 := by
    unfold convValid
    rw [List.length_map, List.length_range, hkl, hl]; omega
  set lo := (M - 1) / 2 + 1 with hlo
  obtain ⟨hf1, hf2⟩ := pySlice_spec (convValid sig kk) ⟨some (lo : Int), some (-((M / 2 : Nat) : Int) - 1), none⟩ lo 1 N
    (by rw [hret]; exact final_indices N M lo (M / 2) (by omega) hM) (by
      intro i hi; rw [hret]; push_cast; omega)
  refine ⟨pySlice (convValid sig kk) ⟨some (lo : Int), some (-((M / 2 : Nat) : Int) - 1), none⟩, ?_, hf1, ?_⟩
  · unfold smooth
    simp only [← hMdef, hs]
    rw [if_neg (by rintro ⟨h1, h2⟩; exact hn h1 h2)]
    have e : (if norm = true then kern.map (fun v => v / kern.sum) else kern) = kk := rfl
    rw [e, if_neg (by rw [hret]; omega)]
    have e2 : (if M % 2 = 0 then
          pySlice (convValid sig kk) ⟨some ((M / 2 : Nat) : Int), some (-((M / 2 : Nat) : Int) - 1), none⟩
        else pySlice (convValid sig kk) ⟨some ((M / 2 + 1 : Nat) : Int), some (-((M / 2 : Nat) : Int) - 1), none⟩) =
        pySlice (convValid sig kk) ⟨some (lo : Int), some (-((M / 2 : Nat) : Int) - 1), none⟩ := by
      split
      · rw [show M / 2 = lo by omega]
      · rw [show M / 2 + 1 = lo by omega]
    rw [e2, if_pos hf1]
  · intro i hi
    rw [hf2 i hi]
    unfold convValid
    rw [List.getElem?_map, List.getElem?_range (by rw [hkl, hl]; omega)]
    simp only [Option.map_some, Option.some.injEq, hkl]
    apply sum_congr rfl
    intro j hj
    rw [mem_range] at hj
    congr 2
    omega

/-- **C59** (edge `'m'`). For every kernel with half length `M/2 ≤ N-1`, the result has the length of the
data and is the average of the data, mirrored at both ends, weighted by the (normalised) kernel.
Missing for the full property: longer kernels, see `C59_long_kernel`. -/
theorem C59_smooth_mirror_partial (data : List E) (kern : List K) (norm : Bool) (hM : 1 ≤ kern.length)
    (hh : kern.length / 2 + 1 ≤ data.length) (hn : norm = true → kern.sum ≠ 0) :
    ∃ out, smooth data kern "m" norm = some out ∧ out.length = data.length ∧
      ∀ i < data.length, out[i]? = some (∑ j ∈ range kern.length,
        (if norm then kern.getD j 0 / kern.sum else kern.getD j 0) •
          data.getD (reflect data.length ((i : Int) + ((kern.length - 1) / 2 : Nat) - j)) 0) := by
  obtain ⟨sig, h1, h2, _, h4⟩ := sig_mirror data kern.length (by omega)
  obtain ⟨out, h5, h6, h7⟩ := smooth_of_sig data kern "m" norm sig h1 h2 hM hn
  refine ⟨out, h5, h6, ?_⟩
  intro i hi
  rw [h7 i hi]
  congr 1
  apply sum_congr rfl
  intro j hj
  rw [mem_range] at hj
  rw [h4 _ (by omega) (by omega)]
  congr 1
  unfold usedKernel
  cases norm
  · simp
  · simp only [if_true, List.getD_eq_getElem?_getD, List.getElem?_map, List.getElem?_eq_getElem hj, Option.map_some,
      Option.getD_some]

/-- **C59** (edge `'c'`). The same with the border values repeated outside, for kernels of every length. -/
theorem C59_smooth_const (data : List E) (kern : List K) (norm : Bool) (hM : 1 ≤ kern.length)
    (hh : 1 ≤ data.length) (hn : norm = true → kern.sum ≠ 0) :
    ∃ out, smooth data kern "c" norm = some out ∧ out.length = data.length ∧
      ∀ i < data.length, out[i]? = some (∑ j ∈ range kern.length,
        (if norm then kern.getD j 0 / kern.sum else kern.getD j 0) •
          data.getD (clamp data.length ((i : Int) + ((kern.length - 1) / 2 : Nat) - j)) 0) := by
  obtain ⟨sig, h1, h2, h4⟩ := sig_const data kern.length (by omega)
  obtain ⟨out, h5, h6, h7⟩ := smooth_of_sig data kern "c" norm sig h1 h2 hM hn
  refine ⟨out, h5, h6, ?_⟩
  intro i hi
  rw [h7 i hi]
  congr 1
  apply sum_congr rfl
  intro j hj
  rw [mem_range] at hj
  rw [h4 _ (by omega) (by omega)]
  congr 1
  unfold usedKernel
  cases norm
  · simp
  · simp only [if_true, List.getD_eq_getElem?_getD, List.getElem?_map, List.getElem?_eq_getElem hj, Option.map_some,
      Option.getD_some]

/-- **C59** (shape). For all lengths of data and kernel, even and odd, shorter and longer than the data,
the result has the length of the data. -/
theorem C59_shape (data : List E) (kern : List K) (edge : String) (he : edge = "m" ∨ edge = "c") (norm : Bool)
    (hM : 1 ≤ kern.length) (hN : 1 ≤ data.length) (hn : norm = true → kern.sum ≠ 0) :
    ∃ out, smooth data kern edge norm = some out ∧ out.length = data.length := by
  rcases he with rfl | rfl
  · obtain ⟨sig, h1, h2, _⟩ := sig_mirror data kern.length hN
    obtain ⟨out, h5, h6, _⟩ := smooth_of_sig data kern "m" norm sig h1 h2 hM hn
    exact ⟨out, h5, h6⟩
  · obtain ⟨sig, h1, h2, _⟩ := sig_const data kern.length hN
    obtain ⟨out, h5, h6, _⟩ := smooth_of_sig data kern "c" norm sig h1 h2 hM hn
    exact ⟨out, h5, h6⟩

theorem kernel_sum (kern : List K) (h : kern.sum ≠ 0) : ∑ j ∈ range kern.length, kern.getD j 0 / kern.sum = 1 := by
  have : ∀ l : List K, ∑ j ∈ range l.length, l.getD j 0 = l.sum := by
    intro l
    induction l with
    | nil => simp
    | cons a l ih => rw [List.length_cons, Finset.sum_range_succ', List.sum_cons, ← ih]; simp [add_comm]
  rw [← sum_div, this, div_self h]

/-- **C59** (constants). With a normalised kernel constant data is unchanged: for `edge='c'` always, for
`edge='m'` if `M/2 ≤ N-1`. -/
theorem C59_constant (N : Nat) (hN : 1 ≤ N) (x : E) (kern : List K) (edge : String) (hM : 1 ≤ kern.length)
    (he : edge = "c" ∨ edge = "m" ∧ kern.length / 2 + 1 ≤ N) (hn : kern.sum ≠ 0) :
    smooth (List.replicate N x) kern edge true = some (List.replicate N x) := by
  have key : ∀ (g : Nat → Nat → Nat) (out : List E), (∀ i j, i < N → j < kern.length → g i j < N) → out.length = N →
      (∀ i < N, out[i]? = some (∑ j ∈ range kern.length,
        (kern.getD j 0 / kern.sum) • (List.replicate N x).getD (g i j) 0)) → out = List.replicate N x := by
    intro g out hg hl ho
    apply List.ext_getElem?
    intro i
    by_cases hi : i < N
    · rw [ho i hi, List.getElem?_replicate, if_pos hi]
      congr 1
      have : ∀ j ∈ range kern.length, (kern.getD j 0 / kern.sum) • (List.replicate N x).getD (g i j) 0 =
          (kern.getD j 0 / kern.sum) • x := by
        intro j hj
        rw [mem_range] at hj
        congr 1
        rw [List.getD_eq_getElem?_getD, List.getElem?_replicate, if_pos (hg i j hi hj)]; rfl
      rw [sum_congr rfl this, ← sum_smul, kernel_sum kern hn, one_smul]
    · rw [List.getElem?_eq_none (by omega), List.getElem?_eq_none (by simp; omega)]
  rcases he with rfl | ⟨rfl, hh⟩
  · obtain ⟨out, h1, h2, h3⟩ := C59_smooth_const (List.replicate N x) kern true hM (by simpa using hN) (fun _ => hn)
    rw [h1]
    congr 1
    simp only [List.length_replicate, if_true] at h2 h3
    refine key (fun i j => clamp N ((i : Int) + ((kern.length - 1) / 2 : Nat) - j)) out ?_ h2 h3
    intro i j hi hj
    simp only [clamp]
    split
    · omega
    · split <;> omega
  · obtain ⟨out, h1, h2, h3⟩ := C59_smooth_mirror_partial (List.replicate N x) kern true hM (by simpa using hh) (fun _ => hn)
    rw [h1]
    congr 1
    simp only [List.length_replicate, if_true] at h2 h3
    refine key (fun i j => reflect N ((i : Int) + ((kern.length - 1) / 2 : Nat) - j)) out ?_ h2 h3
    intro i j hi hj
    simp only [reflect]
    split
    · omega
    · split <;> omega

/-- **C59** (identity). If only the middle entry `(M-1)/2` of the kernel is not zero, the data comes back,
for both edge methods and all lengths. -/
theorem C59_delta (data : List E) (kern : List K) (edge : String) (he : edge = "m" ∨ edge = "c")
    (hM : 1 ≤ kern.length) (hN : 1 ≤ data.length) (hn : kern.sum ≠ 0)
    (hz : ∀ j < kern.length, j ≠ (kern.length - 1) / 2 → kern.getD j 0 = 0) :
    smooth data kern edge true = some data := by
  obtain ⟨sig, h1, h2, h3⟩ : ∃ sig, smoothSig data kern.length edge = some sig ∧
      sig.length = data.length + 2 * kern.length ∧ ∀ i < data.length, sig.getD (kern.length + i) 0 = data.getD i 0 := by
    rcases he with rfl | rfl
    · obtain ⟨sig, h1, h2, h3, _⟩ := sig_mirror data kern.length hN
      exact ⟨sig, h1, h2, h3⟩
    · obtain ⟨sig, h1, h2, h3⟩ := sig_const data kern.length hN
      refine ⟨sig, h1, h2, ?_⟩
      intro i hi
      have := h3 i (by omega) (by omega)
      rw [show ((kern.length : Int) + (i : Int)).toNat = kern.length + i by omega] at this
      rw [this]
      congr 1
      unfold clamp
      rw [if_neg (by omega), if_neg (by omega)]
      omega
  obtain ⟨out, h5, h6, h7⟩ := smooth_of_sig data kern edge true sig h1 h2 hM (fun _ => hn)
  rw [h5]
  congr 1
  apply List.ext_getElem?
  intro i
  by_cases hi : i < data.length
  · rw [h7 i hi, sum_eq_single ((kern.length - 1) / 2)]
    · rw [show ((kern.length : Int) + ((i : Int) + ((kern.length - 1) / 2 : Nat) - ((kern.length - 1) / 2 : Nat))).toNat =
        kern.length + i by omega, h3 i hi]
      have h8 := kernel_sum kern hn
      rw [sum_eq_single ((kern.length - 1) / 2)] at h8
      · have : (usedKernel kern true).getD ((kern.length - 1) / 2) 0 = 1 := by
          unfold usedKernel
          simp only [if_true, List.getD_eq_getElem?_getD, List.getElem?_map]
          rw [List.getElem?_eq_getElem (show (kern.length - 1) / 2 < kern.length by omega)]
          simp only [List.getD_eq_getElem?_getD,
            List.getElem?_eq_getElem (show (kern.length - 1) / 2 < kern.length by omega), Option.getD_some] at h8
          exact h8
        rw [this, one_smul, List.getD_eq_getElem?_getD, List.getElem?_eq_getElem hi]; rfl
      · intro j hj hne
        rw [mem_range] at hj
        rw [hz j hj hne, zero_div]
      · intro hc; rw [mem_range] at hc; omega
    · intro j hj hne
      rw [mem_range] at hj
      have : (usedKernel kern true).getD j 0 = 0 := by
        unfold usedKernel
        have hz' := hz j hj hne
        simp only [List.getD_eq_getElem?_getD, List.getElem?_eq_getElem hj, Option.getD_some] at hz'
        simp only [if_true, List.getD_eq_getElem?_getD, List.getElem?_map, List.getElem?_eq_getElem hj, Option.map_some,
          Option.getD_some, hz', zero_div]
      rw [this, zero_smul]
    · intro hc; rw [mem_range] at hc; omega
  · rw [List.getElem?_eq_none (by omega), List.getElem?_eq_none (by omega)]

/-- **C59** (errors). An unknown `edge`, an empty kernel, or a kernel with sum 0 that is to be
normalised. -/
theorem C59_errors (data : List E) (kern : List K) (edge : String) (norm : Bool) :
    (edge ≠ "m" → edge ≠ "c" → smooth data kern edge norm = none) ∧
    (smooth data ([] : List K) edge norm = none) ∧
    (kern.sum = 0 → smooth data kern edge true = none) := by
  refine ⟨?_, ?_, ?_⟩
  · intro h1 h2
    simp [smooth, smoothSig, h1, h2]
  · unfold smooth
    simp only [List.length_nil, true_or, if_true]
    cases smoothSig data 0 edge <;> simp
  · intro h
    unfold smooth
    simp only [h, and_self, if_true]
    cases smoothSig data kern.length edge <;> simp

end

/-- **C59** fails for long kernels with `edge='m'`: a single value 1 smoothed with a constant kernel of
length 3 gives 1/3 (the padding is zero beyond the mirror image). -/
theorem C59_long_kernel : smooth ([1] : List ℚ) ([1, 1, 1] : List ℚ) "m" true = some [1 / 3] := by
  have h1 : smoothSig ([1] : List ℚ) 3 "m" = some [0, 0, 0, 1, 0, 0, 0] := by rfl
  obtain ⟨out, h5, h6, h7⟩ := smooth_of_sig ([1] : List ℚ) ([1, 1, 1] : List ℚ) "m" true [0, 0, 0, 1, 0, 0, 0] h1 rfl
    (by simp) (by norm_num)
  rw [h5]
  congr 1
  have h8 := h7 0 (by simp)
  have hl : out.length = 1 := by simpa using h6
  obtain ⟨a, rfl⟩ := List.length_eq_one_iff.1 hl
  simp only [List.getElem?_cons_zero, Option.some.injEq] at h8
  rw [h8]
  norm_num [usedKernel, Finset.sum_range_succ]
  show (1 / 3 : ℚ) * 0 + 1 / 3 * 1 + 1 / 3 * 0 = 1 / 3
  norm_num

/-- Non-vacuity of the hypotheses: data of length 4, kernel (1, 2, 1). -/
example : ([1, 2, 1] : List ℚ).length / 2 + 1 ≤ ([5, 7, 1, 3] : List ℚ).length ∧ ([1, 2, 1] : List ℚ).sum ≠ 0 := by
  norm_num

end Pwtools.Sig
