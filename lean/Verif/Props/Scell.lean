import Verif.Spec.Pbc
import Verif.Props.Cell2
import Verif.Props.NdArray
import Verif.Props.Num2
/-!
# C34, C35, C46, C55: supercells, wrapping, velocities, centering
-/
namespace Pwtools.Cry
open Real Spec

/-! ### C34 -/

theorem mkrange_spec (direc x : Int) (hd : direc = 1 ∨ direc = -1) :
    ∃ l, mkrange direc x = some l ∧ l.Nodup ∧ (∀ n, n ∈ l ↔ (0 ≤ n ∧ n < x) ∨ (x < n ∧ n ≤ 0)) ∧ l.length = x.natAbs := by
  have inj : ∀ (c : Nat) (f : Nat → Int), (∀ a b : Nat, f a = f b → a = b) → ((List.range c).map f).Nodup := by
    intro c f hf
    exact (List.nodup_range).map (fun a b h => hf a b h)
  unfold mkrange
  rcases hd with rfl | rfl
  · simp only [if_true]
    refine ⟨_, rfl, ?_, ?_, ?_⟩
    · split
      · exact inj _ _ (by intro a b h; omega)
      · exact inj _ _ (by intro a b h; omega)
    · intro n
      split <;> simp only [List.mem_map, List.mem_range]
      · constructor
        · rintro ⟨i, hi, rfl⟩; omega
        · intro h; exact ⟨n.toNat, by omega, by omega⟩
      · constructor
        · rintro ⟨i, hi, rfl⟩; omega
        · intro h; exact ⟨(-n).toNat, by omega, by omega⟩
    · split <;> simp <;> omega
  · simp only [show (-1 : Int) ≠ 1 by decide, if_false, if_true]
    refine ⟨_, rfl, ?_, ?_, ?_⟩
    · split
      · exact inj _ _ (by intro a b h; omega)
      · exact inj _ _ (by intro a b h; omega)
    · intro n
      split <;> simp only [List.mem_map, List.mem_range]
      · constructor
        · rintro ⟨i, hi, rfl⟩; omega
        · intro h; exact ⟨(x - 1 - n).toNat, by omega, by omega⟩
      · constructor
        · rintro ⟨i, hi, rfl⟩; omega
        · intro h; exact ⟨(n - x - 1).toNat, by omega, by omega⟩
    · split <;> simp <;> omega

/-- Row of the mask as integer vector. -/
def rowVec (m : List Int) : Fin 3 → Int := fun k => m.getD k 0

theorem scellMask_spec (dims : Fin 3 → Int) (direc : Int) (hd : direc = 1 ∨ direc = -1) :
    ∃ mask, scellMask (dims 0) (dims 1) (dims 2) direc = some mask ∧ (mask.map rowVec).Nodup ∧
      (∀ n, n ∈ mask.map rowVec ↔ InBlock dims n) ∧ mask.length = (dims 0).natAbs * (dims 1).natAbs * (dims 2).natAbs := by
  obtain ⟨l0, e0, n0, m0, c0⟩ := mkrange_spec direc (dims 0) hd
  obtain ⟨l1, e1, n1, m1, c1⟩ := mkrange_spec direc (dims 1) hd
  obtain ⟨l2, e2, n2, m2, c2⟩ := mkrange_spec direc (dims 2) hd
  have hx : itProduct [l0, l1, l2] = l0.flatMap (fun a => l1.flatMap (fun b => l2.map (fun c => [a, b, c]))) := by
    simp [itProduct, List.flatMap_map, List.map_flatMap, List.flatMap_assoc]
  refine ⟨itProduct [l0, l1, l2], by simp [scellMask, e0, e1, e2], ?_, ?_, ?_⟩
  · have hnd : (itProduct [l0, l1, l2]).Nodup := Num.itProduct_nodup _ (by simp [n0, n1, n2])
    apply hnd.map_on
    intro a ha b hb hab
    rw [hx] at ha hb
    simp only [List.mem_flatMap, List.mem_map] at ha hb
    obtain ⟨a0, _, a1, _, a2, _, rfl⟩ := ha
    obtain ⟨b0, _, b1, _, b2, _, rfl⟩ := hb
    have k0 := congrFun hab 0
    have k1 := congrFun hab 1
    have k2 := congrFun hab 2
    simp [rowVec] at k0 k1 k2
    rw [k0, k1, k2]
  · intro n
    rw [hx]
    simp only [List.mem_map, List.mem_flatMap]
    constructor
    · rintro ⟨_, ⟨a0, h0, a1, h1, a2, h2, rfl⟩, rfl⟩
      have k0 := (m0 _).1 h0
      have k1 := (m1 _).1 h1
      have k2 := (m2 _).1 h2
      intro k
      fin_cases k
      · exact k0
      · exact k1
      · exact k2
    · intro h
      refine ⟨[n 0, n 1, n 2], ⟨n 0, (m0 _).2 (h 0), n 1, (m1 _).2 (h 1), n 2, (m2 _).2 (h 2), rfl⟩, ?_⟩
      funext k
      fin_cases k <;> rfl
  · rw [Num.itProduct_length]
    simp [c0, c1, c2, mul_assoc]

/-- The reshaped broadcast sum is the same list as the two loops. -/
theorem scellCoords_eq (cf : List V3) (mask : List (List Int)) : scellCoords1 cf mask = scellCoords2 cf mask := by
  unfold scellCoords1 scellCoords2
  induction cf with
  | nil => simp
  | cons s cf ih =>
    rw [List.flatMap_cons, List.length_cons, Nat.succ_mul, Nat.add_comm, List.range_add, List.map_append, List.map_map]
    congr 1
    · apply List.ext_getElem?
      intro k
      simp only [List.getElem?_map]
      by_cases hk : k < mask.length
      · simp [hk, Nat.div_eq_of_lt hk, Nat.mod_eq_of_lt hk, List.getElem?_range hk]
      · simp [hk]
    · rw [← ih]
      apply List.map_congr_left
      intro k hk
      have h0 : 0 < mask.length := by
        rcases Nat.eq_zero_or_pos mask.length with h | h
        · rw [h] at hk; simp at hk
        · exact h
      simp only [Function.comp]
      rw [Nat.add_div_left _ h0, Nat.add_mod_left]
      simp

/-- New cell of the supercell. -/
theorem frac2cart_scell (cell : Cell) (dims : Fin 3 → Int) (h : ∀ k, dims k ≠ 0) (s : V3) (n : Fin 3 → Int) :
    frac2cart (Matrix.of (fun i k => cell i k * (dims i : ℝ))) (fun k => (s k + (n k : ℝ)) / (dims k : ℝ)) =
      translate cell n (frac2cart cell s) := by
  have h' : ∀ k, (dims k : ℝ) ≠ 0 := fun k => by exact_mod_cast h k
  have h0 := h' 0
  have h1 := h' 1
  have h2 := h' 2
  funext k
  simp only [frac2cart, translate, Matrix.vecMul, dotProduct, Fin.sum_univ_three, Matrix.of_apply]
  field_simp
  ring

/-- One block of a supercell: position of an atom in all cells. -/
theorem scell_positions (cf : List V3) (cell : Cell) (dims : Fin 3 → Int) (h : ∀ k, dims k ≠ 0) (mask : List (List Int)) :
    (((scellCoords2 cf mask).map (fun s => (fun k => s k / (dims k : ℝ) : V3))).map
      (frac2cart (Matrix.of (fun i k => cell i k * (dims i : ℝ)))))
      = cf.flatMap (fun s => (mask.map rowVec).map (fun n => translate cell n (frac2cart cell s))) := by
  unfold scellCoords2
  rw [List.map_map, List.map_flatMap]
  congr 1
  funext s
  rw [List.map_map, List.map_map]
  apply List.map_congr_left
  intro m _
  exact frac2cart_scell cell dims h s (rowVec m)

/-- **C34** (structures). For all non-zero dimensions (also negative ones), both methods and both
directions: there is a list `B` which contains every lattice vector of the block exactly once; the
new cell vectors are the old ones times the dimensions; and the cartesian positions of the new
atoms are, for every old atom in turn, its position translated by each vector of `B`, the symbol
repeated accordingly. -/
theorem C34_scell (st : Struct) (dims : Fin 3 → Int) (h : ∀ k, dims k ≠ 0) (method : Nat) (hm : method = 1 ∨ method = 2)
    (direc : Int) (hd : direc = 1 ∨ direc = -1) (syms : List String) (hs : st.symbols = some syms) :
    ∃ (sc : Struct) (B : List (Fin 3 → Int)), scell st dims method direc = .ok sc ∧ B.Nodup ∧ (∀ n, n ∈ B ↔ InBlock dims n) ∧
      B.length = (dims 0).natAbs * (dims 1).natAbs * (dims 2).natAbs ∧
      (∀ i k, sc.cell i k = (dims i : ℝ) * st.cell i k) ∧
      sc.coordsFrac.map (frac2cart sc.cell) =
        st.coordsFrac.flatMap (fun s => B.map (fun n => translate st.cell n (frac2cart st.cell s))) ∧
      sc.symbols = some (syms.flatMap (fun x => List.replicate B.length x)) ∧
      volumeCell sc.cell = |((dims 0 * dims 1 * dims 2 : Int) : ℝ)| * volumeCell st.cell := by
  obtain ⟨mask, e, hnd, hmem, hlen⟩ := scellMask_spec dims direc hd
  have hne : mask.isEmpty = false := by
    rw [List.isEmpty_eq_false_iff, ← List.length_pos_iff, hlen]
    exact Nat.mul_pos (Nat.mul_pos (Int.natAbs_pos.2 (h 0)) (Int.natAbs_pos.2 (h 1))) (Int.natAbs_pos.2 (h 2))
  have hvol : volumeCell (Matrix.of (fun i k => st.cell i k * (dims i : ℝ))) =
      |((dims 0 * dims 1 * dims 2 : Int) : ℝ)| * volumeCell st.cell := by
    unfold volumeCell
    rw [← abs_mul]
    congr 1
    simp only [Matrix.det_fin_three, Matrix.of_apply]
    push_cast
    ring
  rcases hm with rfl | rfl
  · refine ⟨⟨(scellCoords1 st.coordsFrac mask).map (fun s => (fun k => s k / (dims k : ℝ) : V3)),
      Matrix.of (fun i k => st.cell i k * (dims i : ℝ)), st.symbols.map (fun l => l.flatMap (List.replicate mask.length))⟩,
      mask.map rowVec, ?_, hnd, hmem, ?_, ?_, ?_, ?_, hvol⟩
    · simp [scell, e, hne]
    · rw [List.length_map, hlen]
    · intro i k; simp [mul_comm]
    · rw [scellCoords_eq]
      exact scell_positions _ _ dims h mask
    · simp [hs]
  · refine ⟨⟨(scellCoords2 st.coordsFrac mask).map (fun s => (fun k => s k / (dims k : ℝ) : V3)),
      Matrix.of (fun i k => st.cell i k * (dims i : ℝ)), some ((st.symbols.getD []).flatMap (List.replicate mask.length))⟩,
      mask.map rowVec, ?_, hnd, hmem, ?_, ?_, ?_, ?_, hvol⟩
    · simp [scell, e]
    · rw [List.length_map, hlen]
    · intro i k; simp [mul_comm]
    · exact scell_positions _ _ dims h mask
    · simp [hs]

/-- **C34** (the two implementations). They return the same structure. -/
theorem C34_methods (st : Struct) (dims : Fin 3 → Int) (h : ∀ k, dims k ≠ 0) (direc : Int) (hd : direc = 1 ∨ direc = -1)
    (hs : st.symbols ≠ none) : scell st dims 1 direc = scell st dims 2 direc := by
  obtain ⟨mask, e, hnd, hmem, hlen⟩ := scellMask_spec dims direc hd
  have hne : mask.isEmpty = false := by
    rw [List.isEmpty_eq_false_iff, ← List.length_pos_iff, hlen]
    exact Nat.mul_pos (Nat.mul_pos (Int.natAbs_pos.2 (h 0)) (Int.natAbs_pos.2 (h 1))) (Int.natAbs_pos.2 (h 2))
  obtain ⟨syms, hsy⟩ := Option.ne_none_iff_exists'.1 hs
  simp [scell, e, hne, scellCoords_eq, hsy]

/-- **C34** (trajectories). Step `i` of the supercell trajectory is the supercell of step `i`. -/
theorem C34_traj (steps : List (List V3 × Cell)) (syms : List String) (dims : Fin 3 → Int) (h : ∀ k, dims k ≠ 0)
    (direc : Int) (hd : direc = 1 ∨ direc = -1) :
    ∃ out osyms, scellTraj steps (some syms) dims 1 direc = .ok (out, some osyms) ∧ out.length = steps.length ∧
      ∀ (i : Nat) p q, steps[i]? = some p → out[i]? = some q →
        scell ⟨p.1, p.2, some syms⟩ dims 1 direc = .ok ⟨q.1, q.2, some osyms⟩ := by
  obtain ⟨mask, e, hnd, hmem, hlen⟩ := scellMask_spec dims direc hd
  have hne : mask.isEmpty = false := by
    rw [List.isEmpty_eq_false_iff, ← List.length_pos_iff, hlen]
    exact Nat.mul_pos (Nat.mul_pos (Int.natAbs_pos.2 (h 0)) (Int.natAbs_pos.2 (h 1))) (Int.natAbs_pos.2 (h 2))
  refine ⟨steps.map (fun p => ((scellCoords1 p.1 mask).map (fun s => (fun k => s k / (dims k : ℝ) : V3)),
            (Matrix.of (fun i k => p.2 i k * (dims i : ℝ)) : Cell))),
          syms.flatMap (List.replicate mask.length), ?_, by simp, ?_⟩
  · simp [scellTraj, e, hne]
  · intro i p q hp hq
    rw [List.getElem?_map, hp] at hq
    simp only [Option.map_some, Option.some.injEq] at hq
    subst hq
    simp [scell, e, hne]

/-- **C34** (errors). Another `method` or another `direc` raises, and so does method 2 for a
trajectory. -/
theorem C34_errors (st : Struct) (steps : List (List V3 × Cell)) (syms : Option (List String)) (dims : Fin 3 → Int)
    (method : Nat) (direc : Int) :
    (direc ≠ 1 ∧ direc ≠ -1 → scell st dims method direc = .error .unbound) ∧
    (direc = 1 ∨ direc = -1 → method ≠ 1 → method ≠ 2 → scell st dims method direc = .error .exception) ∧
    (direc = 1 ∨ direc = -1 → method ≠ 1 → scellTraj steps syms dims method direc = .error .exception) := by
  refine ⟨?_, ?_, ?_⟩
  · rintro ⟨h1, h2⟩
    simp [scell, scellMask, mkrange, h1, h2]
  · intro hd h1 h2
    obtain ⟨mask, e, _⟩ := scellMask_spec dims direc hd
    simp [scell, e, h1, h2]
  · intro hd h1
    obtain ⟨mask, e, _⟩ := scellMask_spec dims direc hd
    simp [scellTraj, e, h1]

/-- Non-vacuity: dimensions 2, 1, -3. -/
example : ∃ (sc : Struct) (B : List (Fin 3 → Int)), scell ⟨[![0, 0, 0], ![1/2, 1/2, 1/2]], 1, some ["Al", "N"]⟩ ![2, 1, -3] 1 1 = .ok sc ∧
    B.length = 6 ∧ sc.symbols = some (["Al", "N"].flatMap (fun x => List.replicate B.length x)) := by
  obtain ⟨sc, B, h1, _, _, h2, _, _, h3, _⟩ := C34_scell ⟨[![0, 0, 0], ![1/2, 1/2, 1/2]], 1, some ["Al", "N"]⟩ ![2, 1, -3]
    (by decide) 1 (.inl rfl) 1 (.inl rfl) ["Al", "N"] rfl
  exact ⟨sc, B, h1, by rw [h2]; rfl, h3⟩

/-! ### C35 -/

theorem wrapAxes_get (ax : Nat) (mask : Nat → Bool) (is : List Nat) (hn : is.Nodup) (a : Nd.Arr ℝ) :
    (wrapAxes a ax mask is).shape = a.shape ∧
    ∀ idx, (wrapAxes a ax mask is).get idx =
      if idx.getD ax 0 ∈ is ∧ mask (idx.getD ax 0) = true then remainder1 (a.get idx) else a.get idx := by
  induction is generalizing a with
  | nil => simp [wrapAxes]
  | cons i is ih =>
    rw [List.nodup_cons] at hn
    unfold wrapAxes
    split
    · rename_i hm
      obtain ⟨h1, h2⟩ := ih hn.2 ⟨a.shape, fun idx => if idx.getD ax 0 = i then remainder1 (a.get idx) else a.get idx⟩
      refine ⟨h1, fun idx => ?_⟩
      rw [h2]
      simp only [List.mem_cons]
      by_cases hi : idx.getD ax 0 = i
      · simp only [hi, if_true, true_or, hm, and_self]
        rw [if_neg (fun hc => hn.1 hc.1)]
      · simp only [hi, if_false, false_or]
    · rename_i hm
      obtain ⟨h1, h2⟩ := ih hn.2 a
      refine ⟨h1, fun idx => ?_⟩
      rw [h2]
      simp only [List.mem_cons]
      by_cases hi : idx.getD ax 0 = i
      · rw [hi]
        simp [hm]
      · simp only [hi, false_or]

/-- **C35**. On a 2d or 3d array whose axis `xyz_axis` (also negative) has length 3: the shape stays;
entries whose direction is masked come to lie in `[0,1)` and differ from the old ones by an integer;
other entries stay; and with `copy=True` the caller's array is not changed, while with `copy=False`
it is the result. -/
theorem C35_wrap (a : Nd.Arr ℝ) (copy : Bool) (mask : Nat → Bool) (axis : Int) (ax : Nat)
    (hax : IsAxis a.shape.length axis ax) (h3 : a.shape[ax]? = some 3) (hd : a.shape.length = 2 ∨ a.shape.length = 3) :
    ∃ r after, pbcWrapCoords a copy mask axis = .ok (r, after) ∧ r.shape = a.shape ∧
      (∀ idx, InShape idx a.shape →
        (mask (idx.getD ax 0) = true → 0 ≤ r.get idx ∧ r.get idx < 1 ∧ ∃ n : Int, r.get idx = a.get idx + n) ∧
        (mask (idx.getD ax 0) = false → r.get idx = a.get idx)) ∧
      (copy = true → after = a) ∧ (copy = false → after = r) := by
  have hp := (Nd.pyIndex_some _ _ _).2 hax
  obtain ⟨w1, w2⟩ := wrapAxes_get ax mask [0, 1, 2] (by decide) a
  refine ⟨wrapAxes a ax mask [0, 1, 2], if copy then a else wrapAxes a ax mask [0, 1, 2], ?_, w1, ?_, ?_, ?_⟩
  · simp [pbcWrapCoords, hp, h3, hd]
  · intro idx hidx
    have hlt : idx.getD ax 0 < 3 := by
      have hl := Nd.inShape_length hidx
      have hax' : ax < idx.length := by rw [hl]; exact hax.1
      have h := (List.forall₂_iff_get.1 hidx).2 ax hax' hax.1
      simp only [List.get_eq_getElem] at h
      rw [List.getD_eq_getElem?_getD, List.getElem?_eq_getElem hax', Option.getD_some]
      rw [List.getElem?_eq_getElem hax.1] at h3
      simp only [Option.some.injEq] at h3
      omega
    have hmem : idx.getD ax 0 ∈ [0, 1, 2] := by
      simp only [List.mem_cons, List.not_mem_nil, or_false]; omega
    constructor
    · intro hm
      rw [w2, if_pos ⟨hmem, hm⟩]
      unfold remainder1
      have f1 := Int.floor_le (a.get idx)
      have f2 := Int.lt_floor_add_one (a.get idx)
      refine ⟨by linarith, by linarith, -⌊a.get idx⌋, by push_cast; ring⟩
    · intro hm
      rw [w2, if_neg (by rw [hm]; simp)]
  · rintro rfl; rfl
  · rintro rfl; rfl

theorem remainder1_idem (x : ℝ) (h0 : 0 ≤ x) (h1 : x < 1) : remainder1 x = x := by
  unfold remainder1
  have : ⌊x⌋ = 0 := Int.floor_eq_iff.2 ⟨by simpa using h0, by simpa using h1⟩
  rw [this]
  simp

/-- **C35** (idempotent). Wrapping a second time changes nothing. -/
theorem C35_idempotent (a : Nd.Arr ℝ) (copy copy' : Bool) (mask : Nat → Bool) (axis : Int) (r s x y : Nd.Arr ℝ)
    (h : pbcWrapCoords a copy mask axis = .ok (r, x)) (h' : pbcWrapCoords r copy' mask axis = .ok (s, y)) :
    s.shape = r.shape ∧ ∀ idx, s.get idx = r.get idx := by
  unfold pbcWrapCoords at h
  split at h
  · cases h
  rename_i ax hp
  split at h
  rotate_left
  · cases h
  split at h
  rotate_left
  · cases h
  simp only [Except.ok.injEq, Prod.mk.injEq] at h
  obtain ⟨rfl, -⟩ := h
  obtain ⟨w1, w2⟩ := wrapAxes_get ax mask [0, 1, 2] (by decide) a
  rename_i h3 hd
  obtain ⟨v1, v2⟩ := wrapAxes_get ax mask [0, 1, 2] (by decide) (wrapAxes a ax mask [0, 1, 2])
  simp only [pbcWrapCoords, w1, hp, h3, if_true, hd, Except.ok.injEq, Prod.mk.injEq] at h'
  obtain ⟨rfl, -⟩ := h'
  refine ⟨v1, fun idx => ?_⟩
  rw [v2]
  split
  · rename_i hc
    rw [w2, if_pos hc]
    apply remainder1_idem
    · unfold remainder1; linarith [Int.floor_le (a.get idx)]
    · unfold remainder1; linarith [Int.lt_floor_add_one (a.get idx)]
  · rfl

/-- **C35** (errors). Wrong number of axes, wrong length of the axis or no such axis: the call raises. -/
theorem C35_errors (a : Nd.Arr ℝ) (copy : Bool) (mask : Nat → Bool) (axis : Int)
    (h : (∀ ax, ¬ IsAxis a.shape.length axis ax) ∨ (∀ ax, IsAxis a.shape.length axis ax → a.shape[ax]? ≠ some 3) ∨
      (a.shape.length ≠ 2 ∧ a.shape.length ≠ 3)) :
    ∃ e, pbcWrapCoords a copy mask axis = .error e := by
  unfold pbcWrapCoords
  split
  · exact ⟨_, rfl⟩
  · rename_i ax hp
    rw [Nd.pyIndex_some] at hp
    split
    · rename_i h3
      rw [if_neg]
      · exact ⟨_, rfl⟩
      · rintro hc
        rcases h with h | h | h
        · exact h ax hp
        · exact h ax hp h3
        · exact hc.elim h.1 h.2
    · exact ⟨_, rfl⟩

/-- Non-vacuity: one atom, shape (1,3), last axis; 2.25 is wrapped to 0.25. -/
example : ∃ r after, pbcWrapCoords ⟨[1, 3], fun _ => 2.25⟩ true (fun _ => true) (-1) = .ok (r, after) ∧ r.get [0, 1] = 0.25 := by
  refine ⟨_, _, rfl, ?_⟩
  rw [(wrapAxes_get _ _ [0, 1, 2] (by decide) _).2]
  simp [remainder1]
  norm_num

/-! ### C46 -/

variable {E : Type} [AddCommGroup E] [Module ℝ E]

/-- **C46**. For at least three time steps and `endpoints=True`: as many velocities as steps; in the
interior the central difference; the first and last velocity repeat their neighbours. -/
theorem C46_velocity (x : List E) (dt : ℝ) (h : 3 ≤ x.length) :
    ∃ v, velocityTraj x dt true = some v ∧ v.length = x.length ∧
      (∀ (i : Nat) a b, 1 ≤ i → i + 1 < x.length → x[i - 1]? = some a → x[i + 1]? = some b →
        v[i]? = some ((1 / (2 * dt)) • (b - a))) ∧
      v[0]? = v[1]? ∧ v[x.length - 1]? = v[x.length - 2]? := by
  set tmp := List.zipWith (fun a b : E => (1 / dt) • ((1 / 2 : ℝ) • (a - b))) (x.drop 2) (x.take (x.length - 2)) with htmp
  have hl : tmp.length = x.length - 2 := by simp [htmp]
  have hget : ∀ (i : Nat) a b, x[i]? = some a → x[i + 2]? = some b → tmp[i]? = some ((1 / (2 * dt)) • (b - a)) := by
    intro i a b ha hb
    have hlt : i + 2 < x.length := (List.getElem?_eq_some_iff.1 hb).1
    rw [htmp, List.getElem?_zipWith, List.getElem?_drop, List.getElem?_take, if_pos (by omega), Nat.add_comm 2 i, ha, hb]
    simp only [smul_smul]
    congr 2
    rw [one_div, one_div, one_div, mul_inv, mul_comm]
  obtain ⟨a0, ha0⟩ : ∃ a, tmp.head? = some a := by
    cases hh : tmp with
    | nil => rw [hh] at hl; simp at hl; omega
    | cons a t => exact ⟨a, rfl⟩
  obtain ⟨b0, hb0⟩ : ∃ b, tmp.getLast? = some b := by
    cases hh : tmp.getLast? with
    | none => rw [List.getLast?_eq_none_iff] at hh; rw [hh] at hl; simp at hl; omega
    | some b => exact ⟨b, rfl⟩
  refine ⟨a0 :: tmp ++ [b0], ?_, ?_, ?_, ?_, ?_⟩
  · simp only [velocityTraj, if_true, ← htmp, ha0, hb0]
  · simp [hl]; omega
  · intro i a b h1 h2 ha hb
    obtain ⟨j, rfl⟩ : ∃ j, i = j + 1 := ⟨i - 1, by omega⟩
    simp only [Nat.add_sub_cancel] at ha
    have := hget j a b ha hb
    rw [List.cons_append, List.getElem?_cons_succ, List.getElem?_append_left (by omega), this]
  · rw [List.cons_append, List.getElem?_cons_zero, List.getElem?_cons_succ, List.getElem?_append_left (by omega)]
    rw [← List.head?_eq_getElem?, ha0]
  · rw [List.cons_append]
    have e1 : x.length - 1 = (x.length - 2) + 1 := by omega
    have e2 : x.length - 2 = (x.length - 3) + 1 := by omega
    rw [e1, List.getElem?_cons_succ, List.getElem?_append_right (by omega), hl]
    rw [Nat.sub_self]
    conv_rhs => rw [e2]
    rw [List.getElem?_cons_succ, List.getElem?_append_left (by omega)]
    rw [List.getLast?_eq_getElem?, hl] at hb0
    have e3 : x.length - 2 - 1 = x.length - 3 := by omega
    rw [e3] at hb0
    rw [hb0]; rfl

/-- **C46** (without endpoints). The same values, two steps shorter, for every length. -/
theorem C46_no_endpoints (x : List E) (dt : ℝ) :
    ∃ v, velocityTraj x dt false = some v ∧ v.length = x.length - 2 ∧
      ∀ (i : Nat) a b, x[i]? = some a → x[i + 2]? = some b → v[i]? = some ((1 / (2 * dt)) • (b - a)) := by
  refine ⟨_, rfl, by simp, ?_⟩
  intro i a b ha hb
  have hlt : i + 2 < x.length := (List.getElem?_eq_some_iff.1 hb).1
  rw [List.getElem?_zipWith, List.getElem?_drop, List.getElem?_take, if_pos (by omega), Nat.add_comm 2 i, ha, hb]
  simp only [smul_smul]
  congr 2
  rw [one_div, one_div, one_div, mul_inv, mul_comm]

/-- **C46** (uniform motion). If all atoms move with constant velocity `w` the result is `w` at all
steps, including the ends. -/
theorem C46_uniform (x0 w : E) (n : Nat) (dt : ℝ) (hdt : dt ≠ 0) (h : 3 ≤ n) :
    velocityTraj ((List.range n).map (fun i : Nat => x0 + ((i : ℝ) * dt) • w)) dt true = some (List.replicate n w) := by
  obtain ⟨v, hv, hl, hi, h0, h1⟩ := C46_velocity ((List.range n).map (fun i : Nat => x0 + ((i : ℝ) * dt) • w)) dt (by simpa using h)
  rw [hv]
  congr 1
  simp only [List.length_map, List.length_range] at hl hi h0 h1
  have hmid : ∀ i : Nat, 1 ≤ i → i + 1 < n → v[i]? = some w := by
    intro i g1 g2
    have e1 : i - 1 < n := by omega
    rw [hi i (x0 + (((i - 1 : Nat) : ℝ) * dt) • w) (x0 + (((i + 1 : Nat) : ℝ) * dt) • w) g1 g2
      (by rw [List.getElem?_map, List.getElem?_range e1]; rfl) (by rw [List.getElem?_map, List.getElem?_range g2]; rfl)]
    congr 1
    rw [add_sub_add_left_eq_sub, ← sub_smul, smul_smul]
    have : (1 / (2 * dt) * (((i + 1 : Nat) : ℝ) * dt - ((i - 1 : Nat) : ℝ) * dt)) = 1 := by
      rw [Nat.cast_sub g1]
      push_cast
      field_simp
      ring
    rw [this, one_smul]
  apply List.ext_getElem?
  intro i
  by_cases hi' : i < n
  · rw [List.getElem?_replicate, if_pos hi']
    by_cases g0 : i = 0
    · subst g0; rw [h0]; exact hmid 1 le_rfl (by omega)
    · by_cases g1 : i + 1 = n
      · have e1 : i = n - 1 := by omega
        rw [e1, h1]; exact hmid _ (by omega) (by omega)
      · exact hmid i (by omega) (by omega)
  · rw [List.getElem?_eq_none (by omega), List.getElem?_replicate, if_neg hi']

/-- **C46** (short trajectories). With fewer than three steps the call raises. -/
theorem C46_short (x : List E) (dt : ℝ) (h : x.length < 3) : velocityTraj x dt true = none := by
  have : x.drop 2 = [] ∨ x.take (x.length - 2) = [] := by
    right
    simp; left; omega
  unfold velocityTraj
  rcases this with h | h <;> simp [h]

/-- Non-vacuity. -/
example : velocityTraj ([0, 1, 4, 9] : List ℝ) 1 true = some [2, 2, 4, 4] := by
  norm_num [velocityTraj]

/-! ### C55 -/

/-- **C55**. `center_on_atom` puts the chosen atom (also counted from the end) on the cell centre and
moves all atoms by the same vector: no relative position changes. -/
theorem C55_center (cf : List V3) (idx : Int) (i : Nat) (hi : IsAxis cf.length idx i) :
    ∃ out, centerOnAtom cf idx = some out ∧ out.length = cf.length ∧ (∀ s, out[i]? = some s → ∀ k, s k = 1 / 2) ∧
      ∃ v : V3, ∀ (j : Nat) a b, cf[j]? = some a → out[j]? = some b → ∀ k, b k = a k + v k := by
  have hp := (Nd.pyIndex_some _ _ _).2 hi
  refine ⟨cf.map (fun s k => s k - cf.getD i 0 k + 1 / 2), by simp only [centerOnAtom, hp], by simp, ?_, fun k => - cf.getD i 0 k + 1 / 2, ?_⟩
  · intro s hs k
    rw [List.getElem?_map, List.getElem?_eq_getElem hi.1] at hs
    simp only [Option.map_some, Option.some.injEq] at hs
    rw [← hs]
    simp [List.getElem?_eq_getElem hi.1]
  · intro j a b ha hb k
    rw [List.getElem?_map, ha] at hb
    simp only [Option.map_some, Option.some.injEq] at hb
    rw [← hb]; ring

/-- **C55** (distances). All interatomic distance vectors stay the same in any cell. -/
theorem C55_distances (cell : Cell) (cf out : List V3) (idx : Int) (h : centerOnAtom cf idx = some out) (p q : Nat)
    (a b a' b' : V3) (h1 : cf[p]? = some a) (h2 : cf[q]? = some b) (h3 : out[p]? = some a') (h4 : out[q]? = some b') :
    ∀ k, frac2cart cell a' k - frac2cart cell b' k = frac2cart cell a k - frac2cart cell b k := by
  unfold centerOnAtom at h
  split at h
  · rename_i i hp
    simp only [Option.some.injEq] at h
    subst h
    rw [List.getElem?_map, h1] at h3
    rw [List.getElem?_map, h2] at h4
    simp only [Option.map_some, Option.some.injEq] at h3 h4
    subst h3 h4
    intro k
    simp only [frac2cart, Matrix.vecMul, dotProduct, Fin.sum_univ_three]
    ring
  · cases h

/-- **C55** (error). An index outside the list of atoms raises. -/
theorem C55_error (cf : List V3) (idx : Int) (h : ∀ i, ¬ IsAxis cf.length idx i) : centerOnAtom cf idx = none := by
  rw [← Nd.pyIndex_none] at h
  simp [centerOnAtom, h]

/-- Non-vacuity: the last of two atoms. -/
example : ∃ out, centerOnAtom [![0, 0, 0], ![1/4, 0, 0]] (-1) = some out ∧ out.length = 2 := by
  obtain ⟨out, h, hl, _⟩ := C55_center [![0, 0, 0], ![1/4, 0, 0]] (-1) 1 ⟨by simp, Or.inr (by simp)⟩
  exact ⟨out, h, hl⟩

end Pwtools.Cry
