import Verif.Model.CoordNd
import Verif.Props.Cell
/-!
# C108: coordinate transformation of arrays of any rank, along any axis
-/
namespace Pwtools.Nd
open Matrix

theorem swapAt_get {β : Type} (l : List β) (i j : Nat) (hi : i < l.length) (hj : j < l.length) (q : Nat) :
    (swapAt l i j)[q]? = if q = j then l[i]? else if q = i then l[j]? else l[q]? := by
  unfold swapAt
  rw [List.getElem?_eq_getElem hi, List.getElem?_eq_getElem hj]
  simp only
  by_cases h1 : q = j
  · subst h1
    simp [hj]
  · rw [List.getElem?_set_ne (Ne.symm h1), if_neg h1]
    by_cases h2 : q = i
    · subst h2
      simp [hi]
    · rw [List.getElem?_set_ne (Ne.symm h2), if_neg h2]

theorem swapAt_length {β : Type} (l : List β) (i j : Nat) : (swapAt l i j).length = l.length := by
  unfold swapAt
  split <;> simp

theorem swapAt_set (idx : List Nat) (i j k : Nat) (hi : i < idx.length) (hj : j < idx.length) :
    swapAt ((swapAt idx i j).set i k) i j = idx.set j k := by
  apply List.ext_getElem?
  intro q
  have hl := swapAt_length idx i j
  rw [swapAt_get _ _ _ (by simp [hl, hi]) (by simp [hl, hj])]
  by_cases h1 : q = j
  · subst h1
    simp [hl, hi, hj]
  · rw [if_neg h1, List.getElem?_set_ne (Ne.symm h1)]
    by_cases h2 : q = i
    · subst h2
      rw [if_pos rfl, List.getElem?_set_ne (by omega), swapAt_get _ _ _ hi hj]
      rw [if_pos rfl]
    · rw [if_neg h2, List.getElem?_set_ne (Ne.symm h2), swapAt_get _ _ _ hi hj, if_neg h1, if_neg h2]

theorem swapAt_swapAt {β : Type} (l : List β) (i j : Nat) (hi : i < l.length) (hj : j < l.length) : swapAt (swapAt l i j) i j = l := by
  apply List.ext_getElem?
  intro q
  have hl := swapAt_length l i j
  rw [swapAt_get _ _ _ (by omega) (by omega), swapAt_get _ _ _ hi hj, swapAt_get _ _ _ hi hj, swapAt_get _ _ _ hi hj]
  by_cases h1 : q = j
  · subst h1
    rw [if_pos rfl, if_pos rfl]
    by_cases h2 : i = q
    · rw [if_pos h2, h2]
    · rw [if_neg h2]
  · rw [if_neg h1]
    by_cases h2 : q = i
    · subst h2
      rw [if_pos rfl, if_pos rfl]
    · rw [if_neg h2, if_neg h1, if_neg h2]

theorem dot_trans {m : Nat} (a : Arr ℝ) (old new : Matrix (Fin m) (Fin m) ℝ) (idx : List Nat) (k : Fin m) (h : idx.getLastD 0 = k.val) :
    (dotLast a (new.transpose⁻¹ * old.transpose).transpose).get idx =
      Cry.trans (fun q : Fin m => a.get (idx.set (idx.length - 1) q)) old new k := by
  unfold dotLast Cry.trans
  simp only
  rw [dif_pos (by rw [h]; exact k.2)]
  simp only [Matrix.vecMul, dotProduct]
  have : (⟨idx.getLastD 0, by rw [h]; exact k.2⟩ : Fin m) = k := Fin.ext h
  rw [this]

theorem getLastD_eq (l : List Nat) (d : Nat) (h : l ≠ []) : l.getLastD d = l.getD (l.length - 1) d := by
  rw [List.getLastD_eq_getLast?, List.getLast?_eq_getElem?, List.getD_eq_getElem?_getD]

theorem pyIndex_last (n : Nat) (h : 0 < n) : pyIndex n (-1) = some (n - 1) := by
  unfold pyIndex
  rw [if_neg (by decide), if_pos (by omega)]
  congr 1
  omega

/-- **C108** The vectors along the axis `axis` (counted from the end if negative) are transformed, each on its own; everything else stays where it
is. `conv` is the conversion to the type of the array. -/
theorem C108_axis {m : Nat} (conv : ℝ → ℝ) (a : Arr ℝ) (old new : Matrix (Fin m) (Fin m) ℝ) (axis : Int) (ax : Nat)
    (hax : pyIndex a.ndim axis = some ax) (hm : a.shape[ax]? = some m) :
    ∃ r, coordTrans conv a old new axis = .ok r ∧ r.shape = a.shape ∧
      ∀ (idx : List Nat) (k : Fin m), idx.length = a.ndim → idx[ax]? = some k.val →
        r.get idx = conv (Cry.trans (fun q : Fin m => a.get (idx.set ax q)) old new k) := by
  have hlt : ax < a.shape.length := by
    by_contra h
    rw [List.getElem?_eq_none (by omega)] at hm
    cases hm
  have hnd : a.ndim = a.shape.length := rfl
  have hpos : 0 < a.ndim := by omega
  unfold coordTrans
  simp only
  by_cases hlast : (if axis = -1 then (a.ndim : Int) - 1 else axis) = (a.ndim : Int) - 1
  · rw [if_neg (by simpa using hlast)]
    have hx : ax = a.ndim - 1 := by
      by_cases h1 : axis = -1
      · rw [h1, pyIndex_last _ hpos, Option.some.injEq] at hax
        exact hax.symm
      · rw [if_neg h1] at hlast
        rw [hlast] at hax
        unfold pyIndex at hax
        rw [if_pos (by omega), if_pos (by omega), Option.some.injEq] at hax
        omega
    have hs : a.shape.getLast? = some m := by
      rw [List.getLast?_eq_getElem?, ← hnd, ← hx, hm]
    have ht : transArr a old new = .ok (dotLast a (new.transpose⁻¹ * old.transpose).transpose) := by
      unfold transArr
      rw [hs]
      simp
    rw [ht]
    refine ⟨_, rfl, rfl, ?_⟩
    intro idx k hl hk
    have hne : idx ≠ [] := by intro h; simp [h] at hl; omega
    have : idx.getLastD 0 = k.val := by
      rw [getLastD_eq _ _ hne, List.getD_eq_getElem?_getD, hl, ← hx, hk]
      rfl
    simp only
    rw [dot_trans a old new idx k this, hl, hx]
  · rw [if_pos hlast]
    have hne1 : axis ≠ -1 := by
      rintro rfl
      simp at hlast
    rw [if_neg hne1] at hlast ⊢
    have hxl : ax ≠ a.ndim - 1 := by
      rintro rfl
      unfold pyIndex at hax
      split_ifs at hax <;> simp only [Option.some.injEq] at hax <;> omega
    have hsw : a.swapaxes (-1) axis = .ok ⟨swapAt a.shape (a.ndim - 1) ax, fun idx => a.get (swapAt idx (a.ndim - 1) ax)⟩ := by
      unfold Arr.swapaxes
      rw [pyIndex_last _ hpos, hax]
    rw [hsw]
    have hlen := swapAt_length a.shape (a.ndim - 1) ax
    have hs : (swapAt a.shape (a.ndim - 1) ax).getLast? = some m := by
      rw [List.getLast?_eq_getElem?, hlen, swapAt_get _ _ _ (by omega) hlt, if_neg (by omega), if_pos (by omega), hm]
    have ht : transArr (m := m) ⟨swapAt a.shape (a.ndim - 1) ax, fun idx => a.get (swapAt idx (a.ndim - 1) ax)⟩ old new =
        .ok (dotLast ⟨swapAt a.shape (a.ndim - 1) ax, fun idx => a.get (swapAt idx (a.ndim - 1) ax)⟩ (new.transpose⁻¹ * old.transpose).transpose) := by
      unfold transArr
      rw [hs]
      simp
    simp only [bind, Except.bind]
    rw [ht]
    simp only
    have hsw2 : ∀ b : Arr ℝ, b.ndim = a.ndim → b.swapaxes (-1) axis = .ok ⟨swapAt b.shape (a.ndim - 1) ax, fun idx => b.get (swapAt idx (a.ndim - 1) ax)⟩ := by
      intro b hb
      unfold Arr.swapaxes
      rw [hb, pyIndex_last _ hpos, hax]
    rw [hsw2 (dotLast ⟨swapAt a.shape (a.ndim - 1) ax, fun idx => a.get (swapAt idx (a.ndim - 1) ax)⟩ (new.transpose⁻¹ * old.transpose).transpose) hlen]
    refine ⟨_, rfl, rfl, ?_⟩
    intro idx k hl hk
    have hil : (swapAt idx (a.ndim - 1) ax).length = a.ndim := by rw [swapAt_length, hl]
    have hne : swapAt idx (a.ndim - 1) ax ≠ [] := by
      intro h
      rw [h] at hil
      simp at hil
      omega
    have : (swapAt idx (a.ndim - 1) ax).getLastD 0 = k.val := by
      rw [getLastD_eq _ _ hne, List.getD_eq_getElem?_getD, hil, swapAt_get _ _ _ (by omega) (by omega), if_neg (by omega), if_pos rfl, hk]
      rfl
    simp only
    rw [dot_trans _ old new _ k this]
    congr 2
    funext q
    rw [hil]
    show a.get (swapAt ((swapAt idx (a.ndim - 1) ax).set (a.ndim - 1) ↑q) (a.ndim - 1) ax) = _
    rw [swapAt_set idx (a.ndim - 1) ax q (by omega) (by omega)]

/-- **C108** Wrong arguments raise: no such axis, or vectors of the wrong length. -/
theorem C108_errors {m : Nat} (conv : ℝ → ℝ) (a : Arr ℝ) (old new : Matrix (Fin m) (Fin m) ℝ) (axis : Int) (ax : Nat)
    (hax : pyIndex a.ndim axis = some ax) (hm : a.shape[ax]? ≠ some m) : ∃ e, coordTrans conv a old new axis = .error e := by
  have hlt : ax < a.ndim := by
    unfold pyIndex at hax
    split_ifs at hax <;> simp only [Option.some.injEq] at hax <;> omega
  have hnd : a.ndim = a.shape.length := rfl
  have hbad : ∀ b : Arr ℝ, b.shape.getLast? = a.shape[ax]? → ∃ e, transArr b old new = .error e := by
    intro b hb
    unfold transArr
    rw [hb, List.getElem?_eq_getElem (by omega)]
    simp only
    rw [if_neg]
    · exact ⟨_, rfl⟩
    · intro h
      apply hm
      rw [List.getElem?_eq_getElem (by omega), h]
  unfold coordTrans
  simp only
  by_cases hlast : (if axis = -1 then (a.ndim : Int) - 1 else axis) = (a.ndim : Int) - 1
  · rw [if_neg (by simpa using hlast)]
    have hx : ax = a.ndim - 1 := by
      by_cases h1 : axis = -1
      · rw [h1, pyIndex_last _ (by omega), Option.some.injEq] at hax
        exact hax.symm
      · rw [if_neg h1] at hlast
        rw [hlast] at hax
        unfold pyIndex at hax
        rw [if_pos (by omega), if_pos (by omega), Option.some.injEq] at hax
        omega
    obtain ⟨e, he⟩ := hbad a (by rw [List.getLast?_eq_getElem?, ← hnd, ← hx])
    exact ⟨e, by rw [he]; rfl⟩
  · rw [if_pos hlast]
    have hne1 : axis ≠ -1 := by
      rintro rfl
      simp at hlast
    rw [if_neg hne1] at hlast ⊢
    have hxl : ax ≠ a.ndim - 1 := by
      rintro rfl
      unfold pyIndex at hax
      split_ifs at hax <;> simp only [Option.some.injEq] at hax <;> omega
    have hsw : a.swapaxes (-1) axis = .ok ⟨swapAt a.shape (a.ndim - 1) ax, fun idx => a.get (swapAt idx (a.ndim - 1) ax)⟩ := by
      unfold Arr.swapaxes
      rw [pyIndex_last _ (by omega), hax]
    rw [hsw]
    obtain ⟨e, he⟩ := hbad ⟨swapAt a.shape (a.ndim - 1) ax, fun idx => a.get (swapAt idx (a.ndim - 1) ax)⟩ (by
      rw [List.getLast?_eq_getElem?, swapAt_length, swapAt_get _ _ _ (by omega) (by omega), if_neg (by omega), if_pos (by omega)])
    refine ⟨e, ?_⟩
    simp only [bind, Except.bind]
    rw [he]

/-- **C108** is false for arrays of integers: the fractional parts of the new coordinates are cut off. The vector with coordinate 1 in the basis
of length 1 gets the coordinate 0 in the basis of length 2. -/
theorem C108_integer_counterexample : ∃ r, coordTrans (m := 1) (fun x => (⌊x⌋ : ℤ)) ⟨[1], fun _ => 1⟩ 1 !![2] (-1) = .ok r ∧
    r.get [0] = 0 ∧ ¬ ∀ c, ∑ k : Fin 1, r.get [k.val] * (2 : ℝ) = ∑ k : Fin 1, (1 : ℝ) * (1 : Matrix (Fin 1) (Fin 1) ℝ) k c := by
  obtain ⟨r, h1, h2, h3⟩ := C108_axis (m := 1) (fun x => (⌊x⌋ : ℤ)) ⟨[1], fun _ => 1⟩ 1 !![2] (-1) 0 rfl rfl
  have e : r.get [0] = 0 := by
    rw [h3 [0] 0 rfl rfl]
    have hd : Matrix.det (!![2] : Matrix (Fin 1) (Fin 1) ℝ) ≠ 0 := by
      rw [Matrix.det_fin_one]; norm_num
    have := Cry.C38_same_point (fun _ : Fin 1 => (1 : ℝ)) 1 !![2] hd 0
    simp only [Finset.univ_unique, Fin.default_eq_zero, Finset.sum_singleton] at this
    have hv : Cry.trans (fun _ : Fin 1 => (1 : ℝ)) 1 !![2] 0 = 1 / 2 := by
      simp at this
      simp
      linarith
    simp only
    rw [hv]
    norm_num
  refine ⟨r, h1, e, ?_⟩
  intro h
  have := h 0
  simp [e] at this

/-! ## `coord_trans3d` -/

theorem mapM_ok {α β ε : Type} (f : α → Except ε β) (g : α → β) (l : List α) (h : ∀ x ∈ l, f x = .ok (g x)) : l.mapM f = .ok (l.map g) := by
  induction l with
  | nil => rfl
  | cons x l ih =>
    rw [List.mapM_cons, h x (by simp), ih fun y hy => h y (by simp [hy])]
    rfl

/-- **C108** `coord_trans3d` transforms every step with the matrices of that step, for all time axes except `-1`. -/
theorem C108_steps_partial {m : Nat} (conv : ℝ → ℝ) (a : Arr ℝ) (old new : Nat → Matrix (Fin m) (Fin m) ℝ) (axis timeaxis : Int) (ax t : Nat)
    (h3 : a.ndim = 3) (ht : pyIndex 3 timeaxis = some t) (hax : pyIndex 2 axis = some ax) (hm : (a.shape.eraseIdx t)[ax]? = some m)
    (hne : timeaxis ≠ -1) (hpos : 0 < a.shape.getD t 0) :
    ∃ r, coordTrans3d conv a old new axis timeaxis = .ok r ∧ r.shape = a.shape ∧
      ∀ (idx : List Nat) (i : Nat) (k : Fin m), idx.length = 2 → i < a.shape.getD t 0 → idx[ax]? = some k.val →
        r.get (idx.insertIdx t i) = conv (Cry.trans (fun q : Fin m => a.get ((idx.set ax q).insertIdx t i)) (old i) (new i) k) := by
  have ht3 : t < 3 := by
    unfold pyIndex at ht
    split_ifs at ht <;> simp only [Option.some.injEq] at ht <;> omega
  have hsl : a.shape.length = 3 := h3
  have hel : (a.shape.eraseIdx t).length = 2 := by rw [List.length_eraseIdx, if_pos (by omega), hsl]
  have key : ∀ i, ∃ r, coordTrans conv (a.sliceAt t i) (old i) (new i) axis = .ok r ∧ r.shape = a.shape.eraseIdx t ∧
      ∀ (idx : List Nat) (k : Fin m), idx.length = 2 → idx[ax]? = some k.val →
        r.get idx = conv (Cry.trans (fun q : Fin m => a.get ((idx.set ax q).insertIdx t i)) (old i) (new i) k) := by
    intro i
    have hnd : (a.sliceAt t i).ndim = 2 := hel
    obtain ⟨r, e1, e2, e3⟩ := C108_axis conv (a.sliceAt t i) (old i) (new i) axis ax (by rw [hnd]; exact hax) hm
    exact ⟨r, e1, e2, fun idx k hl hk => e3 idx k (by rw [hnd]; exact hl) hk⟩
  choose g hg1 hg2 hg3 using key
  unfold coordTrans3d
  rw [h3, ht]
  simp only
  rw [mapM_ok _ g _ fun i _ => hg1 i]
  simp only
  have hstack : ∀ (i : Nat) (idx : List Nat), i < a.shape.getD t 0 → (stack 0 ((List.range (a.shape.getD t 0)).map g)).get (i :: idx) = (g i).get idx := by
    intro i idx hi
    unfold stack
    simp only [List.headD_cons, List.tail_cons]
    rw [List.getElem?_map, List.getElem?_range hi]
    rfl
  have hsh : (stack 0 ((List.range (a.shape.getD t 0)).map g)).shape = a.shape.getD t 0 :: a.shape.eraseIdx t := by
    unfold stack
    simp only [List.length_map, List.length_range]
    congr 1
    cases hn : a.shape.getD t 0 with
    | zero => omega
    | succ n => simp [List.range_succ_eq_map, hg2]
  obtain ⟨s0, s1, s2, hs⟩ : ∃ s0 s1 s2, a.shape = [s0, s1, s2] := by
    match hsa : a.shape, hsl with
    | [s0, s1, s2], _ => exact ⟨s0, s1, s2, rfl⟩
  by_cases h0 : timeaxis = 0
  · rw [if_neg (by simpa using h0)]
    have ht0 : t = 0 := by
      rw [h0] at ht
      simpa [pyIndex] using ht.symm
    refine ⟨_, rfl, ?_, ?_⟩
    · rw [hsh, hs, ht0]
      rfl
    · intro idx i k hl hi hk
      have e : idx.insertIdx t i = i :: idx := by rw [ht0]; rfl
      rw [e, hstack i idx hi, hg3 i idx k hl hk]
  · rw [if_pos h0]
    have hpos' : (let start := if timeaxis + 1 < 0 then timeaxis + 1 + ((stack 0 ((List.range (a.shape.getD t 0)).map g)).ndim : Int) else timeaxis + 1
        (if 0 < start then start - 1 else start).toNat) = t := by
      have hnd : (stack 0 ((List.range (a.shape.getD t 0)).map g)).ndim = 3 := by
        unfold Arr.ndim
        rw [hsh, List.length_cons, hel]
      rw [hnd]
      unfold pyIndex at ht
      split_ifs at ht with h1 h2 h2 <;> simp only [Option.some.injEq] at ht
      · simp only
        rw [if_neg (show ¬ timeaxis + 1 < 0 by omega), if_pos (by omega)]
        omega
      · simp only
        rw [if_pos (show timeaxis + 1 < 0 by omega)]
        split_ifs <;> omega
    unfold rollFirst
    simp only at hpos' ⊢
    rw [hpos', hsh]
    refine ⟨_, rfl, ?_, ?_⟩
    · show ((a.shape.getD t 0 :: a.shape.eraseIdx t).drop 1).insertIdx t ((a.shape.getD t 0 :: a.shape.eraseIdx t).headD 0) = a.shape
      rw [List.drop_one, List.tail_cons, List.headD_cons, hs]
      match t, ht3 with
      | 0, _ => rfl
      | 1, _ => rfl
      | 2, _ => rfl
    · intro idx i k hl hi hk
      simp only
      have e1 : (idx.insertIdx t i).getD t 0 = i := by
        rw [List.getD_eq_getElem?_getD, List.getElem?_insertIdx_self, if_pos (by omega)]
        rfl
      have e2 : (idx.insertIdx t i).eraseIdx t = idx := List.eraseIdx_insertIdx_self _
      rw [e1, e2, hstack i idx hi, hg3 i idx k hl hk]

/-- **C108** is false for `timeaxis=-1`: the time axis is not moved back, the result has another shape. -/
theorem C108_last_counterexample : ∃ r, coordTrans3d (m := 1) id ⟨[1, 1, 2], fun _ => 1⟩ (fun _ => 1) (fun _ => 1) (-1) (-1) = .ok r ∧
    r.shape = [2, 1, 1] := by
  obtain ⟨r0, h1, h2, -⟩ := C108_axis (m := 1) id ((⟨[1, 1, 2], fun _ => 1⟩ : Arr ℝ).sliceAt 2 0) 1 1 (-1) 1 rfl rfl
  obtain ⟨r1, h3, h4, -⟩ := C108_axis (m := 1) id ((⟨[1, 1, 2], fun _ => 1⟩ : Arr ℝ).sliceAt 2 1) 1 1 (-1) 1 rfl rfl
  refine ⟨rollFirst (stack 0 [r0, r1]) 0, ?_, ?_⟩
  · unfold coordTrans3d
    have hp : pyIndex (⟨[1, 1, 2], fun _ => 1⟩ : Arr ℝ).ndim (-1) = some 2 := rfl
    rw [hp]
    simp only
    have hr : List.range ((⟨[1, 1, 2], fun _ => 1⟩ : Arr ℝ).shape.getD 2 0) = [0, 1] := rfl
    rw [hr]
    simp only [List.mapM_cons, List.mapM_nil, h1, h3]
    rfl
  · simp [rollFirst, stack, h2, Arr.sliceAt]

/-- Non-vacuity of `C108_axis` and `C108_steps_partial`: arrays `(4, 3, 10)` along axis 1 and `(10, 4, 3)`. -/
example : pyIndex (⟨[4, 3, 10], fun _ => (0 : ℝ)⟩ : Arr ℝ).ndim 1 = some 1 ∧ (⟨[4, 3, 10], fun _ => (0 : ℝ)⟩ : Arr ℝ).shape[1]? = some 3 := ⟨rfl, rfl⟩
example : pyIndex 3 (-3) = some 0 ∧ pyIndex 2 (-1) = some 1 ∧ ([10, 4, 3].eraseIdx 0)[1]? = some 3 := ⟨rfl, rfl, rfl⟩

end Pwtools.Nd
