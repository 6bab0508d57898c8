import Verif.Model.Data2D
import Verif.Spec.Data2D
import Mathlib.Data.List.Nodup
import Mathlib.Tactic.Linarith
import Mathlib.Tactic.Ring
/-!
# C113: `Data2D`
-/
namespace Pwtools.D2
open Spec
variable {K : Type}

section lemmas
variable [DecidableEq K]

theorem flatten_get {α : Type} (n : Nat) (L : List (List α)) (h : ∀ r ∈ L, r.length = n) (i j : Nat) (hj : j < n) :
    L.flatten[i * n + j]? = L[i]?.bind (·[j]?) := by
  induction L generalizing i with
  | nil => simp
  | cons r L ih =>
    have hr := h r (by simp)
    rw [List.flatten_cons]
    cases i with
    | zero => rw [List.getElem?_append_left (by rw [hr]; omega)]; simp
    | succ i =>
      rw [List.getElem?_append_right (by rw [hr]; nlinarith), hr]
      have : (i + 1) * n + j - n = i * n + j := by
        rw [show (i + 1) * n + j = (i * n + j) + n by ring]
        omega
      rw [this, ih fun r hr => h r (by simp [hr])]
      rfl

theorem flatten_len {α : Type} (n : Nat) (L : List (List α)) (h : ∀ r ∈ L, r.length = n) : L.flatten.length = L.length * n := by
  induction L with
  | nil => simp
  | cons r L ih =>
    rw [List.flatten_cons, List.length_append, h r (by simp), ih fun r hr => h r (by simp [hr]), List.length_cons]
    ring

theorem reshape_flatten (L : List (List K)) (n : Nat) (h : ∀ r ∈ L, r.length = n) : reshape L.flatten L.length n = .ok L := by
  unfold reshape
  rw [if_pos (flatten_len n L h)]
  congr 1
  apply List.ext_getElem (by simp)
  intro i h1 h2
  rw [List.getElem_map, List.getElem_range]
  have hr : (L[i]).length = n := h _ (List.getElem_mem h2)
  apply List.ext_getElem
  · rw [List.length_take, List.length_drop, flatten_len n L h, hr]
    have : (i + 1) * n ≤ L.length * n := Nat.mul_le_mul_right n h2
    have e : (i + 1) * n = i * n + n := by ring
    omega
  · intro j h3 h4
    rw [hr] at h4
    apply Option.some.inj
    rw [← List.getElem?_eq_getElem, ← List.getElem?_eq_getElem, List.getElem?_take, if_pos h4, List.getElem?_drop, flatten_get n L h i j h4,
      List.getElem?_eq_getElem h2]
    rfl

theorem firsts_filter (q : K → Bool) (l : List K) : firsts (l.filter q) = (firsts l).filter q := by
  induction l with
  | nil => rfl
  | cons a l ih =>
    by_cases h : q a = true
    · rw [List.filter_cons_of_pos h, firsts, firsts, ih, List.filter_cons_of_pos h, List.filter_filter, List.filter_filter]
      congr 2
      funext b
      rw [Bool.and_comm]
    · rw [List.filter_cons_of_neg h, firsts, ih, List.filter_cons_of_neg h, List.filter_filter]
      apply List.filter_congr
      intro b _
      by_cases hb : b = a
      · rw [hb]
        simp [h]
      · simp [hb]

theorem firsts_append (l r : List K) : firsts (l ++ r) = firsts l ++ (firsts r).filter (fun a => a ∉ l) := by
  induction l with
  | nil => simp [firsts]
  | cons a l ih =>
    rw [List.cons_append, firsts, firsts, ih, List.filter_append, List.cons_append, List.filter_filter]
    congr 2
    apply List.filter_congr
    intro b _
    simp only [List.mem_cons, not_or, Bool.decide_and]

theorem firsts_nodup (l : List K) (h : l.Nodup) : firsts l = l := by
  induction l with
  | nil => rfl
  | cons a l ih =>
    rw [List.nodup_cons] at h
    rw [firsts, ih h.2]
    congr 1
    rw [List.filter_eq_self]
    intro b hb
    have : b ≠ a := by rintro rfl; exact h.1 hb
    simpa using this

theorem firsts_const (a : K) (n : Nat) (h : 0 < n) : firsts (List.replicate n a) = [a] := by
  cases n with
  | zero => omega
  | succ n =>
    rw [List.replicate_succ, firsts]
    congr 1
    have : ∀ l : List K, (∀ b ∈ l, b = a) → ∀ b ∈ firsts l, b = a := by
      intro l
      induction l with
      | nil => simp [firsts]
      | cons c l ih =>
        intro hl b hb
        rw [firsts, List.mem_cons] at hb
        rcases hb with rfl | hb
        · exact hl _ (by simp)
        · exact ih (fun b hb => hl b (by simp [hb])) b (List.mem_of_mem_filter hb)
    rw [List.filter_eq_nil_iff]
    intro b hb
    have := this _ (fun b hb => (List.mem_replicate.1 hb).2) b hb
    simp [this]

theorem firsts_X (x : List K) (y : List K) (hx : x.Nodup) (hy : y ≠ []) : firsts (meshX x y).flatten = x := by
  unfold meshX
  induction x with
  | nil => rfl
  | cons a x ih =>
    rw [List.nodup_cons] at hx
    rw [List.map_cons, List.flatten_cons, firsts_append, ih hx.2]
    have e : (y.map fun _ => a) = List.replicate y.length a := by rw [List.map_const']
    rw [e, firsts_const a _ (List.length_pos_iff.2 hy), List.singleton_append]
    congr 1
    rw [List.filter_eq_self]
    intro b hb
    have : b ≠ a := by rintro rfl; exact hx.1 hb
    simp [List.mem_replicate, this]

theorem firsts_Y (x : List K) (y : List K) (hx : x ≠ []) (hy : y.Nodup) : firsts (meshY x y).flatten = y := by
  obtain ⟨a, x, rfl⟩ := List.exists_cons_of_ne_nil hx
  unfold meshY
  rw [List.map_cons, List.flatten_cons, firsts_append, firsts_nodup y hy]
  rw [List.filter_eq_nil_iff.2, List.append_nil]
  intro b hb
  have mem : ∀ l : List K, ∀ b ∈ firsts l, b ∈ l := by
    intro l
    induction l with
    | nil => simp [firsts]
    | cons c l ih =>
      intro b hb
      rw [firsts, List.mem_cons] at hb
      rcases hb with rfl | hb
      · simp
      · exact List.mem_cons_of_mem _ (ih b (List.mem_of_mem_filter hb))
  have := mem _ b hb
  rw [List.mem_flatten] at this
  obtain ⟨l, hl, hbl⟩ := this
  rw [List.mem_map] at hl
  obtain ⟨_, _, rfl⟩ := hl
  simp [hbl]

theorem meshX_len (x y : List K) : ∀ r ∈ meshX x y, r.length = y.length := by
  intro r hr
  unfold meshX at hr
  obtain ⟨a, _, rfl⟩ := List.mem_map.1 hr
  simp

theorem meshY_len (x y : List K) : ∀ r ∈ meshY x y, r.length = y.length := by
  intro r hr
  unfold meshY at hr
  obtain ⟨a, _, rfl⟩ := List.mem_map.1 hr
  rfl

theorem pairs_mesh (x y : List K) : pairs (meshX x y).flatten (meshY x y).flatten = .ok (loopPoints x y) := by
  unfold pairs
  rw [if_pos (by rw [flatten_len _ _ (meshX_len x y), flatten_len _ _ (meshY_len x y)]; simp [meshX, meshY])]
  congr 1
  unfold meshX meshY loopPoints
  induction x with
  | nil => rfl
  | cons a x ih =>
    rw [List.map_cons, List.map_cons, List.flatten_cons, List.flatten_cons, List.zip_append (by simp), ih, List.flatMap_cons]
    congr 1
    clear ih
    induction y with
    | nil => rfl
    | cons b y ih2 => rw [List.map_cons, List.zip_cons_cons, ih2, List.map_cons]

theorem points_fst (x y : List K) : (loopPoints x y).map Prod.fst = (meshX x y).flatten := by
  unfold loopPoints meshX
  induction x with
  | nil => rfl
  | cons a x ih => simp [List.flatMap_cons, ih]

theorem points_snd (x y : List K) : (loopPoints x y).map Prod.snd = (meshY x y).flatten := by
  unfold loopPoints meshY
  induction x with
  | nil => rfl
  | cons a x ih =>
    rw [List.flatMap_cons, List.map_append, ih, List.map_cons, List.flatten_cons]
    congr 1
    simp

/-- The object for the axes `x`, `y` and the values `Z`. -/
def full (x y : List K) (Z : Option (List (List K))) : Data K :=
  { x := some x, y := some y, X := some (meshX x y), Y := some (meshY x y), xx := some (meshX x y).flatten, yy := some (meshY x y).flatten,
    XY := some (loopPoints x y), Z := Z, zz := Z.map List.flatten }

theorem full_grid (x y : List K) (Z : Option (List (List K))) : IsGrid (full x y Z) x y := by
  refine ⟨rfl, rfl, _, _, _, _, _, rfl, rfl, rfl, rfl, rfl, ?_, ?_, ?_, ?_, ?_, meshX_len x y, meshY_len x y, ?_⟩
  · rw [flatten_len _ _ (meshX_len x y)]; simp [meshX]
  · rw [flatten_len _ _ (meshY_len x y)]; simp [meshY]
  · rw [← List.length_map (f := Prod.fst), points_fst, flatten_len _ _ (meshX_len x y)]; simp [meshX]
  · simp [meshX]
  · simp [meshY]
  · intro i j hi hj
    have e1 : (meshX x y)[i]?.bind (·[j]?) = some x[i] := by
      unfold meshX
      rw [List.getElem?_map, List.getElem?_eq_getElem hi]
      simp [hj]
    have e2 : (meshY x y)[i]?.bind (·[j]?) = some y[j] := by
      unfold meshY
      rw [List.getElem?_map, List.getElem?_eq_getElem hi]
      simp [hj]
    have f1 := flatten_get _ _ (meshX_len x y) i j hj
    have f2 := flatten_get _ _ (meshY_len x y) i j hj
    refine ⟨f1.trans e1, f2.trans e2, ?_, e1, e2⟩
    have g1 : ((loopPoints x y)[i * y.length + j]?).map Prod.fst = some x[i] := by rw [← List.getElem?_map, points_fst, f1, e1]
    have g2 : ((loopPoints x y)[i * y.length + j]?).map Prod.snd = some y[j] := by rw [← List.getElem?_map, points_snd, f2, e2]
    revert g1 g2
    cases (loopPoints x y)[i * y.length + j]? with
    | none => simp
    | some p => intro g1 g2; simp at g1 g2; simp [← g1, ← g2]

theorem gridVals_len (nx ny : Nat) (f : Nat → Nat → K) : ∀ r ∈ gridVals nx ny f, r.length = ny := by
  intro r hr
  unfold gridVals at hr
  obtain ⟨a, _, rfl⟩ := List.mem_map.1 hr
  simp

theorem loopVals_eq (nx ny : Nat) (f : Nat → Nat → K) : loopVals nx ny f = (gridVals nx ny f).flatten := by
  unfold loopVals gridVals
  rw [List.flatMap_def]

theorem full_values (x y : List K) (f : Nat → Nat → K) (nx ny : Nat) : HasValues (full x y (some (gridVals nx ny f))) nx ny f := by
  refine ⟨_, _, rfl, rfl, ?_, by simp [gridVals], gridVals_len nx ny f, ?_⟩
  · rw [flatten_len _ _ (gridVals_len nx ny f)]; simp [gridVals]
  · intro i j hi hj
    have e : (gridVals nx ny f)[i]?.bind (·[j]?) = some (f i j) := by
      unfold gridVals
      rw [List.getElem?_map, List.getElem?_range hi]
      simp [hj]
    exact ⟨(flatten_get _ _ (gridVals_len nx ny f) i j hj).trans e, e⟩

/-- x and y of an object which is not yet complete. -/
theorem updateZ_cases (x y : List K) (d : Data K) (f : Nat → Nat → K) (hd : { d with zz := none, Z := none } = full x y none)
    (h : d.Z = some (gridVals x.length y.length f) ∨ (d.Z = none ∧ d.zz = some (loopVals x.length y.length f))) :
    updateZ d x.length y.length = .ok (full x y (some (gridVals x.length y.length f))) := by
  obtain ⟨dx, dy, dxx, dyy, dzz, dX, dY, dZ, dXY⟩ := d
  simp only [full, Data.mk.injEq, Option.map_none] at hd
  obtain ⟨rfl, rfl, rfl, rfl, -, rfl, rfl, -, rfl⟩ := hd
  unfold updateZ
  rcases h with h | ⟨h1, h2⟩
  · simp only at h
    subst h
    rfl
  · simp only at h1 h2
    subst h1 h2
    have : reshape (loopVals x.length y.length f) x.length y.length = .ok (gridVals x.length y.length f) := by
      rw [loopVals_eq]
      have := reshape_flatten (gridVals x.length y.length f) y.length (gridVals_len _ _ f)
      rwa [show (gridVals x.length y.length f).length = x.length by simp [gridVals]] at this
    simp only [this]
    rw [loopVals_eq]
    rfl

end lemmas

variable [DecidableEq K]

/-- How the axes of a grid are given: one of the four forms, in any combination with the others missing. -/
inductive Form (x y : List K) : Data K → Prop where
  | axes : Form x y { x := some x, y := some y }
  | mesh : Form x y { X := some (meshX x y), Y := some (meshY x y) }
  | loops : Form x y { xx := some ((loopPoints x y).map Prod.fst), yy := some ((loopPoints x y).map Prod.snd) }
  | points : Form x y { XY := some (loopPoints x y) }

theorem mesh_head (x y : List K) (hy : y ≠ []) : (meshX x y).mapM List.head? = some x := by
  unfold meshX
  obtain ⟨b, y, rfl⟩ := List.exists_cons_of_ne_nil hy
  induction x with
  | nil => rfl
  | cons a x ih => simp_all [List.mapM_cons]

theorem updateXY_form (x y : List K) (hx : x.Nodup) (hy : y.Nodup) (hx0 : x ≠ []) (hy0 : y ≠ []) (d : Data K) (hd : Form x y d)
    (zz : Option (List K)) (Z : Option (List (List K))) :
    updateXY { d with zz := zz, Z := Z } = .ok ({ full x y none with zz := zz, Z := Z }, x, y) := by
  unfold updateXY
  cases hd with
  | axes =>
    simp only [pairs_mesh]
    rfl
  | mesh =>
    obtain ⟨a, x', e⟩ := List.exists_cons_of_ne_nil hx0
    have hh : (meshY x y).head? = some y := by rw [e]; rfl
    simp only [mesh_head x y hy0, hh, pairs_mesh]
    rfl
  | loops =>
    simp only [points_fst, points_snd, firsts_X x y hx hy0, firsts_Y x y hx0 hy, pairs_mesh]
    rfl
  | points =>
    simp only [points_fst, points_snd, firsts_X x y hx hy0, firsts_Y x y hx0 hy]
    rfl

/-- **C113** For every grid without equal points, given in any of the four forms (axes, meshes, double loop arrays, list of points), with values in
either form (array, double loop) or without: the object has all forms of the grid and of the values, and they fit together. -/
theorem C113_forms (x y : List K) (hx : x.Nodup) (hy : y.Nodup) (hx0 : x ≠ []) (hy0 : y ≠ []) (d : Data K) (hd : Form x y d) (f : Nat → Nat → K) :
    (∃ r, build d = .ok r ∧ IsGrid r x y ∧ r.Z = none ∧ r.zz = none) ∧
    (∃ r, build { d with Z := some (gridVals x.length y.length f) } = .ok r ∧ IsGrid r x y ∧ HasValues r x.length y.length f) ∧
    (∃ r, build { d with zz := some (loopVals x.length y.length f) } = .ok r ∧ IsGrid r x y ∧ HasValues r x.length y.length f) := by
  have hzz : d.zz = none := by cases hd <;> rfl
  have hZ : d.Z = none := by cases hd <;> rfl
  have key := updateXY_form x y hx hy hx0 hy0 d hd
  refine ⟨⟨full x y none, ?_, full_grid x y none, rfl, rfl⟩, ⟨full x y (some (gridVals x.length y.length f)), ?_, full_grid x y _, full_values x y f _ _⟩,
    ⟨full x y (some (gridVals x.length y.length f)), ?_, full_grid x y _, full_values x y f _ _⟩⟩
  · have := key none none
    rw [← hzz, ← hZ] at this
    unfold build
    rw [show ({ d with zz := d.zz, Z := d.Z } : Data K) = d from rfl] at this
    rw [this, hzz, hZ]
    rfl
  · have := key none (some (gridVals x.length y.length f))
    unfold build
    rw [← hzz] at this
    rw [show ({ d with Z := some (gridVals x.length y.length f) } : Data K) = { d with zz := d.zz, Z := some (gridVals x.length y.length f) } from rfl, this]
    exact updateZ_cases x y _ f (by rfl) (.inl rfl)
  · have := key (some (loopVals x.length y.length f)) none
    unfold build
    rw [← hZ] at this
    rw [show ({ d with zz := some (loopVals x.length y.length f) } : Data K) = { d with zz := some (loopVals x.length y.length f), Z := d.Z } from rfl, this]
    exact updateZ_cases x y _ f (by rfl) (.inr ⟨hZ, rfl⟩)

/-- **C113** (update, part which holds) On any object, whatever it holds, new axes together with new values `Z` give the grid and the values of
the call. -/
theorem C113_update_partial (d : Data K) (x y : List K) (f : Nat → Nat → K) :
    ∃ r, update d { x := some x, y := some y, Z := some (gridVals x.length y.length f) } = .ok r ∧ IsGrid r x y ∧ HasValues r x.length y.length f := by
  refine ⟨full x y (some (gridVals x.length y.length f)), ?_, full_grid x y _, full_values x y f _ _⟩
  unfold update build updateXY
  simp only [Option.or_some, Option.some_or, pairs_mesh]
  exact updateZ_cases x y _ f (by rfl) (.inl rfl)

/-- **C113** (update) is false for values as a double loop array: if the object has values, the new ones are thrown away without an error,
whatever they are (also of a wrong length). -/
theorem C113_zz_ignored (d : Data K) (Z : List (List K)) (hZ : d.Z = some Z) (zz : List K) (r : Data K) (h : update d { zz := some zz } = .ok r) :
    r.Z = some Z ∧ r.zz = some Z.flatten := by
  have keep : ∀ (e e' : Data K) (x y : List K), updateXY e = .ok (e', x, y) → e'.Z = e.Z := by
    intro e e' x y he
    unfold updateXY at he
    split at he
    · dsimp only at he
      split at he
      · cases he
      · cases he; rfl
    · split at he
      · split at he
        · split at he
          · cases he
          · cases he; rfl
        · cases he
      · split at he
        · dsimp only at he
          split at he
          · cases he
          · cases he; rfl
        · split at he
          · cases he; rfl
          · cases he
  have aux : ∀ e : Data K, e.Z = some Z → build e = .ok r → r.Z = some Z ∧ r.zz = some Z.flatten := by
    intro e heZ h
    unfold build at h
    cases hu : updateXY e with
    | error er => rw [hu] at h; cases h
    | ok t =>
      obtain ⟨e', x, y⟩ := t
      rw [hu] at h
      have hk := (keep e e' x y hu).trans heZ
      simp only [updateZ, hk] at h
      cases h
      exact ⟨rfl, rfl⟩
  exact aux _ (by simp [hZ]) h

/-- **C113** (update) is false for points of another grid: if the object has axes (every object which was built has), new double loop arrays, new
lists of points and new meshes are thrown away without an error. -/
theorem C113_points_ignored (d kw r : Data K) (x y : List K) (hx : d.x = some x) (hy : d.y = some y) (hkx : kw.x = none) (hky : kw.y = none)
    (h : update d kw = .ok r) : IsGrid r x y := by
  unfold update build updateXY at h
  simp only [hx, hy, hkx, hky, Option.none_or, pairs_mesh] at h
  have hg := full_grid x y none
  unfold updateZ at h
  repeat' split at h
  all_goals first
    | (cases h; exact ⟨rfl, rfl, hg.flat⟩)
    | cases h

/-- **C113** counterexample with numbers: a grid with one point (0, 0) and value 1; after `update(xx=[5], yy=[5], zz=[7])` nothing has changed. -/
theorem C113_counterexample : ∃ d : Data ℤ, build { xx := some [(0 : ℤ)], yy := some [(0 : ℤ)], zz := some [(1 : ℤ)] } = .ok d ∧
    update d { xx := some [5], yy := some [5], zz := some [7] } = .ok d := by
  refine ⟨full [0] [0] (some [[1]]), ?_, ?_⟩ <;> rfl

/-- **C113** (copy) A copy of an object which was built from a grid in any form, with or without values, has the same data. -/
theorem C113_copy (x y : List K) (hx : x.Nodup) (hy : y.Nodup) (hx0 : x ≠ []) (hy0 : y ≠ []) (e : Data K) (he : Form x y e)
    (Z : Option (List (List K))) (d : Data K) (hd : build { e with Z := Z } = .ok d) : copy d = .ok d := by
  have hzz : e.zz = none := by cases he <;> rfl
  have key := updateXY_form x y hx hy hx0 hy0 e he none Z
  rw [← hzz] at key
  unfold build at hd
  rw [show ({ e with Z := Z } : Data K) = { e with zz := e.zz, Z := Z } from rfl, key, hzz] at hd
  have : d = full x y Z := by
    unfold updateZ at hd
    cases Z <;> (cases hd; rfl)
  rw [this]
  unfold copy build updateXY full
  simp only [pairs_mesh]
  unfold updateZ
  cases Z <;> rfl

/-- Non-vacuity: a grid with 2 x 3 points. -/
example : ∃ r, build ({ xx := some [0, 0, 0, 1, 1, 1], yy := some [5, 4, 3, 5, 4, 3], zz := some [1, 2, 3, 4, 5, 6] } : Data ℤ) = .ok r ∧
    r.x = some [0, 1] ∧ r.y = some [5, 4, 3] ∧ r.Z = some [[1, 2, 3], [4, 5, 6]] := ⟨_, rfl, rfl, rfl, rfl⟩

example : Form ([0, 1] : List ℤ) [5, 4, 3] { xx := some [0, 0, 0, 1, 1, 1], yy := some [5, 4, 3, 5, 4, 3] } := .loops

end Pwtools.D2
