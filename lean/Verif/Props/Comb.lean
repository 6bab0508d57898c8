import Verif.Spec.Comb
import Mathlib.Data.List.Basic
import Mathlib.Data.List.Nodup
import Mathlib.Data.List.Count
import Mathlib.Data.List.Perm.Basic
import Mathlib.Tactic.Ring
import Mathlib.Tactic.Linarith
/-!
# C01, C02, C06, C07: `comb.py` and sequence helpers
-/
namespace Pwtools
open Spec

section nested
variable {α : Type}

/-! ## C01 nested_loops -/

theorem flatMap_map_length {β γ : Type} (acc : List α) (pool : List β) (g : α → β → γ) :
    (acc.flatMap (fun x => pool.map (g x))).length = acc.length * pool.length := by
  induction acc with
  | nil => simp
  | cons a l ih => simp only [List.flatMap_cons, List.length_append, List.length_map, ih, List.length_cons]; ring

theorem flatMap_map_get {β γ : Type} (acc : List α) (pool : List β) (g : α → β → γ)
    {p i : Nat} {x : α} {y : β} (hp : acc[p]? = some x) (hi : pool[i]? = some y) :
    (acc.flatMap (fun x => pool.map (g x)))[p * pool.length + i]? = some (g x y) := by
  have hil : i < pool.length := by
    rcases List.getElem?_eq_some_iff.1 hi with ⟨h, _⟩; exact h
  induction acc generalizing p with
  | nil => simp at hp
  | cons a l ih =>
    cases p with
    | zero =>
      simp only [List.getElem?_cons_zero, Option.some.injEq] at hp
      subst hp
      simp only [List.flatMap_cons, Nat.zero_mul, Nat.zero_add]
      rw [List.getElem?_append_left (by simpa using hil)]
      simp [hi]
    | succ p =>
      simp only [List.getElem?_cons_succ] at hp
      have := ih hp
      simp only [List.flatMap_cons]
      rw [List.getElem?_append_right (by simp only [List.length_map]; nlinarith)]
      rw [List.length_map]
      have e : (p + 1) * pool.length + i - pool.length = p * pool.length + i := by
        have : (p + 1) * pool.length = p * pool.length + pool.length := by ring
        omega
      rw [e]; exact this

private abbrev pstep (result : List (List α)) (pool : List α) : List (List α) :=
  result.flatMap (fun x => pool.map (fun y => x ++ [y]))

theorem foldl_pstep_length (ls : List (List α)) (acc : List (List α)) :
    (ls.foldl pstep acc).length = acc.length * (ls.map List.length).prod := by
  induction ls generalizing acc with
  | nil => simp
  | cons l ls ih =>
    rw [List.foldl_cons, ih, flatMap_map_length]
    simp; ring

theorem foldl_pstep_get {ls : List (List α)} {idxs : List Nat} {tup : List α}
    (h : Picks ls idxs tup) (acc : List (List α)) (p : Nat) (pre : List α)
    (hp : acc[p]? = some pre) :
    (ls.foldl pstep acc)[p * (ls.map List.length).prod + odometer (ls.map List.length) idxs]?
      = some (pre ++ tup) := by
  induction h generalizing acc p pre with
  | nil => simpa [odometer] using hp
  | @cons l ls i is a as hl _ ih =>
    rw [List.foldl_cons]
    have h1 := flatMap_map_get acc l (fun x y => x ++ [y]) hp hl
    have h2 := ih _ _ _ h1
    simp only [List.map_cons, List.prod_cons, odometer]
    have e : p * (l.length * (ls.map List.length).prod) +
        (i * (ls.map List.length).prod + odometer (ls.map List.length) is)
        = (p * l.length + i) * (ls.map List.length).prod + odometer (ls.map List.length) is := by
      ring
    rw [e, h2]; simp

/-- **C01.** `nested_loops` returns exactly `∏ lengths` tuples, and the tuple which
takes item `idxs[j]` from list `j` stands at the position an odometer with the
last wheel turning fastest would show. -/
theorem C01_nested_loops (lists : List (List (Tree α))) :
    (nestedLoops lists).length = (lists.map List.length).prod ∧
    ∀ idxs tup, Picks lists idxs tup →
      (nestedLoops lists)[odometer (lists.map List.length) idxs]? = some tup := by
  constructor
  · have := foldl_pstep_length lists [[]]
    simpa [nestedLoops, itProduct] using this
  · intro idxs tup h
    have := foldl_pstep_get h [[]] 0 [] rfl
    simpa [nestedLoops, itProduct] using this

theorem picks_exists_of_mem (lists : List (List α)) (acc : List (List α)) (tup : List α)
    (h : tup ∈ lists.foldl pstep acc) :
    ∃ pre ∈ acc, ∃ t idxs, Picks lists idxs t ∧ tup = pre ++ t := by
  induction lists generalizing acc with
  | nil => exact ⟨tup, h, [], [], .nil, by simp⟩
  | cons l ls ih =>
    rw [List.foldl_cons] at h
    obtain ⟨pre, hpre, t, idxs, hp, rfl⟩ := ih _ h
    simp only [pstep, List.mem_flatMap, List.mem_map] at hpre
    obtain ⟨x, hx, y, hy, rfl⟩ := hpre
    obtain ⟨i, hi, rfl⟩ := List.getElem_of_mem hy
    exact ⟨x, hx, l[i] :: t, i :: idxs, .cons (by simp [hi]) hp, by simp⟩

/-- **C01** (nothing else): every returned tuple takes one item from each list. -/
theorem C01_nested_loops_only (lists : List (List (Tree α))) (tup : List (Tree α))
    (h : tup ∈ nestedLoops lists) : ∃ idxs, Picks lists idxs tup := by
  obtain ⟨pre, hpre, t, idxs, hp, rfl⟩ := picks_exists_of_mem lists [[]] tup h
  simp only [List.mem_singleton] at hpre
  subst hpre
  exact ⟨idxs, by simpa using hp⟩

/-- **C01** (flatten): with `flatten=True` the same tuples are returned in the same
order, each replaced by the left-to-right sequence of its leaves (see `C07_flatten`
for what that is). -/
theorem C01_nested_loops_flatten (lists : List (List (Tree α))) :
    (nestedLoopsFlat lists).length = (lists.map List.length).prod ∧
    ∀ idxs tup, Picks lists idxs tup →
      (nestedLoopsFlat lists)[odometer (lists.map List.length) idxs]? = some (flatten tup) := by
  obtain ⟨h1, h2⟩ := C01_nested_loops lists
  constructor
  · simpa [nestedLoopsFlat, nestedLoops] using h1
  · intro idxs tup h
    have := h2 idxs tup h
    simp only [nestedLoops] at this
    simp [nestedLoopsFlat, this]

/-- Non-vacuity: two lists, the second one with a nested entry. -/
example : Picks [[Tree.leaf 1, .leaf 2], [.leaf 3, .node [.leaf 4, .leaf 5], .leaf 6]] [1, 1]
    [.leaf 2, .node [.leaf 4, .leaf 5]] ∧ odometer [2, 3] [1, 1] = 4 :=
  ⟨.cons rfl (.cons rfl .nil), rfl⟩

/-! ## C07 flatten -/

theorem leafAt_cons_zero_leaf {rest : List (Tree α)} {x : α} {p : List Nat} {a : α} :
    LeafAt (.leaf x :: rest) (0 :: p) a → p = [] ∧ a = x := by
  intro h
  cases h with
  | leaf h => simp at h; exact ⟨rfl, h.symm⟩
  | node h _ => simp at h

theorem leafAt_succ {t : Tree α} {rest : List (Tree α)} {i : Nat} {p : List Nat} {a : α} :
    LeafAt (t :: rest) ((i+1) :: p) a ↔ LeafAt rest (i :: p) a := by
  constructor
  · intro h
    cases h with
    | leaf h => exact .leaf (by simpa using h)
    | node h h' => exact .node (by simpa using h) h'
  · intro h
    cases h with
    | leaf h => exact .leaf (by simpa using h)
    | node h h' => exact .node (by simpa using h) h'

/-- Shift the first step of a path. -/
def shift : List Nat → List Nat
  | [] => []
  | i :: p => (i + 1) :: p

theorem leafAt_ne_nil {items : List (Tree α)} {p a} (h : LeafAt items p a) : p ≠ [] := by
  cases h <;> simp

theorem before_shift {p q : List Nat} (h : Before p q) : Before (shift p) (shift q) := by
  cases h with
  | head h => exact .head (by omega)
  | tail h => exact .tail h

theorem flatten_leaf (a : α) (rest : List (Tree α)) : flatten (.leaf a :: rest) = a :: flatten rest := by
  simp [flatten, Tree.items]

theorem flatten_node (l rest : List (Tree α)) : flatten (.node l :: rest) = flatten l ++ flatten rest := by
  simp [flatten, Tree.items]

theorem flatten_ind {P : List (Tree α) → Prop} (case1 : P []) (case2 : ∀ x rest, P rest → P (.leaf x :: rest))
    (case3 : ∀ l rest, P rest → P l → P (.node l :: rest)) : ∀ l, P l
  | [] => case1
  | .leaf x :: rest => case2 x rest (flatten_ind case1 case2 case3 rest)
  | .node l :: rest => case3 l rest (flatten_ind case1 case2 case3 rest) (flatten_ind case1 case2 case3 l)

/-- **C07.** `flatten` returns the leaves of the nested sequence in reading order:
there is a list of (path, leaf) pairs, strictly sorted by dictionary order of the
paths, containing every leaf path of the input exactly once and nothing else, whose
leaves are the output. Sortedness plus completeness determine the list uniquely. -/
theorem C07_flatten (items : List (Tree α)) :
    ∃ pl : List (List Nat × α),
      pl.Pairwise (fun x y => Before x.1 y.1) ∧
      (∀ p a, (p, a) ∈ pl ↔ LeafAt items p a) ∧
      flatten items = pl.map Prod.snd := by
  induction items using flatten_ind with
  | case1 =>
    refine ⟨[], by simp, ?_, rfl⟩
    intro p a
    simp only [List.not_mem_nil, false_iff]
    intro h; cases h <;> simp_all
  | case2 x rest ih =>
    obtain ⟨pl, h1, h2, h3⟩ := ih
    refine ⟨([0], x) :: pl.map (fun y => (shift y.1, y.2)), ?_, ?_, ?_⟩
    · rw [List.pairwise_cons]
      constructor
      · intro y hy
        obtain ⟨z, hz, rfl⟩ := List.mem_map.1 hy
        have := leafAt_ne_nil ((h2 z.1 z.2).1 hz)
        cases hzz : z.1 with
        | nil => exact absurd hzz this
        | cons i p => exact .head (by omega)
      · rw [List.pairwise_map]
        exact h1.imp before_shift
    · intro p a
      constructor
      · intro h
        rcases List.mem_cons.1 h with h | h
        · cases h; exact .leaf (by simp)
        · obtain ⟨⟨q, b⟩, hz, he⟩ := List.mem_map.1 h
          cases he
          have hq := (h2 q b).1 hz
          cases q with
          | nil => exact absurd rfl (leafAt_ne_nil hq)
          | cons i q => exact leafAt_succ.2 hq
      · intro h
        cases p with
        | nil => exact absurd rfl (leafAt_ne_nil h)
        | cons i p =>
          cases i with
          | zero =>
            obtain ⟨rfl, rfl⟩ := leafAt_cons_zero_leaf h
            simp
          | succ i =>
            have := (h2 (i :: p) a).2 (leafAt_succ.1 h)
            exact List.mem_cons_of_mem _ (List.mem_map.2 ⟨(i :: p, a), this, rfl⟩)
    · simp [h3, flatten_leaf, Function.comp_def]
  | case3 l rest ih1 ih2 =>
    obtain ⟨pl, h1, h2, h3⟩ := ih1
    obtain ⟨pl', h1', h2', h3'⟩ := ih2
    refine ⟨pl'.map (fun y => (0 :: y.1, y.2)) ++ pl.map (fun y => (shift y.1, y.2)), ?_, ?_, ?_⟩
    · rw [List.pairwise_append]
      refine ⟨?_, ?_, ?_⟩
      · rw [List.pairwise_map]; exact h1'.imp (fun h => .tail h)
      · rw [List.pairwise_map]; exact h1.imp before_shift
      · intro x hx y hy
        obtain ⟨z, hz, rfl⟩ := List.mem_map.1 hy
        obtain ⟨w, _, rfl⟩ := List.mem_map.1 hx
        have := leafAt_ne_nil ((h2 z.1 z.2).1 hz)
        cases hzz : z.1 with
        | nil => exact absurd hzz this
        | cons i p => exact .head (by omega)
    · intro p a
      constructor
      · intro h
        rcases List.mem_append.1 h with h | h
        · obtain ⟨⟨q, b⟩, hz, he⟩ := List.mem_map.1 h
          cases he
          exact .node (by simp) ((h2' q b).1 hz)
        · obtain ⟨⟨q, b⟩, hz, he⟩ := List.mem_map.1 h
          cases he
          have hq := (h2 q b).1 hz
          cases q with
          | nil => exact absurd rfl (leafAt_ne_nil hq)
          | cons i q => exact leafAt_succ.2 hq
      · intro h
        cases p with
        | nil => exact absurd rfl (leafAt_ne_nil h)
        | cons i p =>
          cases i with
          | zero =>
            cases h with
            | leaf h => simp at h
            | node h h' =>
              simp only [List.getElem?_cons_zero, Option.some.injEq, Tree.node.injEq] at h
              subst h
              exact List.mem_append_left _ (List.mem_map.2 ⟨(p, a), (h2' p a).2 h', rfl⟩)
          | succ i =>
            have := (h2 (i :: p) a).2 (leafAt_succ.1 h)
            exact List.mem_append_right _ (List.mem_map.2 ⟨(i :: p, a), this, rfl⟩)
    · simp [h3, h3', flatten_node, Function.comp_def]

/-- **C07** (`asseq`): the result is a sequence with the same leaves in the same order; a sequence is not wrapped again and a
value which is no sequence becomes the only item. -/
theorem C07_asseq (t : Tree α) : flatten (asseq t) = flatten [t] ∧ (∀ l, t = .node l → asseq t = l) ∧ (∀ a, t = .leaf a → asseq t = [t]) := by
  cases t <;> simp [asseq, isSeq, Tree.children, flatten, Tree.items]

example : asseq (.node [.leaf 1, .leaf 2] : Tree Nat) = [.leaf 1, .leaf 2] ∧ asseq (.leaf 1 : Tree Nat) = [.leaf 1] := ⟨rfl, rfl⟩

/-- **C07** (idempotent): flattening a flat sequence changes nothing. -/
theorem C07_flatten_idem (items : List (Tree α)) :
    flatten ((flatten items).map Tree.leaf) = flatten items := by
  generalize flatten items = l
  induction l with
  | nil => simp [flatten]
  | cons a l ih => simp [flatten_leaf, ih]

/-- Non-vacuity: a leaf two levels deep. -/
example : LeafAt [Tree.leaf 1, .node [.leaf 2, .node [], .node [.leaf 7]]] [1, 2, 0] 7 :=
  .node rfl (.node rfl (.leaf rfl))

end nested

/-! ## C02 unique2d -/
section unique
variable {α : Type} [DecidableEq α]

theorem rowIsIn_iff (row : List α) (us : List (List α)) : rowIsIn row us = true ↔ row ∈ us := by
  induction us with
  | nil => simp [rowIsIn]
  | cons u us ih =>
    by_cases h : row = u
    · simp [rowIsIn, h]
    · simp [rowIsIn, h, ih]

theorem uniqueLoop_spec (rows seen uniq : List (List α))
    (hmem : ∀ r, r ∈ uniq ↔ r ∈ seen)
    (hord : uniq.Pairwise (fun a b => seen.idxOf a < seen.idxOf b)) :
    (∀ r, r ∈ uniqueLoop uniq rows ↔ r ∈ seen ++ rows) ∧
    (uniqueLoop uniq rows).Pairwise
      (fun a b => (seen ++ rows).idxOf a < (seen ++ rows).idxOf b) := by
  induction rows generalizing seen uniq with
  | nil => simpa [uniqueLoop] using ⟨hmem, hord⟩
  | cons row rows ih =>
    have e : seen ++ row :: rows = (seen ++ [row]) ++ rows := by simp
    rw [e]
    unfold uniqueLoop
    by_cases hr : row ∈ uniq
    · rw [if_pos ((rowIsIn_iff _ _).2 hr)]
      apply ih
      · intro r
        have : row ∈ seen := (hmem row).1 hr
        rw [hmem]; simp only [List.mem_append, List.mem_singleton]
        constructor
        · exact Or.inl
        · rintro (h | h)
          · exact h
          · exact h ▸ this
      · refine hord.imp_of_mem ?_
        intro a b ha hb hab
        rw [List.idxOf_append_of_mem ((hmem a).1 ha), List.idxOf_append_of_mem ((hmem b).1 hb)]
        exact hab
    · have hns : row ∉ seen := fun h => hr ((hmem row).2 h)
      rw [if_neg (by rw [rowIsIn_iff]; exact hr)]
      apply ih
      · intro r; simp [hmem]
      · rw [List.pairwise_append]
        refine ⟨?_, by simp, ?_⟩
        · refine hord.imp_of_mem ?_
          intro a b ha hb hab
          rw [List.idxOf_append_of_mem ((hmem a).1 ha), List.idxOf_append_of_mem ((hmem b).1 hb)]
          exact hab
        · intro a ha b hb
          simp only [List.mem_singleton] at hb
          subst hb
          rw [List.idxOf_append_of_mem ((hmem a).1 ha), List.idxOf_append_of_notMem hns]
          have : seen.idxOf a < seen.length := List.idxOf_lt_length_iff.2 ((hmem a).1 ha)
          omega

theorem uniqueLoop_first (r : List α) (rs : List (List α)) :
    Spec.UniqInOrder (r :: rs) (uniqueLoop [r] (r :: rs)) := by
  have h0 : uniqueLoop [r] (r :: rs) = uniqueLoop [r] rs := by
    simp [uniqueLoop, rowIsIn]
  rw [h0]
  have := uniqueLoop_spec rs [r] [r] (by simp) (by simp)
  exact this

/-- The specification determines the result. -/
theorem Spec.UniqInOrder.unique {rows o1 o2 : List (List α)}
    (h1 : Spec.UniqInOrder rows o1) (h2 : Spec.UniqInOrder rows o2) : o1 = o2 := by
  have hp : o1.Perm o2 := by
    rw [List.perm_ext_iff_of_nodup]
    · intro a; rw [h1.1, h2.1]
    · exact h1.2.imp (fun h e => by subst e; omega)
    · exact h2.2.imp (fun h e => by subst e; omega)
  exact hp.eq_of_pairwise (fun a b _ _ hab hba => by omega) h1.2 h2.2

omit [DecidableEq α] in
/-- Row `i` of a well-formed array, column `j`. -/
theorem filterMap_get_of_lt (rows : List (List α)) (n j : Nat) (hj : j < n)
    (hw : ∀ r ∈ rows, r.length = n) (i : Nat) :
    (rows.filterMap (fun r => r[j]?))[i]? = (rows[i]?).bind (fun r => r[j]?) := by
  induction rows generalizing i with
  | nil => simp
  | cons r rs ih =>
    have hr : j < r.length := by rw [hw r (by simp)]; exact hj
    have hj' : r[j]? = some r[j] := by simp [hr]
    rw [List.filterMap_cons_some (f := fun r : List α => r[j]?) hj']
    cases i with
    | zero => simp [hj']
    | succ i =>
      simp only [List.getElem?_cons_succ]
      exact ih (fun r' h' => hw r' (by simp [h'])) i

omit [DecidableEq α] in
theorem filterMap_length_of_lt (rows : List (List α)) (n j : Nat) (hj : j < n)
    (hw : ∀ r ∈ rows, r.length = n) :
    (rows.filterMap (fun r => r[j]?)).length = rows.length := by
  induction rows with
  | nil => simp
  | cons r rs ih =>
    have hr : j < r.length := by rw [hw r (by simp)]; exact hj
    have hj' : r[j]? = some r[j] := by simp [hr]
    rw [List.filterMap_cons_some (f := fun r : List α => r[j]?) hj']
    simp [ih (fun r' h' => hw r' (by simp [h']))]

omit [DecidableEq α] in
theorem Arr2.cols_get (a : Arr2 α) (j : Nat) :
    a.cols[j]? = if j < a.ncol then some (a.rows.filterMap (fun r => r[j]?)) else none := by
  by_cases hj : j < a.ncol
  · simp [Arr2.cols, hj]
  · simp [Arr2.cols, hj]

omit [DecidableEq α] in
/-- Transposing twice gives the array back (for a correctly shaped array). -/
theorem Arr2.T_T (a : Arr2 α) (h : a.WF) : a.T.T = a := by
  obtain ⟨nr, nc, rows⟩ := a
  obtain ⟨h1, h2⟩ := h
  simp only at h1 h2
  subst h1
  simp only [Arr2.T, Arr2.mk.injEq, true_and]
  apply List.ext_getElem?
  intro i
  rw [Arr2.cols_get]
  by_cases hi : i < rows.length
  · simp only [hi, if_true]
    rw [List.getElem?_eq_getElem hi, Option.some.injEq]
    apply List.ext_getElem?
    intro j
    have hcl : ∀ c ∈ (Arr2.cols ⟨rows.length, nc, rows⟩), c.length = rows.length := by
      intro c hc
      obtain ⟨j', hj', rfl⟩ := List.mem_map.1 hc
      exact filterMap_length_of_lt rows nc j' (by simpa using hj') h2
    rw [filterMap_get_of_lt _ rows.length i hi hcl j, Arr2.cols_get]
    by_cases hj : j < nc
    · simp only [hj, if_true, Option.bind_some]
      rw [filterMap_get_of_lt rows nc j hj h2 i]
      simp [hi]
    · simp only [hj, if_false, Option.bind_none]
      have : rows[i].length = nc := h2 _ (List.getElem_mem hi)
      rw [List.getElem?_eq_none (by omega)]
  · simp only [hi, if_false]
    rw [List.getElem?_eq_none (by omega)]

omit [DecidableEq α] in
theorem Arr2.T_WF (a : Arr2 α) (h : a.WF) : a.T.WF := by
  constructor
  · simp [Arr2.T, Arr2.cols]
  · intro r hr
    obtain ⟨j, hj, rfl⟩ := List.mem_map.1 hr
    rw [filterMap_length_of_lt a.rows a.ncol j (by simpa using hj) h.2, h.1]
    rfl

/-- **C02** (rows). On an array with at least one row, `unique2d(arr, what='row')`
returns the different rows in the order of their first occurrence, with the shape
information intact. -/
theorem C02_unique2d_row (arr : Arr2 α) (hw : arr.WF) (hne : arr.nrow ≠ 0) :
    ∃ out, unique2d arr "row" = .ok out ∧ out.WF ∧ out.ncol = arr.ncol ∧
      Spec.UniqInOrder arr.rows out.rows := by
  obtain ⟨nr, nc, rows⟩ := arr
  obtain ⟨h1, h2⟩ := hw
  simp only at h1 h2 hne
  cases rows with
  | nil => simp at h1; omega
  | cons r rs =>
    have := uniqueLoop_first r rs
    refine ⟨_, rfl, ⟨rfl, ?_⟩, rfl, this⟩
    intro x hx
    exact h2 x ((this.1 x).1 hx)

/-- **C02** (columns). On an array with at least one column `what='col'` returns the
different columns in the order of their first occurrence. -/
theorem C02_unique2d_col (arr : Arr2 α) (hw : arr.WF) (hne : arr.ncol ≠ 0) :
    ∃ out, unique2d arr "col" = .ok out ∧ out.WF ∧ out.nrow = arr.nrow ∧
      Spec.UniqInOrder arr.cols out.cols := by
  have hT := Arr2.T_WF arr hw
  have hrows : arr.T.rows = arr.cols := rfl
  cases hc : arr.cols with
  | nil =>
    have := hT.1
    rw [hrows, hc] at this
    exact absurd this.symm hne
  | cons r rs =>
    have hu := uniqueLoop_first r rs
    set u := uniqueLoop [r] (r :: rs) with hudef
    have hWF : Arr2.WF (⟨u.length, arr.T.ncol, u⟩ : Arr2 α) := by
      refine ⟨rfl, ?_⟩
      intro x hx
      apply hT.2
      rw [hrows, hc]
      exact (hu.1 x).1 hx
    refine ⟨Arr2.T ⟨u.length, arr.T.ncol, u⟩, ?_, Arr2.T_WF _ hWF, rfl, ?_⟩
    · unfold unique2d
      rw [if_neg (by decide), if_pos rfl, hrows, hc]
    · have h3 := Arr2.T_T _ hWF
      have h4 : (Arr2.T (⟨u.length, arr.T.ncol, u⟩ : Arr2 α)).cols = u := by
        have := congrArg Arr2.rows h3
        exact this
      rw [h4]; exact hu

/-- **C02** (errors). No rows (columns for `'col'`) is an `IndexError`, any other value
of `what` a `ValueError`. -/
theorem C02_unique2d_errors (arr : Arr2 α) (hw : arr.WF) (what : String) :
    (what = "row" → arr.nrow = 0 → unique2d arr what = .error .indexError) ∧
    (what = "col" → arr.ncol = 0 → unique2d arr what = .error .indexError) ∧
    (what ≠ "row" → what ≠ "col" → unique2d arr what = .error .valueError) := by
  refine ⟨?_, ?_, ?_⟩
  · rintro rfl h
    have : arr.rows = [] := List.length_eq_zero_iff.1 (hw.1.trans h)
    unfold unique2d; rw [if_pos rfl, this]
  · rintro rfl h
    have : arr.T.rows = [] := by simp [Arr2.T, Arr2.cols, h]
    unfold unique2d; rw [if_neg (by decide), if_pos rfl, this]
  · intro h1 h2
    unfold unique2d; rw [if_neg h1, if_neg h2]

/-- Non-vacuity: a 3×2 array with a repeated row. -/
example : (⟨3, 2, [[1, 2], [3, 4], [1, 2]]⟩ : Arr2 Nat).WF ∧
    unique2d (⟨3, 2, [[1, 2], [3, 4], [1, 2]]⟩ : Arr2 Nat) "row" = .ok ⟨2, 2, [[1, 2], [3, 4]]⟩ := by
  refine ⟨⟨rfl, by simp⟩, rfl⟩

/-! ## C06 pop_from_list -/

theorem findIdx?_eq_idxOf (l : List α) (x : α) (h : x ∈ l) :
    l.findIdx? (fun y => decide (y = x)) = some (l.idxOf x) := by
  rw [List.findIdx?_eq_some_iff_getElem]
  refine ⟨List.idxOf_lt_length_iff.2 h, by simp, ?_⟩
  intro j hj
  simp only [decide_eq_true_eq]
  intro e
  have hjl : j < l.length := lt_trans hj (List.idxOf_lt_length_iff.2 h)
  exact absurd e (by
    have := List.not_of_lt_findIdx (p := (· == x)) (xs := l) (i := j) hj
    simpa using this)

theorem popLoop_some_iff (lst items : List α) :
    (∃ out, popLoop lst items = some out) ↔ ∀ x, items.count x ≤ lst.count x := by
  induction items generalizing lst with
  | nil => simp [popLoop]
  | cons it items ih =>
    unfold popLoop
    by_cases h : it ∈ lst
    · rw [findIdx?_eq_idxOf lst it h]
      simp only [← List.erase_eq_eraseIdx_of_idxOf rfl, ih]
      constructor
      · intro H x
        have := H x
        rw [List.count_erase] at this
        rw [List.count_cons]
        by_cases hx : it = x
        · subst hx
          have hpos : 0 < lst.count it := List.count_pos_iff.2 h
          simp at this ⊢; omega
        · have : ¬ (it == x) = true := by simpa using hx
          simp_all
      · intro H x
        have := H x
        rw [List.count_erase]
        rw [List.count_cons] at this
        by_cases hx : it = x
        · subst hx; simp at this ⊢; omega
        · have : ¬ (it == x) = true := by simpa using hx
          simp_all
    · have : lst.findIdx? (fun y => decide (y = it)) = none := by
        rw [List.findIdx?_eq_none_iff]
        intro y hy; simp; rintro rfl; exact h hy
      rw [this]
      simp only [reduceCtorEq, exists_false, false_iff, not_forall, not_le]
      exact ⟨it, by simp [List.count_eq_zero_of_not_mem h]⟩

/-- **C06.** `pop_from_list` succeeds exactly when every item occurs in the list at
least as often as it is asked for. The result then contains every value as often as
the list minus the number of times asked for, and is a subsequence of the list
(what remains keeps its order). -/
theorem C06_pop_from_list (lst items : List α) :
    ((∃ out, popFromList lst items = some out) ↔ ∀ x, items.count x ≤ lst.count x) ∧
    ∀ out, popFromList lst items = some out →
      out.Sublist lst ∧ ∀ x, out.count x + items.count x = lst.count x := by
  refine ⟨popLoop_some_iff lst items, ?_⟩
  unfold popFromList
  induction items generalizing lst with
  | nil => intro out h; simp [popLoop] at h; subst h; simp
  | cons it items ih =>
    intro out h
    unfold popLoop at h
    by_cases hm : it ∈ lst
    · rw [findIdx?_eq_idxOf lst it hm] at h
      simp only [← List.erase_eq_eraseIdx_of_idxOf rfl] at h
      obtain ⟨h1, h2⟩ := ih _ _ h
      refine ⟨h1.trans List.erase_sublist, ?_⟩
      intro x
      have := h2 x
      rw [List.count_erase] at this
      rw [List.count_cons]
      by_cases hx : it = x
      · subst hx
        have hpos : 0 < lst.count it := List.count_pos_iff.2 hm
        simp at this ⊢; omega
      · have : ¬ (it == x) = true := by simpa using hx
        simp_all
    · have : lst.findIdx? (fun y => decide (y = it)) = none := by
        rw [List.findIdx?_eq_none_iff]
        intro y hy; simp; rintro rfl; exact hm hy
      rw [this] at h; simp at h

/-- **C06** (which occurrence): asking for one item removes its first occurrence. -/
theorem C06_pop_first (pre post : List α) (x : α) (h : x ∉ pre) :
    popFromList (pre ++ x :: post) [x] = some (pre ++ post) := by
  unfold popFromList popLoop
  rw [findIdx?_eq_idxOf _ _ (by simp)]
  simp only [← List.erase_eq_eraseIdx_of_idxOf rfl, popLoop]
  rw [List.erase_append_right (x :: post) h]; simp

example : popFromList [3, 1, 2, 1] [1, 3] = some [2, 1] := by decide
example : popFromList [3, 1, 2, 1] [4] = none := by decide

end unique
end Pwtools
