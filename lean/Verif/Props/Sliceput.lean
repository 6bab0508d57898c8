import Verif.Props.NdArray
/-!
# C81: `num.sliceput`
-/
namespace Pwtools.Nd
open Spec

variable {α : Type}

theorem hits_eq (sh : List Nat) :
    sh.foldr (fun n rest => (List.range n).flatMap (fun i => rest.map (i :: ·))) [[]] = indexTuples sh := by
  induction sh with
  | nil => rfl
  | cons n sh ih => rw [List.foldr_cons, ih]; rfl

theorem zip_get_iff (L : List (List Nat)) (J : List Nat) :
    (∃ idx, InShape idx (L.map List.length) ∧ J.map some = List.zipWith (fun (l : List Nat) (k : Nat) => l[k]?) L idx) ↔
      List.Forall₂ (· ∈ ·) J L := by
  induction L generalizing J with
  | nil =>
    constructor
    · rintro ⟨idx, _, h⟩
      have : J = [] := by simpa using h
      subst this; exact .nil
    · intro h; cases h; exact ⟨[], .nil, rfl⟩
  | cons l L ih =>
    constructor
    · rintro ⟨idx, h1, h2⟩
      rcases idx with _ | ⟨i, idx⟩
      · cases h1
      cases h1 with
      | cons hi hr =>
        rcases J with _ | ⟨j, J⟩
        · simp at h2
        simp only [List.map_cons, List.zipWith_cons_cons, List.cons.injEq] at h2
        exact .cons (List.mem_of_getElem? h2.1.symm) ((ih J).1 ⟨idx, hr, h2.2⟩)
    · intro h
      cases h with
      | cons hj hr =>
        obtain ⟨idx, h1, h2⟩ := (ih _).2 hr
        obtain ⟨i, hi, e⟩ := List.getElem_of_mem hj
        refine ⟨i :: idx, .cons hi h1, ?_⟩
        simp only [List.map_cons, List.zipWith_cons_cons, h2, List.getElem?_eq_getElem hi, e]

/-- **C81** (`axis=None`). `sliceput(a, b, slices)` with one slice per axis keeps the shape, sets
exactly the entries whose index is selected along every axis, and leaves all others as they were. -/
theorem C81_sliceput_all (a : Arr α) (b : α) (ss : List Sl) (hl : ss.length = a.shape.length)
    (hstep : ∀ s ∈ ss, s.step ≠ some 0) :
    ∃ r, sliceputAll a b (ss.map Ix.sl) = .ok r ∧ r.shape = a.shape ∧
      ∀ J, (List.Forall₂ (fun j l => j ∈ l) J (List.zipWith (fun n s => selected n s.start s.stop s.step) a.shape ss) →
          r.get J = b) ∧
        (¬ List.Forall₂ (fun j l => j ∈ l) J (List.zipWith (fun n s => selected n s.start s.stop s.step) a.shape ss) →
          r.get J = a.get J) := by
  obtain ⟨m, h1, h2⟩ := takeAll_slices a.shape ss hl hstep
  have key : ∀ J, J ∈ (indexTuples (List.zipWith (fun n s => (selected n s.start s.stop s.step).length) a.shape ss)).map m ↔
      List.Forall₂ (fun j l => j ∈ l) J (List.zipWith (fun n s => selected n s.start s.stop s.step) a.shape ss) := by
    intro J
    rw [← zip_get_iff]
    have e : (List.zipWith (fun n (s : Sl) => selected n s.start s.stop s.step) a.shape ss).map List.length =
        List.zipWith (fun n s => (selected n s.start s.stop s.step).length) a.shape ss := by
      rw [List.map_zipWith]
    simp only [e, List.mem_map, mem_indexTuples]
    constructor
    · rintro ⟨idx, h3, rfl⟩
      exact ⟨idx, h3, h2 idx h3⟩
    · rintro ⟨idx, h3, h4⟩
      refine ⟨idx, h3, ?_⟩
      have := (h2 idx h3).trans h4.symm
      exact (List.map_injective_iff.2 (Option.some_injective _)) this
  refine ⟨⟨a.shape, fun idx => if idx ∈ (indexTuples (List.zipWith
      (fun n s => (selected n s.start s.stop s.step).length) a.shape ss)).map m then b else a.get idx⟩, ?_, rfl, ?_⟩
  · simp only [sliceputAll, h1, hits_eq]
  intro J
  simp only [key]
  exact ⟨fun h => by simp [h], fun h => by simp [h]⟩

/-- **C81** (`axis=<int>`). The documented call with one slice for one axis never succeeds: for
every array, slice and axis it raises `IndexError`. -/
theorem C81_sliceput_axis_raises (a : Arr α) (b : α) (sl : Ix) (axis : Int) : sliceput a b sl axis = .error .index := by
  unfold sliceput listSet
  rcases pyIndex _ axis with _ | k <;> rfl

/-- Non-vacuity: `sliceput(a, 100, s_[:, 1:3])` of a 2 × 6 array. -/
example : ∃ r, sliceputAll (⟨[2, 6], fun idx => idx.foldl (fun x i => 6 * x + i) 0⟩ : Arr Nat) 100
      [.sl ⟨none, none, none⟩, .sl ⟨some 1, some 3, none⟩] = .ok r ∧ r.get [1, 2] = 100 ∧ r.get [1, 3] = 9 := by
  obtain ⟨r, h1, _, h3⟩ := C81_sliceput_all (⟨[2, 6], fun idx => idx.foldl (fun x i => 6 * x + i) 0⟩ : Arr Nat) 100
    [⟨none, none, none⟩, ⟨some 1, some 3, none⟩] rfl (by simp)
  refine ⟨r, h1, (h3 _).1 ?_, (h3 _).2 ?_⟩
  · exact .cons (by decide) (.cons (by decide) .nil)
  · intro h
    cases h with
    | cons _ h => cases h with
      | cons h _ => exact absurd h (by decide)

end Pwtools.Nd
