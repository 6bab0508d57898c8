import Verif.Spec.PbcObj
import Verif.Props.Scell
import Verif.Props.DerivedEx
/-!
# `pbc_wrap` on objects, with shared memory (C128)
-/
namespace Pwtools.PbcObj
open Pwtools.Cry Pwtools.Spec Pwtools.Drv

/-! ## memory -/

/-- Memory in use is as before. -/
def Grow (w w' : World) : Prop := w.next ≤ w'.next ∧ ∀ a, a < w.next → w'.mem a = w.mem a

theorem Grow.refl (w : World) : Grow w w := ⟨le_refl _, fun _ _ => rfl⟩

theorem Grow.trans {a b c : World} (h : Grow a b) (k : Grow b c) : Grow a c :=
  ⟨h.1.trans k.1, fun x hx => (k.2 x (hx.trans_le h.1)).trans (h.2 x hx)⟩

/-- Addresses in use, all of kind `b`. -/
def Addrs (w : World) (K : Nat → Bool) (b : Bool) (l : Option (List Nat)) : Prop := ∀ r, l = some r → ∀ a ∈ r, a < w.next ∧ K a = b

/-- The addresses of an object. -/
def OkOb (w : World) (K : Nat → Bool) (o : Ob) : Prop := Addrs w K true o.coords ∧ Addrs w K false o.frac

/-- The kinds of addresses in use stay. -/
def Same (n : Nat) (K K' : Nat → Bool) : Prop := ∀ a, a < n → K' a = K a

theorem Addrs.mono {w w' : World} {K K' : Nat → Bool} {b : Bool} {l : Option (List Nat)} (h : Addrs w K b l) (hn : w.next ≤ w'.next)
    (hk : Same w.next K K') : Addrs w' K' b l := by
  intro r hr a ha
  obtain ⟨h1, h2⟩ := h r hr a ha
  exact ⟨h1.trans_le hn, (hk a h1).trans h2⟩

theorem OkOb.mono {w w' : World} {K K' : Nat → Bool} {o : Ob} (h : OkOb w K o) (hn : w.next ≤ w'.next) (hk : Same w.next K K') :
    OkOb w' K' o := ⟨h.1.mono hn hk, h.2.mono hn hk⟩

theorem seen_congr {w w' : World} {l : Option (List Nat)} (h : ∀ r, l = some r → ∀ a ∈ r, w'.mem a = w.mem a) : seen w' l = seen w l := by
  cases l with
  | none => rfl
  | some r =>
    simp only [seen, Option.map_some, Option.some.injEq]
    exact List.map_congr_left (h r rfl)

theorem seen_grow {w w' : World} {K : Nat → Bool} {b : Bool} {l : Option (List Nat)} (g : Grow w w') (h : Addrs w K b l) :
    seen w' l = seen w l := seen_congr fun r hr a ha => g.2 a (h r hr a ha).1

theorem fits_congr {w w' : World} {o : Ob} (h1 : seen w' o.coords = seen w o.coords) (h2 : seen w' o.frac = seen w o.frac) (h : ObFits w o) :
    ObFits w' o := by
  intro cs r f hc hr hf
  rw [h1] at hr
  rw [h2] at hf
  exact h cs r f hc hr hf

theorem alloc_grow (w : World) (xs : List (List V3)) : Grow w (alloc w xs).2 := by
  refine ⟨by simp [alloc], fun a ha => ?_⟩
  simp only [alloc]
  rw [if_neg (by omega)]

theorem alloc_read (w : World) (xs : List (List V3)) : (alloc w xs).1.map (alloc w xs).2.mem = xs := by
  simp only [alloc, List.map_map]
  apply List.ext_getElem
  · simp
  · intro i h1 h2
    simp [List.getElem?_eq_getElem h2, h2]

theorem alloc_objs (w : World) (xs : List (List V3)) : (alloc w xs).2.objs = w.objs := rfl

/-- The new addresses get the kind `b`. -/
def kind (n : Nat) (b : Bool) (K : Nat → Bool) : Nat → Bool := fun a => if a < n then K a else b

theorem kind_same (n : Nat) (b : Bool) (K : Nat → Bool) : Same n K (kind n b K) := fun a ha => if_pos ha

theorem alloc_addrs (w : World) (xs : List (List V3)) (b : Bool) (K : Nat → Bool) :
    Addrs (alloc w xs).2 (kind w.next b K) b (some (alloc w xs).1) := by
  intro r hr a ha
  simp only [Option.some.injEq] at hr
  subst hr
  simp only [alloc, List.mem_map, List.mem_range] at ha ⊢
  obtain ⟨i, hi, rfl⟩ := ha
  exact ⟨by omega, if_neg (by omega)⟩

/-- What `allocOpt` does. -/
theorem allocOpt_spec (w : World) (x : Option (List (List V3))) (b : Bool) (K : Nat → Bool) :
    Grow w (allocOpt w x).2 ∧ (allocOpt w x).2.objs = w.objs ∧ seen (allocOpt w x).2 (allocOpt w x).1 = x ∧
    Addrs (allocOpt w x).2 (kind w.next b K) b (allocOpt w x).1 := by
  cases x with
  | none => exact ⟨Grow.refl w, rfl, rfl, fun r hr => by simp [allocOpt] at hr⟩
  | some xs =>
    refine ⟨alloc_grow w xs, rfl, ?_, alloc_addrs w xs b K⟩
    simp only [allocOpt, seen, Option.map_some, alloc_read]

theorem zip_fit (cs : List Cell) (w : World) (f : List Nat) (hl : cs.length = f.length) :
    StepsFit cs (f.map w.mem) (List.zipWith (fun c a => (w.mem a).map (frac2cart c)) cs f) := by
  refine ⟨by simpa using hl, by simp [hl], ?_⟩
  intro i c fi ri hc hf hr
  rw [List.getElem?_zipWith, hc] at hr
  rw [List.getElem?_map] at hf
  cases ha : f[i]? with
  | none => rw [ha] at hf; simp at hf
  | some a =>
    rw [ha] at hr hf
    simp only [Option.map_some, Option.some.injEq] at hf hr
    subst hf hr
    rw [List.forall₂_map_right_iff]
    exact List.forall₂_same.2 fun s _ => cartOf_frac2cart c s

theorem zip_fit' (cs : List Cell) (w : World) (r : List Nat) (hl : cs.length = r.length) (hd : ∀ c ∈ cs, c.det ≠ 0) :
    StepsFit cs (List.zipWith (fun c a => (w.mem a).map (cart2frac c)) cs r) (r.map w.mem) := by
  refine ⟨by simp [hl], by simp [hl], ?_⟩
  intro i c fi ri hc hf hr
  rw [List.getElem?_zipWith, hc] at hf
  rw [List.getElem?_map] at hr
  cases ha : r[i]? with
  | none => rw [ha] at hr; simp at hr
  | some a =>
    rw [ha] at hr hf
    simp only [Option.map_some, Option.some.injEq] at hf hr
    subst hf hr
    rw [List.forall₂_map_left_iff]
    refine List.forall₂_same.2 fun s _ => ?_
    have h := (C39_frac_cart c (hd c (List.mem_of_getElem? hc)) s s).2.1
    have k := cartOf_frac2cart c (cart2frac c s)
    rw [h] at k
    exact k

/-- What `fillIn` does. -/
theorem fillIn_spec {w w' : World} {o o' : Ob} {K : Nat → Bool} (h : fillIn w o = some (o', w')) (ho : OkOb w K o) :
    ∃ K', Same w.next K K' ∧ Grow w w' ∧ w'.objs = w.objs ∧ OkOb w' K' o' ∧
      (ObFits w o → (∀ cs r, o.cell = some cs → o.coords = some r → o.frac = none → ∀ c ∈ cs, c.det ≠ 0) → ObFits w' o') ∧ o'.cell = o.cell ∧
      (∀ f, o.frac = some f → o'.frac = some f ∧ (o.cell ≠ none → o'.coords ≠ none)) := by
  obtain ⟨cell, coords, frac⟩ := o
  unfold fillIn at h
  split at h
  · rename_i cs f hc hr hf
    simp only at hc hr hf
    subst hc hr hf
    split at h
    · rename_i hl
      simp only [Option.some.injEq, Prod.mk.injEq] at h
      obtain ⟨rfl, rfl⟩ := h
      have g := alloc_grow w (List.zipWith (fun c a => (w.mem a).map (frac2cart c)) cs f)
      refine ⟨kind w.next true K, kind_same _ _ _, g, rfl, ⟨alloc_addrs _ _ _ _, ho.2.mono g.1 (kind_same _ _ _)⟩, ?_, rfl, ?_⟩
      · intro hfit hdet cs' r' f' h1 h2 h3
        simp only [Option.some.injEq] at h1
        subst h1
        rw [seen_grow g ho.2] at h3
        simp only [seen, Option.map_some, alloc_read, Option.some.injEq] at h2 h3
        subst h2 h3
        exact zip_fit cs w f hl
      · intro f' hf'
        exact ⟨hf', by simp⟩
    · simp at h
  · rename_i cs r hc hr hf
    simp only at hc hr hf
    subst hc hr hf
    split at h
    · rename_i hl
      simp only [Option.some.injEq, Prod.mk.injEq] at h
      obtain ⟨rfl, rfl⟩ := h
      have g := alloc_grow w (List.zipWith (fun c a => (w.mem a).map (cart2frac c)) cs r)
      refine ⟨kind w.next false K, kind_same _ _ _, g, rfl, ⟨ho.1.mono g.1 (kind_same _ _ _), alloc_addrs _ _ _ _⟩, ?_, rfl, ?_⟩
      · intro hfit hdet cs' r' f' h1 h2 h3
        simp only [Option.some.injEq] at h1
        subst h1
        rw [seen_grow g ho.1] at h2
        simp only [seen, Option.map_some, alloc_read, Option.some.injEq] at h2 h3
        subst h2 h3
        exact zip_fit' cs w r hl (hdet cs r rfl rfl rfl)
      · intro f' hf'
        simp at hf'
    · simp at h
  · rename_i hne1 hne2
    simp only [Option.some.injEq, Prod.mk.injEq] at h
    obtain ⟨rfl, rfl⟩ := h
    refine ⟨K, fun _ _ => rfl, Grow.refl _, rfl, ho, fun hfit _ => hfit, rfl, fun f hf => ⟨hf, fun hc hr => ?_⟩⟩
    obtain ⟨cs, hc⟩ := Option.ne_none_iff_exists'.1 hc
    exact hne1 cs f hc hr hf

/-- What `dup` does. -/
theorem dup_spec (w : World) (o : Ob) (K : Nat → Bool) (ho : OkOb w K o) :
    ∃ K', Same w.next K K' ∧ Grow w (dup w o).2 ∧ (dup w o).2.objs = w.objs ∧ OkOb (dup w o).2 K' (dup w o).1 ∧
      seen (dup w o).2 (dup w o).1.coords = seen w o.coords ∧ seen (dup w o).2 (dup w o).1.frac = seen w o.frac ∧
      (dup w o).1.cell = o.cell ∧ (∀ f, (dup w o).1.frac = some f → ∀ a ∈ f, w.next ≤ a) := by
  have hd : dup w o = (⟨o.cell, (allocOpt w (seen w o.coords)).1, (allocOpt (allocOpt w (seen w o.coords)).2 (seen w o.frac)).1⟩,
      (allocOpt (allocOpt w (seen w o.coords)).2 (seen w o.frac)).2) := rfl
  rw [hd]
  obtain ⟨g1, e1, s1, a1⟩ := allocOpt_spec w (seen w o.coords) true K
  generalize allocOpt w (seen w o.coords) = A at *
  obtain ⟨g2, e2, s2, a2⟩ := allocOpt_spec A.2 (seen w o.frac) false (kind w.next true K)
  refine ⟨kind A.2.next false (kind w.next true K), ?_, g1.trans g2, e2.trans e1,
    ⟨a1.mono g2.1 (kind_same _ _ _), a2⟩, ?_, s2, rfl, ?_⟩
  · intro a ha
    rw [kind_same _ _ _ a (ha.trans_le g1.1), kind_same _ _ _ a ha]
  · exact (seen_grow g2 a1).trans s1
  · intro f hf a ha
    simp only at hf
    have h1 := g1.1
    cases hx : seen w o.frac with
    | none => rw [hx] at hf; simp [allocOpt] at hf
    | some x =>
      rw [hx] at hf
      simp only [allocOpt, alloc, Option.some.injEq] at hf
      subst hf
      obtain ⟨i, -, rfl⟩ := List.mem_map.1 ha
      omega

/-! ## operations -/

/-- The memory after wrapping the slabs `f`. -/
noncomputable def wrapMem (w : World) (f : List Nat) (mask : Fin 3 → Bool) : World :=
  { w with mem := fun a => if a ∈ f then (w.mem a).map (wrapRow mask) else w.mem a }

theorem wrapIn_none (w : World) (o : Ob) (mask : Fin 3 → Bool) (h : o.frac = none) : wrapIn w o mask = (w, { o with coords := none }, false) := by
  obtain ⟨c, r, f⟩ := o
  simp only at h
  subst h
  rfl

theorem wrapIn_some (w : World) (o : Ob) (mask : Fin 3 → Bool) (f : List Nat) (h : o.frac = some f) :
    wrapIn w o mask = match fillIn (wrapMem w f mask) { o with coords := none } with
      | none => (wrapMem w f mask, { o with coords := none }, false)
      | some (o, w) => (w, o, true) := by
  obtain ⟨c, r, g⟩ := o
  simp only at h
  subst h
  rfl

/-- What `wrapIn` does, whatever happens. -/
theorem wrapIn_spec (w : World) (o : Ob) (mask : Fin 3 → Bool) (K : Nat → Bool) (ho : OkOb w K o) :
    ∃ K', Same w.next K K' ∧ w.next ≤ (wrapIn w o mask).1.next ∧ (wrapIn w o mask).1.objs = w.objs ∧
      OkOb (wrapIn w o mask).1 K' (wrapIn w o mask).2.1 ∧ ObFits (wrapIn w o mask).1 (wrapIn w o mask).2.1 ∧
      (wrapIn w o mask).2.1.cell = o.cell ∧ (wrapIn w o mask).2.1.frac = o.frac ∧
      (∀ a, a < w.next → (∀ f, o.frac = some f → a ∉ f) → (wrapIn w o mask).1.mem a = w.mem a) ∧
      (∀ f, o.frac = some f → ∀ a ∈ f, (wrapIn w o mask).1.mem a = (w.mem a).map (wrapRow mask)) ∧
      (∀ f, o.frac = some f → (∀ cs, o.cell = some cs → cs.length = f.length) → (wrapIn w o mask).2.2 = true) ∧
      ((wrapIn w o mask).2.2 = true → o.cell ≠ none → (wrapIn w o mask).2.1.coords ≠ none) := by
  cases hf : o.frac with
  | none =>
    rw [wrapIn_none w o mask hf]
    refine ⟨K, fun _ _ => rfl, le_refl _, rfl, ⟨fun r hr => by simp at hr, ho.2⟩, ?_, rfl, hf, fun _ _ _ => rfl, ?_, ?_, ?_⟩
    · intro cs r f _ h
      simp [seen] at h
    · intro f h; simp at h
    · intro f h; simp at h
    · simp
  | some f =>
    rw [wrapIn_some w o mask f hf]
    have ho1 : OkOb (wrapMem w f mask) K { o with coords := none } := ⟨fun r hr => by simp at hr, ho.2⟩
    have hfit : ObFits (wrapMem w f mask) { o with coords := none } := by
      intro cs r f _ h
      simp [seen] at h
    cases hfill : fillIn (wrapMem w f mask) { o with coords := none } with
    | none =>
      refine ⟨K, fun _ _ => rfl, le_refl _, rfl, ho1, hfit, rfl, hf, ?_, ?_, ?_, ?_⟩
      · intro a _ h
        exact if_neg (h f rfl)
      · intro g hg a ha
        simp only [Option.some.injEq] at hg
        subst hg
        exact if_pos ha
      · intro g hg hl
        simp only [Option.some.injEq] at hg
        subst hg
        unfold fillIn at hfill
        split at hfill
        · rename_i cs f' hc _ hf'
          simp only [hf, Option.some.injEq] at hc hf'
          subst hf'
          rw [if_pos (hl cs hc)] at hfill
          simp at hfill
        · rename_i hr _
          simp at hr
        · simp at hfill
      · simp
    | some p =>
      obtain ⟨o', w'⟩ := p
      obtain ⟨K', k1, g, e, ok, fits, hc, hx⟩ := fillIn_spec hfill ho1
      have fits := fits hfit (by intro cs r _ h; simp at h)
      obtain ⟨x1, x2⟩ := hx f hf
      refine ⟨K', k1, g.1, e, ok, fits, hc, x1, ?_, ?_, ?_, ?_⟩
      · intro a ha h
        exact (g.2 a ha).trans (if_neg (h f rfl))
      · intro f' hf' a ha
        simp only [Option.some.injEq] at hf'
        subst hf'
        exact (g.2 a (ho.2 f hf a ha).1).trans (if_pos ha)
      · intro _ _ _
        rfl
      · intro _ h
        exact x2 h

/-- Memory is used as it should be. -/
def Inv (w : World) : Prop := ∃ K, ∀ o ∈ w.objs, OkOb w K o

theorem pick_mem {α : Type} {xs : List α} {sel : List Nat} {a : α} (h : a ∈ pickAt xs sel) : a ∈ xs := by
  obtain ⟨i, -, hi⟩ := List.mem_filterMap.1 h
  exact List.mem_of_getElem? hi

theorem pick_map {α β : Type} (g : α → β) (xs : List α) (sel : List Nat) : (pickAt xs sel).map g = pickAt (xs.map g) sel := by
  unfold pickAt
  rw [List.map_filterMap]
  simp

theorem pick_length {α β : Type} (xs : List α) (ys : List β) (h : xs.length = ys.length) (sel : List Nat) :
    (pickAt xs sel).length = (pickAt ys sel).length := by
  unfold pickAt
  induction sel with
  | nil => rfl
  | cons i sel ih =>
    by_cases hi : i < xs.length
    · have hj : i < ys.length := h ▸ hi
      simp [List.filterMap_cons, List.getElem?_eq_getElem hi, List.getElem?_eq_getElem hj, ih]
    · have hj : ¬ i < ys.length := h ▸ hi
      simp [List.filterMap_cons, List.getElem?_eq_none (not_lt.1 hi), List.getElem?_eq_none (not_lt.1 hj), ih]

theorem pick_fit {cs : List Cell} {f r : List (List V3)} (h : StepsFit cs f r) (sel : List Nat) :
    StepsFit (pickAt cs sel) (pickAt f sel) (pickAt r sel) := by
  obtain ⟨h1, h2, h3⟩ := h
  refine ⟨pick_length _ _ h1 sel, pick_length _ _ h2 sel, ?_⟩
  unfold pickAt
  induction sel with
  | nil => intro i c fi ri hc; simp at hc
  | cons k sel ih =>
    by_cases hi : k < cs.length
    · have hj : k < f.length := h1 ▸ hi
      have hm : k < r.length := h2 ▸ hj
      simp only [List.filterMap_cons, List.getElem?_eq_getElem hi, List.getElem?_eq_getElem hj, List.getElem?_eq_getElem hm]
      intro i c fi ri a1 a2 a3
      cases i with
      | zero =>
        simp only [List.getElem?_cons_zero, Option.some.injEq] at a1 a2 a3
        subst a1 a2 a3
        exact h3 k _ _ _ (List.getElem?_eq_getElem hi) (List.getElem?_eq_getElem hj) (List.getElem?_eq_getElem hm)
      | succ i =>
        simp only [List.getElem?_cons_succ] at a1 a2 a3
        exact ih i c fi ri a1 a2 a3
    · have hj : ¬ k < f.length := h1 ▸ hi
      have hm : ¬ k < r.length := h2 ▸ hj
      simp only [List.filterMap_cons, List.getElem?_eq_none (not_lt.1 hi), List.getElem?_eq_none (not_lt.1 hj),
        List.getElem?_eq_none (not_lt.1 hm)]
      exact ih

theorem getitem_fit {w : World} {o : Ob} (h : ObFits w o) (sel : List Nat) :
    ObFits w ⟨o.cell.map (pickAt · sel), o.coords.map (pickAt · sel), o.frac.map (pickAt · sel)⟩ := by
  obtain ⟨cell, coords, frac⟩ := o
  intro cs r f hc hr hf
  cases cell <;> cases coords <;> cases frac <;> simp only [seen, Option.map_none, Option.map_some, Option.some.injEq, reduceCtorEq] at hc hr hf
  subst hc hr hf
  rw [pick_map, pick_map]
  exact pick_fit (h _ _ _ rfl rfl rfl) sel

/-- One operation: memory stays in order. If it is not an in-place operation, memory in use and old objects stay, and only new objects come. -/
theorem step_spec (w : World) (op : Op) (hw : Inv w) :
    Inv (step w op) ∧ ((∀ i m, op ≠ .wrap i false m) → Grow w (step w op) ∧ ∃ l, (step w op).objs = w.objs ++ l ∧
      ((∀ o ∈ w.objs, ObFits w o) → (∀ c r f, op = .new c r f → GoodNew c r f) → ∀ o ∈ l, ObFits (step w op) o)) := by
  obtain ⟨K, hK⟩ := hw
  have push : ∀ (w' : World) (K' : Nat → Bool) (o' : Ob), Same w.next K K' → w.next ≤ w'.next → w'.objs = w.objs → OkOb w' K' o' →
      Inv { w' with objs := w'.objs ++ [o'] } := by
    intro w' K' o' k1 g e ok
    refine ⟨K', fun o ho => ?_⟩
    simp only [List.mem_append, List.mem_singleton] at ho
    rcases ho with ho | ho
    · rw [e] at ho
      exact (hK o ho).mono g k1
    · rw [ho]; exact ok
  have stay : ∀ w' : World, w.next ≤ w'.next → w'.objs = w.objs → Inv w' := by
    intro w' g e
    exact ⟨K, fun o ho => by rw [e] at ho; exact (hK o ho).mono g fun _ _ => rfl⟩
  cases op with
  | new c r f =>
    simp only [step, new]
    obtain ⟨g1, e1, s1, a1⟩ := allocOpt_spec w r true K
    generalize allocOpt w r = A at *
    obtain ⟨g2, e2, s2, a2⟩ := allocOpt_spec A.2 f false (kind w.next true K)
    generalize allocOpt A.2 f = B at *
    have ok : OkOb B.2 (kind A.2.next false (kind w.next true K)) ⟨c, A.1, B.1⟩ := ⟨a1.mono g2.1 (kind_same _ _ _), a2⟩
    have k0 : Same w.next K (kind A.2.next false (kind w.next true K)) := by
      intro a ha
      rw [kind_same _ _ _ a (ha.trans_le g1.1), kind_same _ _ _ a ha]
    have s1' : seen B.2 A.1 = r := (seen_grow g2 a1).trans s1
    cases hfill : fillIn B.2 ⟨c, A.1, B.1⟩ with
    | none =>
      refine ⟨stay _ (g1.trans g2).1 (e2.trans e1), fun _ => ⟨g1.trans g2, [], by simp [e2, e1], by simp⟩⟩
    | some p =>
      obtain ⟨o', w'⟩ := p
      simp only
      obtain ⟨K', k1, g, e, ok', fits, -⟩ := fillIn_spec hfill ok
      refine ⟨push w' K' o' (fun a ha => (k1 a (ha.trans_le (g1.trans g2).1)).trans (k0 a ha)) ((g1.trans g2).trans g).1
        (e.trans (e2.trans e1)) ok', fun _ => ⟨(g1.trans g2).trans g, [o'], by simp [e, e2, e1], ?_⟩⟩
      intro _ hgood o ho
      have hgood := hgood c r f rfl
      have hfit : ObFits B.2 ⟨c, A.1, B.1⟩ := by
        intro cs x y hc hx hy
        simp only at hc hx hy
        rw [s1'] at hx
        rw [s2] at hy
        exact (hgood cs hc).2 x y hx hy
      rw [List.mem_singleton.1 ho]
      exact fits hfit (fun cs _ hc _ _ => (hgood cs hc).1)
  | getitem i sel =>
    simp only [step, getitem]
    cases ho : w.objs[i]? with
    | none => exact ⟨⟨K, hK⟩, fun _ => ⟨Grow.refl w, [], by simp, by simp⟩⟩
    | some o =>
      have hm := List.mem_of_getElem? ho
      have ok := hK o hm
      refine ⟨push w K _ (fun _ _ => rfl) (le_refl _) rfl ⟨?_, ?_⟩, fun _ => ⟨Grow.refl w, _, rfl, ?_⟩⟩
      · intro r hr a ha
        obtain ⟨x, hx, rfl⟩ := Option.map_eq_some_iff.1 hr
        exact ok.1 x hx a (pick_mem ha)
      · intro r hr a ha
        obtain ⟨x, hx, rfl⟩ := Option.map_eq_some_iff.1 hr
        exact ok.2 x hx a (pick_mem ha)
      · intro h _ o' ho'
        rw [List.mem_singleton.1 ho']
        exact fits_congr rfl rfl (getitem_fit (h o hm) sel)
  | copy i =>
    simp only [step]
    cases ho : w.objs[i]? with
    | none => exact ⟨⟨K, hK⟩, fun _ => ⟨Grow.refl w, [], by simp, by simp⟩⟩
    | some o =>
      have hm := List.mem_of_getElem? ho
      obtain ⟨K', k1, g, e, ok, s1, s2, hc, -⟩ := dup_spec w o K (hK o hm)
      simp only
      refine ⟨push _ K' _ k1 g.1 e ok, fun _ => ⟨g, _, by rw [e], ?_⟩⟩
      intro h _ o' ho'
      rw [List.mem_singleton.1 ho']
      intro cs r f h1 h2 h3
      refine h o hm cs r f (hc ▸ h1) ?_ ?_
      · rw [← s1]; exact h2
      · rw [← s2]; exact h3
  | wrap i copy mask =>
    simp only [step, pbcWrap]
    cases ho : w.objs[i]? with
    | none => exact ⟨⟨K, hK⟩, fun _ => ⟨Grow.refl w, [], by simp, by simp⟩⟩
    | some o =>
      have hm := List.mem_of_getElem? ho
      cases copy with
      | true =>
        obtain ⟨K', k1, g, e, ok, s1, s2, hc, hnew⟩ := dup_spec w o K (hK o hm)
        obtain ⟨K2, k2, n2, e2, ok2, fits, -, -, m1, -⟩ := wrapIn_spec (dup w o).2 (dup w o).1 mask K' ok
        simp only [if_true]
        have gg : Grow w (wrapIn (dup w o).2 (dup w o).1 mask).1 := by
          refine ⟨g.1.trans n2, fun a ha => ?_⟩
          rw [m1 a (ha.trans_le g.1), g.2 a ha]
          intro f hf ha'
          have := hnew f hf a ha'
          omega
        split
        · refine ⟨push _ K2 _ (fun a ha => (k2 a (ha.trans_le g.1)).trans (k1 a ha)) gg.1 (e2.trans e) ok2,
            fun _ => ⟨gg, _, by rw [e2, e], ?_⟩⟩
          intro _ _ o' ho'
          rw [List.mem_singleton.1 ho']
          exact fits
        · exact ⟨stay _ gg.1 (e2.trans e), fun _ => ⟨gg, [], by rw [e2, e]; simp, by simp⟩⟩
      | false =>
        obtain ⟨K2, k2, n2, e2, ok2, -⟩ := wrapIn_spec w o mask K (hK o hm)
        simp only [Bool.false_eq_true, if_false]
        refine ⟨⟨K2, fun p hp => ?_⟩, fun h => absurd rfl (h i mask)⟩
        simp only at hp
        rcases List.mem_or_eq_of_mem_set hp with hp | hp
        · rw [e2] at hp
          exact (hK p hp).mono n2 k2
        · rw [hp]; exact ok2

theorem run_inv (ops : List Op) (w : World) (h : Inv w) : Inv (run w ops) := by
  induction ops generalizing w with
  | nil => exact h
  | cons op ops ih => exact ih _ (step_spec w op h).1

theorem inv_empty : Inv World.empty := ⟨fun _ => true, fun o ho => by simp [World.empty] at ho⟩

theorem run_append (w : World) (a b : List Op) : run w (a ++ b) = run (run w a) b := List.foldl_append

theorem run_safe (ops : List Op) (w : World) (hw : Inv w) (h : NoInPlace ops) :
    Grow w (run w ops) ∧ (∃ l, (run w ops).objs = w.objs ++ l) ∧
    ((∀ o ∈ w.objs, ObFits w o) → GoodOps ops → ∀ o ∈ (run w ops).objs, ObFits (run w ops) o) := by
  induction ops generalizing w with
  | nil => exact ⟨Grow.refl w, ⟨[], by simp [run]⟩, fun h _ => h⟩
  | cons op ops ih =>
    obtain ⟨h1, h2⟩ := step_spec w op hw
    obtain ⟨g, l, e, hl⟩ := h2 (fun i m => h op (by simp) i m)
    obtain ⟨i1, ⟨l', i2⟩, i3⟩ := ih (step w op) h1 (fun x hx => h x (by simp [hx]))
    refine ⟨g.trans i1, ⟨l ++ l', ?_⟩, fun hf hg => ?_⟩
    · have : (run w (op :: ops)).objs = _ := i2
      rw [this, e, List.append_assoc]
    · refine i3 ?_ fun x hx => hg x (by simp [hx])
      intro o ho
      rw [e, List.mem_append] at ho
      rcases ho with ho | ho
      · obtain ⟨K, hK⟩ := hw
        exact fits_congr (seen_grow g (hK o ho).1) (seen_grow g (hK o ho).2) (hf o ho)
      · exact hl hf (fun c r f e => hg op (by simp) c r f e) o ho

/-! ## C128 -/

/-- **C128** (histories without `copy=False`) Objects are made, indexed, sliced, copied and wrapped in any order: in all of them `coords` is
`coords_frac` times `cell` at the end. -/
theorem C128_consistent_partial (ops : List Op) (hg : GoodOps ops) (hn : NoInPlace ops) (o : Ob) (ho : o ∈ (run World.empty ops).objs) :
    ObFits (run World.empty ops) o :=
  (run_safe ops World.empty inv_empty hn).2.2 (fun o ho => by simp [World.empty] at ho) hg o ho

/-- **C128** (histories without `copy=False`) What an object shows is never changed by later operations, whatever happened before. -/
theorem C128_persistent_partial (before after : List Op) (hn : NoInPlace after) (i : Nat) (o : Ob)
    (ho : (run World.empty before).objs[i]? = some o) :
    (run World.empty (before ++ after)).objs[i]? = some o ∧
    seen (run World.empty (before ++ after)) o.coords = seen (run World.empty before) o.coords ∧
    seen (run World.empty (before ++ after)) o.frac = seen (run World.empty before) o.frac := by
  have hi := run_inv before _ inv_empty
  rw [run_append]
  obtain ⟨g, ⟨l, e⟩, -⟩ := run_safe after _ hi hn
  obtain ⟨K, hK⟩ := hi
  have ok := hK o (List.mem_of_getElem? ho)
  refine ⟨?_, seen_grow g ok.1, seen_grow g ok.2⟩
  rw [e, List.getElem?_append_left (List.getElem?_eq_some_iff.1 ho).1]
  exact ho

theorem wrapRow_wrapped (mask : Fin 3 → Bool) (s : V3) : WrappedRow mask (wrapRow mask s) s := by
  intro k
  unfold wrapRow remainder1
  constructor
  · intro h
    have f1 := Int.floor_le (s k)
    have f2 := Int.lt_floor_add_one (s k)
    simp only [h, if_true]
    exact ⟨by linarith, by linarith, -⌊s k⌋, by push_cast; ring⟩
  · intro h
    simp [h]

theorem wrapped_list (mask : Fin 3 → Bool) (l : List (List V3)) :
    List.Forall₂ (List.Forall₂ (WrappedRow mask)) (l.map (·.map (wrapRow mask))) l := by
  rw [List.forall₂_map_left_iff]
  refine List.forall₂_same.2 fun x _ => ?_
  rw [List.forall₂_map_left_iff]
  exact List.forall₂_same.2 fun s _ => wrapRow_wrapped mask s

/-- **C128** (the result) After any history, on an object with cell and fractional coordinates: no exception; the result (a new object for
`copy=True`, the same object otherwise) has the same cell, wrapped fractional coordinates, and cartesian coordinates which fit. -/
theorem C128_result (ops : List Op) (i : Nat) (copy : Bool) (mask : Fin 3 → Bool) (o : Ob) (cs : List Cell) (f : List (List V3))
    (ho : (run World.empty ops).objs[i]? = some o) (hc : o.cell = some cs) (hf : seen (run World.empty ops) o.frac = some f)
    (hl : cs.length = f.length) :
    ∃ w, pbcWrap (run World.empty ops) i copy mask = (w, true) ∧
      ∃ out f' r, w.objs[if copy then (run World.empty ops).objs.length else i]? = some out ∧ out.cell = some cs ∧
        seen w out.frac = some f' ∧ List.Forall₂ (List.Forall₂ (WrappedRow mask)) f' f ∧ seen w out.coords = some r ∧ StepsFit cs f' r := by
  obtain ⟨K, hK⟩ := run_inv ops _ inv_empty
  generalize run World.empty ops = w at *
  have hm := List.mem_of_getElem? ho
  obtain ⟨fa, hfa, rfl⟩ : ∃ fa, o.frac = some fa ∧ fa.map w.mem = f := by
    simpa [seen] using hf
  -- common part
  have key : ∀ (w : World) (o : Ob) (K : Nat → Bool) (f : List (List V3)), OkOb w K o → o.cell = some cs → seen w o.frac = some f →
      cs.length = f.length → (wrapIn w o mask).2.2 = true ∧ ∃ f' r, seen (wrapIn w o mask).1 (wrapIn w o mask).2.1.frac = some f' ∧
        List.Forall₂ (List.Forall₂ (WrappedRow mask)) f' f ∧ seen (wrapIn w o mask).1 (wrapIn w o mask).2.1.coords = some r ∧
        (wrapIn w o mask).2.1.cell = some cs ∧ StepsFit cs f' r := by
    intro w o K f ok hc hf hl
    obtain ⟨fa, hfa, rfl⟩ : ∃ fa, o.frac = some fa ∧ fa.map w.mem = f := by
      simpa [seen] using hf
    obtain ⟨K2, k2, n2, e2, ok2, fits, hcell, hfrac, m1, m2, m3, m4⟩ := wrapIn_spec w o mask K ok
    have hok := m3 fa hfa (by
      intro cs' h
      rw [hc, Option.some.injEq] at h
      subst h
      simpa using hl)
    obtain ⟨ra, hra⟩ := Option.ne_none_iff_exists'.1 (m4 hok (by simp [hc]))
    have s1 : seen (wrapIn w o mask).1 (wrapIn w o mask).2.1.frac = some ((fa.map w.mem).map (·.map (wrapRow mask))) := by
      rw [hfrac, hfa]
      simp only [seen, Option.map_some, Option.some.injEq, List.map_map]
      exact List.map_congr_left fun a ha => m2 fa hfa a ha
    have s2 : seen (wrapIn w o mask).1 (wrapIn w o mask).2.1.coords = some (ra.map (wrapIn w o mask).1.mem) := by
      rw [hra]; rfl
    exact ⟨hok, _, _, s1, wrapped_list mask _, s2, hcell.trans hc, fits cs _ _ (hcell.trans hc) s2 s1⟩
  unfold pbcWrap
  rw [ho]
  simp only
  cases copy with
  | true =>
    obtain ⟨K', k1, g, e, ok, s1, s2, hc', -⟩ := dup_spec w o K (hK o hm)
    obtain ⟨h1, f', r, h2, h3, h4, h5, h6⟩ := key (dup w o).2 (dup w o).1 K' _ ok (hc'.trans hc) (s2.trans hf) hl
    obtain ⟨-, -, -, e2, -⟩ := wrapIn_spec (dup w o).2 (dup w o).1 mask K' ok
    refine ⟨{ (wrapIn (dup w o).2 (dup w o).1 mask).1 with
      objs := (wrapIn (dup w o).2 (dup w o).1 mask).1.objs ++ [(wrapIn (dup w o).2 (dup w o).1 mask).2.1] }, by simp [h1],
      (wrapIn (dup w o).2 (dup w o).1 mask).2.1, f', r, ?_, h5, h2, h3, h4, h6⟩
    simp [e2, e]
  | false =>
    obtain ⟨h1, f', r, h2, h3, h4, h5, h6⟩ := key w o K _ (hK o hm) hc hf hl
    obtain ⟨-, -, -, e2, -⟩ := wrapIn_spec w o mask K (hK o hm)
    refine ⟨{ (wrapIn w o mask).1 with objs := (wrapIn w o mask).1.objs.set i (wrapIn w o mask).2.1 }, by simp [h1],
      (wrapIn w o mask).2.1, f', r, ?_, h5, h2, h3, h4, h6⟩
    simp [e2, (List.getElem?_eq_some_iff.1 ho).1]

/-- **C128** (in place, not shared) After any history, if no other object uses the memory of `coords_frac`: nothing else is changed by
`pbc_wrap(copy=False)`. -/
theorem C128_unshared_partial (ops : List Op) (i : Nat) (mask : Fin 3 → Bool) (hu : Unshared (run World.empty ops) i) (j : Nat) (p : Ob) (hj : j ≠ i)
    (hp : (run World.empty ops).objs[j]? = some p) :
    (run World.empty (ops ++ [.wrap i false mask])).objs[j]? = some p ∧
    seen (run World.empty (ops ++ [.wrap i false mask])) p.coords = seen (run World.empty ops) p.coords ∧
    seen (run World.empty (ops ++ [.wrap i false mask])) p.frac = seen (run World.empty ops) p.frac := by
  obtain ⟨K, hK⟩ := run_inv ops _ inv_empty
  rw [run_append]
  generalize run World.empty ops = w at *
  simp only [run, List.foldl_cons, List.foldl_nil, step, pbcWrap]
  cases ho : w.objs[i]? with
  | none => exact ⟨hp, rfl, rfl⟩
  | some o =>
    have okp := hK p (List.mem_of_getElem? hp)
    have oko := hK o (List.mem_of_getElem? ho)
    obtain ⟨K2, k2, n2, e2, ok2, fits, hcell, hfrac, m1, -⟩ := wrapIn_spec w o mask K oko
    simp only [Bool.false_eq_true, if_false]
    refine ⟨?_, ?_, ?_⟩
    · rw [e2, List.getElem?_set_ne (Ne.symm hj)]
      exact hp
    · apply seen_congr
      intro r hr a ha
      obtain ⟨h1, h2⟩ := okp.1 r hr a ha
      refine m1 a h1 fun f hf haf => ?_
      rw [(oko.2 f hf a haf).2] at h2
      exact absurd h2 (by decide)
    · apply seen_congr
      intro g hg a ha
      refine m1 a (okp.2 g hg a ha).1 fun f hf haf => ?_
      exact hu o f ho hf a haf j p g hj hp hg ha

theorem wrapRow_ne {mask : Fin 3 → Bool} {s : V3} {k : Fin 3} (hk : mask k = true) (h : s k < 0 ∨ 1 ≤ s k) : wrapRow mask s ≠ s := by
  intro e
  obtain ⟨h1, h2, -⟩ := (wrapRow_wrapped mask s k).1 hk
  rw [e] at h1 h2
  rcases h with h | h <;> linarith

theorem cart_inj {c : Cell} (hd : c.det ≠ 0) {s t r : V3} (h1 : CartOf c s r) (h2 : CartOf c t r) : s = t := by
  have e1 := cartOf_eq h1
  have e2 := cartOf_eq h2
  have a := (C39_frac_cart c hd s r).1
  have b := (C39_frac_cart c hd t r).1
  rw [← e1] at a
  rw [← e2] at b
  exact a.symm.trans b

/-- **C128** is false for `copy=False`: take step `k` of a trajectory, `st = tr[k]`, and wrap it in place. If an atom of this step is outside of the
cell, the trajectory, which was fine before, now has `coords` and `coords_frac` which contradict each other. -/
theorem C128_view_counterexample (ops : List Op) (i k : Nat) (mask : Fin 3 → Bool) (tr : Ob) (cs : List Cell) (r f : List (List V3))
    (ho : (run World.empty ops).objs[i]? = some tr) (hc : tr.cell = some cs) (hr : seen (run World.empty ops) tr.coords = some r)
    (hf : seen (run World.empty ops) tr.frac = some f) (hfit : StepsFit cs f r) (hd : ∀ c ∈ cs, c.det ≠ 0)
    (fk : List V3) (hk : f[k]? = some fk) (s : V3) (hs : s ∈ fk) (x : Fin 3) (hx : mask x = true) (hout : s x < 0 ∨ 1 ≤ s x) :
    (run World.empty (ops ++ [.getitem i [k], .wrap (run World.empty ops).objs.length false mask])).objs[i]? = some tr ∧
    ¬ ObFits (run World.empty (ops ++ [.getitem i [k], .wrap (run World.empty ops).objs.length false mask])) tr := by
  obtain ⟨K, hK⟩ := run_inv ops _ inv_empty
  rw [run_append]
  generalize run World.empty ops = w at *
  have hm := List.mem_of_getElem? ho
  have ok := hK tr hm
  obtain ⟨ra, hra, rfl⟩ : ∃ a, tr.coords = some a ∧ a.map w.mem = r := by simpa [seen] using hr
  obtain ⟨fa, hfa, rfl⟩ : ∃ a, tr.frac = some a ∧ a.map w.mem = f := by simpa [seen] using hf
  obtain ⟨a, ha, rfl⟩ : ∃ a, fa[k]? = some a ∧ w.mem a = fk := by simpa using hk
  -- the step
  have hget : getitem w i [k] = { w with objs := w.objs ++ [⟨tr.cell.map (pickAt · [k]), tr.coords.map (pickAt · [k]), tr.frac.map (pickAt · [k])⟩] } := by
    simp [getitem, ho]
  have hpick : tr.frac.map (pickAt · [k]) = some [a] := by
    rw [hfa]
    simp [pickAt, ha]
  simp only [run, List.foldl_cons, List.foldl_nil, step, hget, pbcWrap, List.getElem?_concat_length, Bool.false_eq_true, if_false]
  rw [hpick]
  have oks : OkOb { w with objs := w.objs ++ [⟨tr.cell.map (pickAt · [k]), tr.coords.map (pickAt · [k]), some [a]⟩] } K
      ⟨tr.cell.map (pickAt · [k]), tr.coords.map (pickAt · [k]), some [a]⟩ := by
    refine ⟨?_, ?_⟩
    · intro y hy b hb
      obtain ⟨z, hz, rfl⟩ := Option.map_eq_some_iff.1 hy
      exact ok.1 z hz b (pick_mem hb)
    · intro y hy b hb
      simp only [Option.some.injEq] at hy
      subst hy
      rw [List.mem_singleton] at hb
      subst hb
      exact ok.2 fa hfa b (List.mem_of_getElem? ha)
  obtain ⟨K2, k2, n2, e2, ok2, fits, hcell, hfrac, m1, m2, -⟩ := wrapIn_spec _ _ mask K oks
  generalize wrapIn { w with objs := w.objs ++ [⟨tr.cell.map (pickAt · [k]), tr.coords.map (pickAt · [k]), some [a]⟩] }
    ⟨tr.cell.map (pickAt · [k]), tr.coords.map (pickAt · [k]), some [a]⟩ mask = W at *
  have hil : i < w.objs.length := (List.getElem?_eq_some_iff.1 ho).1
  refine ⟨?_, ?_⟩
  · rw [e2, List.getElem?_set_ne (by omega), List.getElem?_append_left hil]
    exact ho
  · intro hbad
    have hma : W.1.mem a = (w.mem a).map (wrapRow mask) := m2 [a] rfl a (by simp)
    have hcr : ∀ b ∈ ra, W.1.mem b = w.mem b := by
      intro b hb
      obtain ⟨h1, h2⟩ := ok.1 ra hra b hb
      refine m1 b h1 fun g hg hbg => ?_
      simp only [Option.some.injEq] at hg
      subst hg
      rw [List.mem_singleton] at hbg
      subst hbg
      rw [(ok.2 fa hfa b (List.mem_of_getElem? ha)).2] at h2
      exact absurd h2 (by decide)
    have new := hbad cs (ra.map W.1.mem) (fa.map W.1.mem) hc (by rw [hra]; rfl) (by rw [hfa]; rfl)
    obtain ⟨l1, l2, st⟩ := hfit
    have hkf : k < fa.length := (List.getElem?_eq_some_iff.1 ha).1
    simp only [List.length_map] at l1 l2
    have hkc : k < cs.length := by omega
    have hkr : k < ra.length := by omega
    have o1 := st k cs[k] (w.mem a) (w.mem ra[k]) (List.getElem?_eq_getElem hkc) (by simp [ha]) (by simp [hkr])
    have o2 := new.2.2 k cs[k] (W.1.mem a) (W.1.mem ra[k]) (List.getElem?_eq_getElem hkc) (by simp [ha]) (by simp [hkr])
    rw [hma, hcr _ (List.getElem_mem hkr)] at o2
    have hdk := hd cs[k] (List.getElem_mem hkc)
    obtain ⟨n, hn, rfl⟩ := List.getElem_of_mem hs
    have q1 := List.forall₂_iff_get.1 o1
    have q2 := List.forall₂_iff_get.1 o2
    have c1 := q1.2 n hn (q1.1 ▸ hn)
    have c2 := q2.2 n (by simpa using hn) (q1.1 ▸ hn)
    have := cart_inj hdk c1 c2
    simp only [List.get_eq_getElem, List.getElem_map] at this
    exact wrapRow_ne hx hout this.symm

/-- **C128** is false for `copy=False` without fractional coordinates (no cell): there is an exception, and the object has lost its `coords`. -/
theorem C128_lost_counterexample (w : World) (i : Nat) (mask : Fin 3 → Bool) (o : Ob) (ho : w.objs[i]? = some o) (hf : o.frac = none) :
    (pbcWrap w i false mask).2 = false ∧ (pbcWrap w i false mask).1.objs[i]? = some ⟨o.cell, none, none⟩ := by
  unfold pbcWrap
  rw [ho]
  simp only [Bool.false_eq_true, if_false, wrapIn_none w o mask hf]
  refine ⟨trivial, ?_⟩
  rw [List.getElem?_set_self (List.getElem?_eq_some_iff.1 ho).1, hf]

/-! A trajectory with two steps of one atom, which leaves the cell in the second step. -/

noncomputable def exOps : List Op := [.new (some [1, 1]) none (some [[![1 / 2, 0, 0]], [![3 / 2, 0, 0]]])]

theorem ex_good : GoodOps exOps := by
  intro op hop c r f e
  rw [exOps, List.mem_singleton] at hop
  rw [hop] at e
  injection e with e1 e2 e3
  subst e1 e2
  intro cs hcs
  simp only [Option.some.injEq] at hcs
  subst hcs
  refine ⟨fun c hc => ?_, fun r f h => by simp at h⟩
  have : c = 1 := by simpa using hc
  rw [this]
  simp

theorem ex_objs : (run World.empty exOps).objs = [⟨some [1, 1], some [2, 3], some [0, 1]⟩] := by
  simp [exOps, run, step, new, allocOpt, alloc, fillIn, World.empty, List.range_succ]

theorem ex_frac : seen (run World.empty exOps) (some [0, 1]) = some [[![1 / 2, 0, 0]], [![3 / 2, 0, 0]]] := by
  simp [seen, exOps, run, step, new, allocOpt, alloc, fillIn, World.empty, List.range_succ]

theorem ex_fits : ∃ r, seen (run World.empty exOps) (some [2, 3]) = some r ∧ StepsFit [1, 1] [[![1 / 2, 0, 0]], [![3 / 2, 0, 0]]] r := by
  refine ⟨_, rfl, ?_⟩
  exact C128_consistent_partial exOps ex_good (by intro op hop i m e; rw [exOps, List.mem_singleton] at hop; rw [hop] at e; simp at e)
    ⟨some [1, 1], some [2, 3], some [0, 1]⟩ (by rw [ex_objs]; simp) _ _ _ rfl rfl ex_frac

/-- Wrapping `tr[1]` in place makes the trajectory inconsistent; wrapping a copy of it does not. -/
example :
    ¬ ObFits (run World.empty (exOps ++ [.getitem 0 [1], .wrap 1 false fun _ => true])) ⟨some [1, 1], some [2, 3], some [0, 1]⟩ ∧
    ObFits (run World.empty (exOps ++ [.getitem 0 [1], .wrap 1 true fun _ => true])) ⟨some [1, 1], some [2, 3], some [0, 1]⟩ := by
  obtain ⟨r, hr, hfit⟩ := ex_fits
  have ho : (run World.empty exOps).objs[0]? = some ⟨some [1, 1], some [2, 3], some [0, 1]⟩ := by rw [ex_objs]; rfl
  have hl : (run World.empty exOps).objs.length = 1 := by rw [ex_objs]; rfl
  constructor
  · have h := C128_view_counterexample exOps 0 1 (fun _ => true) _ _ _ _ ho rfl hr ex_frac hfit (by simp) _ rfl
      ![3 / 2, 0, 0] (by simp) 0 rfl (by right; norm_num)
    rw [hl] at h
    exact h.2
  · have hn : NoInPlace [Op.getitem 0 [1], .wrap 1 true fun _ => true] := by
      intro op hop i m e
      simp only [List.mem_cons, List.not_mem_nil, or_false] at hop
      rcases hop with h | h <;> rw [h] at e <;> simp at e
    obtain ⟨-, h2, h3⟩ := C128_persistent_partial exOps [.getitem 0 [1], .wrap 1 true fun _ => true] hn 0 _ ho
    intro cs r' f' a1 a2 a3
    rw [h2, hr] at a2
    rw [h3, ex_frac] at a3
    simp only [Option.some.injEq] at a1 a2 a3
    subst a1 a2 a3
    exact hfit

/-- The trajectory is not shared before it is indexed: wrapping it in place works. -/
example : Unshared (run World.empty exOps) 0 ∧ ∃ w, pbcWrap (run World.empty exOps) 0 false (fun _ => true) = (w, true) := by
  have ho : (run World.empty exOps).objs[0]? = some ⟨some [1, 1], some [2, 3], some [0, 1]⟩ := by rw [ex_objs]; rfl
  refine ⟨?_, ?_⟩
  · intro o f _ _ a _ j p g hj hp
    rw [ex_objs] at hp
    cases j with
    | zero => exact absurd rfl hj
    | succ j => simp at hp
  · obtain ⟨w, h, -⟩ := C128_result exOps 0 false (fun _ => true) _ _ _ ho rfl ex_frac rfl
    exact ⟨w, h⟩

end Pwtools.PbcObj
