import Verif.Model.ScfOut
import Verif.Spec.ScfOut
import Verif.Props.Grep
import Mathlib.Data.List.TakeDrop
import Mathlib.Data.List.Flatten
/-!
# C110 (CP2K single points), C111 (CPMD single points), C112 (convergence flags)
-/
namespace Pwtools.Scf
open Spec Gr
variable {K : Type}

theorem inOrder_iff (ws : List Text) (l : Text) : hasSeq ws l = true ↔ HasInOrder ws l := by
  induction ws generalizing l with
  | nil => simp [hasSeq, HasInOrder]
  | cons w ws ih =>
    rw [hasSeq_cons]
    exact exists_congr fun a => exists_congr fun b => and_congr_right fun _ => ih b

theorem spaced3_iff (u v w l : Text) (hv : v.head? ≠ some ' ') (hv' : v ≠ []) (hw : w.head? ≠ some ' ') (hw' : w ≠ []) :
    hasSpaced [u, v, w] l = true ↔ HasSpaced3 u v w l := by
  unfold hasSpaced HasSpaced3
  simp only [List.any_eq_true, List.mem_tails]
  constructor
  · rintro ⟨t, ⟨a, rfl⟩, h⟩
    obtain ⟨n, t2, rfl, h2⟩ := (spacedPrefix_cons _ _ _ _ hv hv').1 h
    obtain ⟨m, t3, rfl, h3⟩ := (spacedPrefix_cons _ _ _ _ hw hw').1 h2
    simp only [spacedPrefix, List.isPrefixOf_iff_prefix] at h3
    obtain ⟨b, rfl⟩ := h3
    exact ⟨a, n, m, b, rfl⟩
  · rintro ⟨a, n, m, b, rfl⟩
    refine ⟨_, ⟨a, rfl⟩, (spacedPrefix_cons _ _ _ _ hv hv').2 ⟨n, _, rfl, (spacedPrefix_cons _ _ _ _ hw hw').2 ⟨m, _, rfl, ?_⟩⟩⟩
    simp only [spacedPrefix, List.isPrefixOf_iff_prefix]
    exact ⟨b, rfl⟩

theorem boolFalse {b : Bool} {P : Prop} (h : b = true ↔ P) (hn : ¬ P) : b = false := by
  cases b with
  | false => rfl
  | true => exact absurd (h.1 rfl) hn

theorem no_infix {k : Text} {R : List Text} (h : ∀ l ∈ R, ¬ HasText k l) : ∀ l ∈ R, isInfix k l = false :=
  fun l hl => boolFalse (isInfix_iff_append k l) (h l hl)

theorem atomHead_iff (l : Text) : isAtomHead l = true ↔ HasSpaced3 "ATOM".toList "COORDINATES".toList "GRADIENTS".toList l :=
  spaced3_iff _ _ _ _ (by decide) (by decide) (by decide) (by decide)

theorem tableHead_iff (l : Text) : isTableHead l = true ↔ HasSpaced3 "Atom".toList "Kind".toList "Element".toList l :=
  spaced3_iff _ _ _ _ (by decide) (by decide) (by decide) (by decide)

theorem forces_iff (l : Text) : isForces l = true ↔ HasText "ATOMIC FORCES".toList l := isInfix_iff_append _ _

theorem sum_iff (l : Text) : isSum l = true ↔ HasText "SUM OF ATOMIC FORCES".toList l := isInfix_iff_append _ _

theorem tailN_append {α : Type} (n : Nat) (A B : List α) (h : B.length = n) : tailN n (A ++ B) = B := by
  unfold tailN
  rw [List.drop_append_of_le_length (by simp; omega)]
  have : (A ++ B).length - n = A.length := by simp; omega
  rw [this, List.drop_length, List.nil_append]

theorem grepA_none (n : Nat) (p : Text → Bool) (B : List Text) (h : ∀ l ∈ B, p l = false) (s g : Bool) : grepA n p B 0 s g = [] := by
  induction B generalizing s g with
  | nil => rfl
  | cons l B ih =>
    simp only [grepA]
    rw [if_neg (by simp [h l (by simp)])]
    exact ih (fun x hx => h x (by simp [hx])) _ _

theorem grepA_ctx (n : Nat) (p : Text → Bool) (R B : List Text) (h : ∀ l ∈ R, p l = false) (s g : Bool) :
    ∃ g' , grepA n p (R ++ B) R.length s g = R ++ grepA n p B 0 (s || !R.isEmpty) g' := by
  induction R generalizing s g with
  | nil => exact ⟨g, by simp⟩
  | cons l R ih =>
    rw [List.cons_append, List.length_cons]
    simp only [grepA]
    rw [if_neg (by simp [h l (by simp)])]
    obtain ⟨g', e⟩ := ih (fun x hx => h x (by simp [hx])) true false
    exact ⟨g', by simp [e]⟩

theorem grepA_suffix (n : Nat) (p : Text → Bool) (A X : List Text) (c : Nat) (s g : Bool) :
    ∃ P c' s' g', grepA n p (A ++ X) c s g = P ++ grepA n p X c' s' g' := by
  induction A generalizing c s g with
  | nil => exact ⟨[], c, s, g, rfl⟩
  | cons l A ih =>
    rw [List.cons_append]
    simp only [grepA]
    by_cases hp : p l = true
    · rw [if_pos hp]
      obtain ⟨P, c', s', g', e⟩ := ih n true false
      exact ⟨(if s && g then ["--".toList] else []) ++ l :: P, c', s', g', by rw [e]; simp⟩
    · rw [if_neg hp]
      cases c with
      | zero => exact ih 0 s true
      | succ c =>
        obtain ⟨P, c', s', g', e⟩ := ih c true false
        exact ⟨l :: P, c', s', g', by simp only; rw [e]; rfl⟩

/-- The last block of a file: whatever stands before it, also other blocks. -/
theorem tail_grepA (n : Nat) (p : Text → Bool) (A R B : List Text) (hd : Text) (hp : p hd = true) (hR : ∀ l ∈ R, p l = false)
    (hB : ∀ l ∈ B, p l = false) (hn : R.length = n) : tailN n (grepA n p (A ++ hd :: (R ++ B)) 0 false false) = R := by
  obtain ⟨P, c', s', g', e⟩ := grepA_suffix n p A (hd :: (R ++ B)) 0 false false
  rw [e]
  simp only [grepA]
  rw [if_pos hp]
  obtain ⟨g2, e2⟩ := grepA_ctx n p R B hR true false
  rw [hn] at e2
  rw [e2, grepA_none n p B hB, List.append_nil]
  rw [show ∀ (x y : List Text), P ++ (x ++ hd :: y) = (P ++ (x ++ [hd])) ++ y by intros; simp]
  exact tailN_append n _ R hn

/-! ## C111 -/

theorem arr2d_rows (num : Text → Option K) (R : List Text) (v : List (List K)) (m : Nat) (hm : 1 < m)
    (h : List.Forall₂ (NumLine num) R v) (hv : ∀ r ∈ v, r.length = m) (h0 : R ≠ []) : arr2d num (R.map splitWs) = .ok (some v) := by
  have hf : List.Forall₂ (fun r v => r.map num = v.map some) (R.map splitWs) v := by
    rw [List.forall₂_map_left_iff]
    exact h
  have hl := loadRows_eq num (R.map splitWs) v m (by omega) hf hv
  cases h with
  | nil => exact absurd rfl h0
  | cons hd tl =>
    rename_i l r R' v'
    unfold arr2d
    rw [hl]
    have hr : r.length = m := hv r (by simp)
    have hne : splitWs l ≠ [] := by
      intro e
      unfold NumLine at hd
      rw [e] at hd
      have : r = [] := by simpa using hd.symm
      rw [this] at hr
      simp at hr
      omega
    rw [if_neg (by simp [hne])]
    exact if_neg (show ¬ ((r :: v').headD []).length = 1 by rw [List.headD_cons]; omega)

/-- **C111** The stress tensor of CPMD is the last one in the output, whatever else is in the file. -/
theorem C111_stress (num : Text → Option K) (A R B : List Text) (hd : Text) (v : List (List K)) (hp : HasText "TOTAL STRESS TENSOR".toList hd)
    (hR : ∀ l ∈ R, ¬ HasText "TOTAL STRESS TENSOR".toList l) (hB : ∀ l ∈ B, ¬ HasText "TOTAL STRESS TENSOR".toList l)
    (h3 : R.length = 3) (hv : List.Forall₂ (NumLine num) R v) (hc : ∀ r ∈ v, r.length = 3) :
    cpmdStress num (A ++ hd :: (R ++ B)) = .ok (some v) := by
  replace hp := (isInfix_iff_append _ _).2 hp
  replace hR := no_infix hR
  replace hB := no_infix hB
  unfold cpmdStress lastBlock
  rw [tail_grepA 3 _ A R B hd hp hR hB h3]
  exact arr2d_rows num R v 3 (by omega) hv hc (by intro e; rw [e] at h3; simp at h3)

/-- **C111** The cell of `GEOMETRY.scale`. -/
theorem C111_cell (num : Text → Option K) (A R B : List Text) (hd : Text) (v : List (List K)) (hp : HasText "CELL MATRIX (BOHR)".toList hd)
    (hR : ∀ l ∈ R, ¬ HasText "CELL MATRIX (BOHR)".toList l) (hB : ∀ l ∈ B, ¬ HasText "CELL MATRIX (BOHR)".toList l)
    (h3 : R.length = 3) (hv : List.Forall₂ (NumLine num) R v) (hc : ∀ r ∈ v, r.length = 3) :
    scaleCell num (A ++ hd :: (R ++ B)) = .ok (some v) := by
  replace hp := (isInfix_iff_append _ _).2 hp
  replace hR := no_infix hR
  replace hB := no_infix hB
  unfold scaleCell lastBlock
  rw [tail_grepA 3 _ A R B hd hp hR hB h3]
  exact arr2d_rows num R v 3 (by omega) hv hc (by intro e; rw [e] at h3; simp at h3)

theorem mapM_map_some {α β : Type} (f : α → Option β) (l : List α) (g : List β) (h : List.Forall₂ (fun a b => f a = some b) l g) : l.mapM f = some g := by
  induction h with
  | nil => rfl
  | cons h _ ih => simp [List.mapM_cons, h, ih]

theorem words_mapM (ws : List Text) : ws.mapM (fun w => some w) = some ws := by
  induction ws with
  | nil => rfl
  | cons w ws ih => simp [List.mapM_cons, ih]

theorem strRows_eq (rows : List (List Text)) (m : Nat) (hm : 1 < m) (h : ∀ r ∈ rows, r.length = m) (h0 : rows ≠ []) :
    strRows rows = .ok (some rows) := by
  have hl : loadRows (fun w => some w) rows = .ok rows := loadRows_eq (fun w => some w) rows rows m (by omega)
    (by
      rw [List.forall₂_same]
      intro r _
      rfl) h
  unfold strRows arr2d
  rw [hl]
  obtain ⟨r, rs, rfl⟩ := List.exists_cons_of_ne_nil h0
  have hr := h r (by simp)
  have : r ≠ [] := by intro e; rw [e] at hr; simp at hr; omega
  rw [if_neg (by simp [this])]
  exact if_neg (show ¬ ((r :: rs).headD []).length = 1 by rw [List.headD_cons]; omega)

/-- **C111** The atoms of `GEOMETRY.scale`: coordinates and symbols in the order of the file, also for one atom. -/
theorem C111_atoms (num : Text → Option K) (A R B : List Text) (hd : Text) (v : List (List K)) (syms : List Text)
    (hp : HasText "SCALED ATOMIC COORDINATES".toList hd)
    (hR : ∀ l ∈ R, ¬ HasText "SCALED ATOMIC COORDINATES".toList l) (hB : ∀ l ∈ B, ¬ HasText "SCALED ATOMIC COORDINATES".toList l)
    (h0 : R ≠ []) (hl : R.length = v.length) (hl2 : R.length = syms.length)
    (hv : ∀ (i : Nat) (l : Text) (x : List K) (s : Text), R[i]? = some l → v[i]? = some x → syms[i]? = some s → ScaleLine num l x s) :
    scaleAtoms num R.length (A ++ hd :: (R ++ B)) = .ok (v, syms) := by
  replace hp := (isInfix_iff_append _ _).2 hp
  replace hR := no_infix hR
  replace hB := no_infix hB
  unfold scaleAtoms lastBlock
  rw [tail_grepA R.length _ A R B hd hp hR hB rfl]
  have row : ∀ (i : Nat) (hi : i < R.length), ScaleLine num R[i] v[i] syms[i] := fun i hi =>
    hv i _ _ _ (List.getElem?_eq_getElem hi) (List.getElem?_eq_getElem _) (List.getElem?_eq_getElem _)
  rw [strRows_eq (R.map splitWs) 4 (by omega) ?_ (by simpa using h0)]
  · simp only
    have e1 : (R.map splitWs).mapM (fun r => (r.take 3).mapM num) = some v := by
      apply mapM_map_some
      rw [List.forall₂_map_left_iff, List.forall₂_iff_get]
      refine ⟨hl, fun i h1 h2 => ?_⟩
      obtain ⟨ws, e, e2, e3⟩ := row i h1
      have hw : ws.length = 3 := by
        have := congrArg List.length e2
        simpa [e3] using this
      simp only [List.get_eq_getElem]
      rw [e, List.take_append_of_le_length (by omega), List.take_of_length_le (by omega)]
      exact mapM_num num ws _ e2
    have e2 : (R.map splitWs).mapM (fun r => r[3]?) = some syms := by
      apply mapM_map_some
      rw [List.forall₂_map_left_iff, List.forall₂_iff_get]
      refine ⟨hl2, fun i h1 h2 => ?_⟩
      obtain ⟨ws, e, e2, e3⟩ := row i h1
      have hw : ws.length = 3 := by
        have := congrArg List.length e2
        simpa [e3] using this
      simp only [List.get_eq_getElem]
      rw [e, List.getElem?_append_right (by omega), hw]
      rfl
    rw [e1, e2]
  · intro r hr
    obtain ⟨l, hl', rfl⟩ := List.mem_map.1 hr
    obtain ⟨i, hi, rfl⟩ := List.mem_iff_getElem.1 hl'
    obtain ⟨ws, e, e2, e3⟩ := row i hi
    have hw : ws.length = 3 := by
      have := congrArg List.length e2
      simpa [e3] using this
    rw [e]
    simp [hw]

/-- **C111** The energy is the one of the last line with the key; no such line gives `None`. -/
theorem C111_etot (num : Text → Option K) (A B : List Text) (l w : Text) (x : K) (hp : HasText "TOTAL ENERGY =".toList l)
    (hB : ∀ l ∈ B, ¬ HasText "TOTAL ENERGY =".toList l) (h5 : (splitWs l)[4]? = some w) (hw : splitWs w = [w]) (hx : num w = some x) :
    cpmdEtot num (A ++ l :: B) = .ok (some x) ∧ cpmdEtot num B = .ok none := by
  replace hp := (isInfix_iff_append _ _).2 hp
  replace hB := no_infix hB
  have hBf : B.filter (isInfix "TOTAL ENERGY =".toList) = [] := by
    rw [List.filter_eq_nil_iff]
    intro a ha
    rw [hB a ha]
    simp
  constructor
  · unfold cpmdEtot
    rw [List.filter_append, List.filter_cons_of_pos hp, hBf, tailN_append 1 _ [l] rfl]
    have hne : w ≠ [] := by
      intro e
      rw [e] at hw
      simp [splitWs, splitWsAux] at hw
    have ha : awk [5] l = [w] := by
      unfold awk
      simp only [List.map_cons, List.map_nil]
      rw [List.getD_eq_getElem?_getD, show 5 - 1 = 4 from rfl, h5]
      simp [hne]
    unfold floatTxt
    simp only [List.map_cons, List.map_nil, ha, List.headD_cons, List.flatMap_cons, List.flatMap_nil, List.append_nil, hw, hx]
  · unfold cpmdEtot
    rw [hBf]
    rfl

/-- **C111** Forces: columns 6 to 8 of the last table, in the order of the file. -/
theorem C111_forces (num : Text → Option K) (A R B : List Text) (hd : Text) (v : List (List K)) (hp : HasSpaced3 "ATOM".toList "COORDINATES".toList "GRADIENTS".toList hd)
    (hR : ∀ l ∈ R, ¬ HasSpaced3 "ATOM".toList "COORDINATES".toList "GRADIENTS".toList l) (hB : ∀ l ∈ B, ¬ HasSpaced3 "ATOM".toList "COORDINATES".toList "GRADIENTS".toList l) (h0 : R ≠ [])
    (hv : List.Forall₂ (fun l r => [3, 4, 5, 6, 7, 8].map (fun i => (splitWs l)[i - 1]?.bind num) = r.map some) R v) :
    cpmdForces num R.length (A ++ hd :: (R ++ B)) = .ok (some (v.map (·.drop 3))) := by
  replace hp := (atomHead_iff _).2 hp
  replace hR : ∀ l ∈ R, isAtomHead l = false := fun l hl => boolFalse (atomHead_iff l) (hR l hl)
  replace hB : ∀ l ∈ B, isAtomHead l = false := fun l hl => boolFalse (atomHead_iff l) (hB l hl)
  have hlen : ∀ r ∈ v, r.length = 6 := by
    have : List.Forall₂ (fun (l : Text) (r : List K) => r.length = 6) R v := hv.imp fun l r h => by
      have := congrArg List.length h
      simpa using this.symm
    intro r hr
    obtain ⟨i, hi, rfl⟩ := List.mem_iff_getElem.1 hr
    exact (List.forall₂_iff_get.1 this).2 i (by rw [this.length_eq]; exact hi) hi
  unfold cpmdForces
  rw [tail_grepA R.length _ A R B hd hp hR hB rfl]
  have hf : List.Forall₂ (fun r v => r.map num = v.map some) (R.map (awk [3, 4, 5, 6, 7, 8])) v := by
    rw [List.forall₂_map_left_iff]
    exact hv.imp fun l r h => awk_row num _ l r h
  have hl := loadRows_eq num _ v 6 (by omega) hf hlen
  have ha : arr2d num (R.map (awk [3, 4, 5, 6, 7, 8])) = .ok (some v) := by
    cases hf' : R.map (awk [3, 4, 5, 6, 7, 8]) with
    | nil => simp at hf'; exact absurd hf' h0
    | cons a as =>
      rw [hf'] at hf hl
      cases hf with
      | cons h1 h2 =>
        rename_i r v'
        have hr := hlen r (by simp)
        have : a ≠ [] := by
          intro e
          rw [e] at h1
          have : r = [] := by simpa using h1.symm
          rw [this] at hr
          simp at hr
        unfold arr2d
        rw [hl, if_neg (by simp [this])]
        exact if_neg (show ¬ ((r :: v').headD []).length = 1 by rw [List.headD_cons]; omega)
  rw [ha]

/-! ## C112 -/

/-- **C112** pw.x: converged exactly if the message of convergence is in the output; in particular not for an output which ends early. -/
theorem C112_pw (out : List Text) : pwConverged out = true ↔
    ∃ l ∈ out, ∃ a b c, l = a ++ "convergence has been achieved in".toList ++ b ++ "iterations".toList ++ c := by
  unfold pwConverged
  rw [List.any_eq_true]
  constructor
  · rintro ⟨l, hl, h⟩
    rw [hasSeq_cons] at h
    obtain ⟨a, b, e, h⟩ := h
    rw [hasSeq_cons] at h
    obtain ⟨a2, b2, e2, -⟩ := h
    exact ⟨l, hl, a, a2, b2, by rw [e, e2]; simp only [List.append_assoc]⟩
  · rintro ⟨l, hl, a, b, c, e⟩
    refine ⟨l, hl, ?_⟩
    rw [hasSeq_cons]
    refine ⟨a, b ++ ("iterations".toList ++ c), by rw [e]; simp only [List.append_assoc], ?_⟩
    rw [hasSeq_cons]
    exact ⟨b, c, rfl, rfl⟩

/-- **C112** (CPMD, part which holds) If CPMD reports that there is no convergence, the flag is false. -/
theorem C112_cpmd_partial (out : List Text) : cpmdConverged out = false ↔ ∃ l ∈ out, ∃ a b, l = a ++ "BUT NO CONVERGENCE".toList ++ b := by
  unfold cpmdConverged
  rw [Bool.not_eq_false', List.any_eq_true]
  simp only [isInfix_iff_append]

/-- **C112** is false for CPMD: an output which ends before the end of the cycle (even the empty one), is reported as converged: for every output
with the message there is a shorter one, its beginning, which is reported as converged. -/
theorem C112_cpmd_counterexample : cpmdConverged [] = true ∧
    ∀ out, ∃ k, cpmdConverged (out.take k) = true ∧ (cpmdConverged out = false → k < out.length) := by
  refine ⟨rfl, fun out => ⟨0, rfl, fun h => ?_⟩⟩
  rw [C112_cpmd_partial] at h
  obtain ⟨l, hl, -⟩ := h
  exact List.length_pos_of_mem hl

/-! ## C110 -/

theorem rangeDel_eq (p : Text → Bool) (x : Text) (A : List Text) (hd : Text) (B : List Text) (hA : ∀ l ∈ A, p l = false) (hp : p hd = true) :
    rangeDel p (x :: A ++ hd :: B) = B := by
  unfold rangeDel
  rw [List.cons_append, List.tail_cons]
  have : ∀ A : List Text, (∀ l ∈ A, p l = false) → (A ++ hd :: B).dropWhile (fun l => !p l) = hd :: B := by
    intro A hA
    induction A with
    | nil => simp [hp]
    | cons a A ih => rw [List.cons_append, List.dropWhile_cons_of_pos (by simp [hA a (by simp)]), ih fun l hl => hA l (by simp [hl])]
  rw [this A hA]
  rfl

theorem takeWhile_upto (q : Text → Bool) (A : List Text) (x : Text) (B : List Text) (hA : ∀ l ∈ A, q l = true) (hx : q x = false) :
    (A ++ x :: B).takeWhile q = A := by
  induction A with
  | nil => simp [hx]
  | cons a A ih => rw [List.cons_append, List.takeWhile_cons_of_pos (hA a (by simp)), ih fun l hl => hA l (by simp [hl])]

theorem dropWhile_all (q : Text → Bool) (A B : List Text) (hA : ∀ l ∈ A, q l = true) (hB : ∀ b, B.head? = some b → q b = false) : (A ++ B).dropWhile q = B := by
  induction A with
  | nil =>
    cases B with
    | nil => rfl
    | cons b B => rw [List.nil_append, List.dropWhile_cons_of_neg (by simp [hB b rfl])]
  | cons a A ih => rw [List.cons_append, List.dropWhile_cons_of_pos (hA a (by simp)), ih fun l hl => hA l (by simp [hl])]

theorem strip_rows (A R B : List Text) (hA : ∀ l ∈ A, blankLine l = true) (hR : ∀ l ∈ R, blankLine l = false) (hB : ∀ l ∈ B, blankLine l = true) (h0 : R ≠ []) :
    stripLines (A ++ R ++ B) = R := by
  unfold stripLines
  rw [List.append_assoc, dropWhile_all blankLine A (R ++ B) hA, List.reverse_append,
    dropWhile_all blankLine B.reverse R.reverse (by simpa using hB), List.reverse_reverse]
  · intro b hb
    rw [List.head?_reverse] at hb
    exact hR b (List.mem_of_getLast? hb)
  · intro b hb
    obtain ⟨r, rs, rfl⟩ := List.exists_cons_of_ne_nil h0
    simp at hb
    rw [← hb]
    exact hR r (by simp)

theorem splitWs_all_blank (l : Text) (h : blankLine l = true) : splitWs l = [] := by
  unfold splitWs blankLine at *
  induction l with
  | nil => rfl
  | cons c l ih =>
    simp only [List.all_cons, Bool.and_eq_true] at h
    rw [splitWsAux, if_pos h.1, if_pos rfl]
    exact ih h.2

/-- **C110** Number of atoms, symbols and forces are those of the table of atomic forces, in order. Before the table there is at least one line,
and at least one line (not the head of the table) between the title and the head. -/
theorem C110_forces (num : Text → Option K) (x : Text) (pre : List Text) (title g : Text) (gap : List Text) (head : Text) (blank1 rows blank2 : List Text)
    (sum : Text) (post : List Text) (syms : List Text) (v : List (List K))
    (h1 : ∀ l ∈ pre, ¬ HasText "ATOMIC FORCES".toList l) (h2 : HasText "ATOMIC FORCES".toList title) (h3 : ∀ l ∈ gap, ¬ HasSpaced3 "Atom".toList "Kind".toList "Element".toList l) (h4 : HasSpaced3 "Atom".toList "Kind".toList "Element".toList head)
    (h5 : ∀ l ∈ rows, ¬ HasText "SUM OF ATOMIC FORCES".toList l) (h6 : HasText "SUM OF ATOMIC FORCES".toList sum) (hb1 : ∀ l ∈ blank1, WhiteLine l) (hb2 : ∀ l ∈ blank2, WhiteLine l)
    (h0 : rows ≠ []) (hl : rows.length = syms.length) (hl2 : rows.length = v.length)
    (hrow : ∀ (i : Nat) (l : Text) (s : Text) (r : List K), rows[i]? = some l → syms[i]? = some s → v[i]? = some r →
      AtomLine num 2 l s r ∧ r.length = 3) :
    cp2kForces num (x :: pre ++ title :: (g :: gap ++ head :: (blank1 ++ rows ++ blank2 ++ sum :: post))) = .ok (some (rows.length, syms, v)) := by
  replace h1 : ∀ l ∈ pre, isForces l = false := fun l hl => boolFalse (forces_iff l) (h1 l hl)
  replace h2 := (forces_iff _).2 h2
  replace h3 : ∀ l ∈ gap, isTableHead l = false := fun l hl => boolFalse (tableHead_iff l) (h3 l hl)
  replace h4 := (tableHead_iff _).2 h4
  replace h5 : ∀ l ∈ rows, isSum l = false := fun l hl => boolFalse (sum_iff l) (h5 l hl)
  replace h6 := (sum_iff _).2 h6
  replace hb1 : ∀ l ∈ blank1, blankLine l = true := fun l hl => List.all_eq_true.2 (hb1 l hl)
  replace hb2 : ∀ l ∈ blank2, blankLine l = true := fun l hl => List.all_eq_true.2 (hb2 l hl)
  have blankSum : ∀ l, blankLine l = true → isSum l = false := by
    intro l hb
    by_contra hc
    rw [Bool.not_eq_false] at hc
    unfold isSum at hc
    rw [isInfix_iff_append] at hc
    obtain ⟨a, b, rfl⟩ := hc
    unfold blankLine at hb
    simp only [List.all_append, Bool.and_eq_true] at hb
    exact absurd hb.1.2 (by decide)
  have row : ∀ (i : Nat) (hi : i < rows.length), AtomLine num 2 rows[i] syms[i] v[i] ∧ v[i].length = 3 := fun i hi =>
    hrow i _ _ _ (List.getElem?_eq_getElem hi) (List.getElem?_eq_getElem _) (List.getElem?_eq_getElem _)
  have len6 : ∀ l ∈ rows, (splitWs l).length = 6 := by
    intro l hl'
    obtain ⟨i, hi, rfl⟩ := List.mem_iff_getElem.1 hl'
    obtain ⟨⟨-, e⟩, e3⟩ := row i hi
    have := congrArg List.length e
    simp [e3] at this
    omega
  unfold cp2kForces
  rw [rangeDel_eq isForces x pre title _ h1 h2, rangeDel_eq isTableHead g gap head _ h3 h4,
    takeWhile_upto (fun l => !isSum l) (blank1 ++ rows ++ blank2) sum post ?_ (by simp [h6]), strip_rows blank1 rows blank2 hb1 ?_ hb2 h0]
  · simp only
    rw [if_neg h0, if_pos]
    · have e1 : (rows.map splitWs).mapM (fun r => r[2]?) = some syms := by
        apply mapM_map_some
        rw [List.forall₂_map_left_iff, List.forall₂_iff_get]
        exact ⟨hl, fun i h1 h2 => (row i h1).1.1⟩
      have e2 : (rows.map splitWs).mapM (fun r => (r.drop 3).mapM num) = some v := by
        apply mapM_map_some
        rw [List.forall₂_map_left_iff, List.forall₂_iff_get]
        exact ⟨hl2, fun i h1 h2 => mapM_num num _ _ (row i h1).1.2⟩
      rw [e1, e2, List.length_map]
    · obtain ⟨r, rs, hr⟩ := List.exists_cons_of_ne_nil h0
      rw [List.all_eq_true]
      intro w hw
      obtain ⟨l, hl', rfl⟩ := List.mem_map.1 hw
      rw [decide_eq_true_eq, len6 l hl', hr, List.map_cons, List.headD_cons, len6 r (by rw [hr]; simp)]
  · intro l hl'
    by_contra hc
    rw [Bool.not_eq_false] at hc
    have := len6 l hl'
    rw [splitWs_all_blank l hc] at this
    simp at this
  · intro l hl'
    simp only [List.mem_append] at hl'
    rcases hl' with (hl' | hl') | hl'
    · simp [blankSum l (hb1 l hl')]
    · simp [h5 l hl']
    · simp [blankSum l (hb2 l hl')]

/-- **C110** The energy: the number after the last colon of the only line with the key; `None` without such a line. -/
theorem C110_etot_partial (num : Text → Option K) (A B : List Text) (p w : Text) (x : K)
    (hA : ∀ l ∈ A, ¬ HasInOrder ["ENERGY".toList, "Total".toList, "energy".toList, ":".toList] l)
    (hB : ∀ l ∈ B, ¬ HasInOrder ["ENERGY".toList, "Total".toList, "energy".toList, ":".toList] l)
    (hp : HasInOrder ["ENERGY".toList, "Total".toList, "energy".toList, ":".toList] (p ++ ':' :: w)) (hc : ':' ∉ w)
    (n : Text) (hw : splitWs w = [n]) (hx : num n = some x) :
    cp2kEtot num (A ++ (p ++ ':' :: w) :: B) = .ok (some x) ∧ cp2kEtot num A = .ok none := by
  replace hA : ∀ l ∈ A, hasSeq ["ENERGY".toList, "Total".toList, "energy".toList, ":".toList] l = false := fun l hl => boolFalse (inOrder_iff _ l) (hA l hl)
  replace hB : ∀ l ∈ B, hasSeq ["ENERGY".toList, "Total".toList, "energy".toList, ":".toList] l = false := fun l hl => boolFalse (inOrder_iff _ l) (hB l hl)
  replace hp := (inOrder_iff _ _).2 hp
  have nil : ∀ A : List Text, (∀ l ∈ A, hasSeq ["ENERGY".toList, "Total".toList, "energy".toList, ":".toList] l = false) →
      A.filter (hasSeq ["ENERGY".toList, "Total".toList, "energy".toList, ":".toList]) = [] := by
    intro A hA
    rw [List.filter_eq_nil_iff]
    intro a ha
    rw [hA a ha]
    simp
  have hafter : afterLast ':' (p ++ ':' :: w) = w := by
    unfold afterLast
    have hr : ∀ r : Text, ':' ∉ r → ∀ t : Text, (r ++ ':' :: t).takeWhile (fun c => decide (c ≠ ':')) = r := by
      intro r hr t
      induction r with
      | nil => simp
      | cons c r ih =>
        simp only [List.mem_cons, not_or] at hr
        rw [List.cons_append, List.takeWhile_cons_of_pos (by simpa using Ne.symm hr.1), ih hr.2]
    rw [List.reverse_append, List.reverse_cons, List.append_assoc, List.singleton_append, hr _ (by simpa using hc), List.reverse_reverse]
  constructor
  · unfold cp2kEtot
    rw [List.filter_append, nil A hA, List.nil_append, List.filter_cons_of_pos hp, nil B hB]
    simp only [List.map_cons, List.map_nil, hafter]
    unfold floatTxt
    simp only [List.flatMap_cons, List.flatMap_nil, List.append_nil, hw, hx]
  · unfold cp2kEtot
    rw [nil A hA]
    rfl

/-- Two lines of energy raise. -/
theorem etot_twice (num : Text → Option K) (l1 l2 : Text) (out : List Text)
    (h1 : [l1, l2].Sublist (out.filter (hasSeq ["ENERGY".toList, "Total".toList, "energy".toList, ":".toList])))
    (w1 : splitWs (afterLast ':' l1) ≠ []) (w2 : splitWs (afterLast ':' l2) ≠ []) : cp2kEtot num out = .error .value := by
  unfold cp2kEtot floatTxt
  have hs : (splitWs (afterLast ':' l1) ++ splitWs (afterLast ':' l2)).Sublist
      (((out.filter (hasSeq ["ENERGY".toList, "Total".toList, "energy".toList, ":".toList])).map (afterLast ':')).flatMap splitWs) := by
    have e : splitWs (afterLast ':' l1) ++ splitWs (afterLast ':' l2) = ([l1, l2].map (afterLast ':')).flatMap splitWs := by simp
    rw [e]
    exact List.Sublist.flatMap (h1.map _) _
  have hlen := hs.length_le
  rw [List.length_append] at hlen
  have p1 := List.length_pos_iff.2 w1
  have p2 := List.length_pos_iff.2 w2
  generalize ((out.filter (hasSeq ["ENERGY".toList, "Total".toList, "energy".toList, ":".toList])).map (afterLast ':')).flatMap splitWs = L at *
  match L, hlen with
  | [], h => simp only [List.length_nil] at h; omega
  | [a], h => simp only [List.length_cons, List.length_nil] at h; omega
  | a :: b :: L, _ => rfl

theorem grepA_single (n : Nat) (p : Text → Bool) (A R B : List Text) (hd : Text) (hA : ∀ l ∈ A, p l = false) (hp : p hd = true)
    (hR : ∀ l ∈ R, p l = false) (hB : ∀ l ∈ B, p l = false) (hn : R.length = n) (g : Bool) :
    grepA n p (A ++ hd :: (R ++ B)) 0 false g = hd :: R := by
  induction A generalizing g with
  | nil =>
    rw [List.nil_append]
    simp only [grepA]
    rw [if_pos hp]
    obtain ⟨g2, e2⟩ := grepA_ctx n p R B hR true false
    rw [hn] at e2
    rw [e2, grepA_none n p B hB]
    simp
  | cons a A ih =>
    rw [List.cons_append]
    simp only [grepA]
    rw [if_neg (by simp [hA a (by simp)])]
    exact ih (fun l hl => hA l (by simp [hl])) true

theorem afterLast_eq (p w : Text) (hc : ':' ∉ w) : afterLast ':' (p ++ ':' :: w) = w := by
  unfold afterLast
  rw [List.reverse_append, List.reverse_cons, List.append_assoc, List.takeWhile_append_of_pos (by
    intro c h
    have : c ≠ ':' := by
      rintro rfl
      exact hc (by simpa using h)
    simpa using this)]
  simp

/-- **C110** is false for outputs in which the energy is printed more than once (e.g. of a geometry optimization): the getter raises. -/
theorem C110_etot_twice (num : Text → Option K) (A B C : List Text) (p1 w1 p2 w2 : Text)
    (h1 : HasInOrder ["ENERGY".toList, "Total".toList, "energy".toList, ":".toList] (p1 ++ ':' :: w1)) (h2 : HasInOrder ["ENERGY".toList, "Total".toList, "energy".toList, ":".toList] (p2 ++ ':' :: w2))
    (c1 : ':' ∉ w1) (c2 : ':' ∉ w2) (n1 : splitWs w1 ≠ []) (n2 : splitWs w2 ≠ []) :
    cp2kEtot num (A ++ (p1 ++ ':' :: w1) :: (B ++ (p2 ++ ':' :: w2) :: C)) = .error .value := by
  refine etot_twice num (p1 ++ ':' :: w1) (p2 ++ ':' :: w2) _ ?_ (by rwa [afterLast_eq _ _ c1]) (by rwa [afterLast_eq _ _ c2])
  rw [List.filter_append, List.filter_cons_of_pos ((inOrder_iff _ _).2 h1), List.filter_append, List.filter_cons_of_pos ((inOrder_iff _ _).2 h2)]
  refine List.Sublist.trans ?_ (List.sublist_append_right _ _)
  refine List.Sublist.cons_cons _ ?_
  refine List.Sublist.trans ?_ (List.sublist_append_right _ _)
  exact List.Sublist.cons_cons _ (List.nil_sublist _)

/-- The stress tensor of an output with one: the numbers of the lines `X`, `Y`, `Z` among the five lines after the title, in order,
without the names of the axes. -/
theorem stress_rows (num : Text → Option K) (A R B : List Text) (hd u head : Text) (rows : List Text) (v : List (List K))
    (hA : ∀ l ∈ A, hasSeq ["STRESS TENSOR".toList, "GPa".toList] l = false) (hp : hasSeq ["STRESS TENSOR".toList, "GPa".toList] hd = true)
    (hR : ∀ l ∈ R, hasSeq ["STRESS TENSOR".toList, "GPa".toList] l = false) (hB : ∀ l ∈ B, hasSeq ["STRESS TENSOR".toList, "GPa".toList] l = false)
    (hh : isXYZ hd = false) (hu : isXYZ u = false) (hhead : hasSpaced ["X".toList, "Y".toList, "Z".toList] head = true)
    (hRe : R = u :: head :: rows) (h3 : rows.length = 3) (hx : ∀ l ∈ rows, isXYZ l = true ∧ hasSpaced ["X".toList, "Y".toList, "Z".toList] l = false)
    (hv : List.Forall₂ (fun l r => ∃ axis, AtomLine num 0 l axis r ∧ r.length = 3) rows v) :
    cp2kStress num (A ++ hd :: (R ++ B)) = .ok v := by
  have hfil : ((hd :: R).filter fun l => !hasSpaced ["X".toList, "Y".toList, "Z".toList] l).filter isXYZ = rows := by
    rw [hRe, List.filter_filter]
    have h1 : rows.filter (fun a => isXYZ a && !hasSpaced ["X".toList, "Y".toList, "Z".toList] a) = rows := by
      rw [List.filter_eq_self]
      intro l hl
      rw [(hx l hl).1, (hx l hl).2]
      rfl
    rw [List.filter_cons_of_neg (by simp [hh]), List.filter_cons_of_neg (by simp [hu]), List.filter_cons_of_neg (by rw [hhead]; simp), h1]
  have len4 : ∀ l ∈ rows, (splitWs l).length = 4 := by
    intro l hl
    obtain ⟨i, hi, rfl⟩ := List.mem_iff_getElem.1 hl
    obtain ⟨ax, ⟨-, e⟩, e3⟩ := (List.forall₂_iff_get.1 hv).2 i hi (by rw [← hv.length_eq]; exact hi)
    have := congrArg List.length e
    simp only [List.get_eq_getElem] at *
    simp [e3] at this
    omega
  unfold cp2kStress
  rw [grepA_single 5 _ A R B hd hA hp hR hB (by rw [hRe]; simp [h3])]
  simp only
  rw [hfil]
  have h0 : rows ≠ [] := by intro e; rw [e] at h3; simp at h3
  rw [if_neg (by simpa using h0), if_pos]
  · have : (rows.map splitWs).mapM (fun r => (r.drop 1).mapM num) = some v := by
      apply mapM_map_some
      rw [List.forall₂_map_left_iff]
      exact hv.imp fun l r ⟨ax, h, _⟩ => mapM_num num _ _ h.2
    rw [this]
  · obtain ⟨r, rs, hr⟩ := List.exists_cons_of_ne_nil h0
    rw [List.all_eq_true]
    intro w hw
    obtain ⟨l, hl', rfl⟩ := List.mem_map.1 hw
    rw [decide_eq_true_eq, len4 l hl', hr, List.map_cons, List.headD_cons, len4 r (by rw [hr]; simp)]

theorem title_iff (l : Text) : hasSeq ["STRESS TENSOR".toList, "GPa".toList] l = true ↔ StressTitle l := by
  rw [hasSeq_cons]
  constructor
  · rintro ⟨a, b, rfl, h⟩
    rw [hasSeq_cons] at h
    obtain ⟨b1, c, rfl, -⟩ := h
    exact ⟨a, b1, c, by simp⟩
  · rintro ⟨a, b, c, rfl⟩
    exact ⟨a, b ++ ("GPa".toList ++ c), by simp, by rw [hasSeq_cons]; exact ⟨b, c, rfl, rfl⟩⟩

theorem title_false {l : Text} (h : ¬ StressTitle l) : hasSeq ["STRESS TENSOR".toList, "GPa".toList] l = false := by
  rw [← Bool.not_eq_true, title_iff]; exact h

theorem drop_blanks (n : Nat) (t : Text) (h : t.head? ≠ some ' ') : (List.replicate n ' ' ++ t).dropWhile (· = ' ') = t := by
  induction n with
  | zero =>
    cases t with
    | nil => rfl
    | cons c t =>
      have : c ≠ ' ' := by simpa using h
      simp [this]
  | succ n ih =>
    rw [List.replicate_succ, List.cons_append, List.dropWhile_cons_of_pos (by simp)]
    exact ih

theorem blanks_split (l : Text) : ∃ n t, l = List.replicate n ' ' ++ t ∧ t.head? ≠ some ' ' := by
  induction l with
  | nil => exact ⟨0, [], rfl, by simp⟩
  | cons c l ih =>
    by_cases hc : c = ' '
    · obtain ⟨n, t, rfl, h⟩ := ih
      exact ⟨n + 1, t, by rw [hc]; rfl, h⟩
    · exact ⟨0, c :: l, rfl, by simpa using hc⟩

theorem isXYZ_axis {c : Char} {l : Text} (hc : c = 'X' ∨ c = 'Y' ∨ c = 'Z') (h : AxisLine c l) : isXYZ l = true := by
  obtain ⟨n, rest, rfl, -⟩ := h
  unfold isXYZ
  rw [drop_blanks _ _ (by rcases hc with rfl | rfl | rfl <;> simp)]
  rcases hc with rfl | rfl | rfl <;> simp [List.replicate_succ]

theorem isXYZ_no {l : Text} (h : NoAxis l) : isXYZ l = false := by
  obtain ⟨n, t, rfl, ht⟩ := blanks_split l
  unfold isXYZ
  rw [drop_blanks _ _ ht]
  cases t with
  | nil => simp
  | cons c rest =>
    cases n with
    | zero =>
      have : c ≠ ' ' := by simpa using ht
      simp [this]
    | succ n =>
      obtain ⟨h1, h2, h3⟩ := h n c rest rfl
      simp [h1, h2, h3]

theorem spaced_title {l : Text} (h : XYZTitle l) : hasSpaced ["X".toList, "Y".toList, "Z".toList] l = true := by
  obtain ⟨a, n, m, b, rfl⟩ := h
  unfold hasSpaced
  rw [List.any_eq_true]
  refine ⟨_, (List.mem_tails _ _).2 (List.suffix_append _ _), ?_⟩
  have d1 := drop_blanks (n + 1) ('Y' :: (List.replicate (m + 1) ' ' ++ ('Z' :: b))) (by simp)
  have d2 := drop_blanks (m + 1) ('Z' :: b) (by simp)
  have e1 : "X".toList = ['X'] := rfl
  have e2 : "Y".toList = ['Y'] := rfl
  have e3 : "Z".toList = ['Z'] := rfl
  rw [e1, e2, e3]
  simp only [spacedPrefix, List.isPrefixOf, List.length_singleton, List.drop_succ_cons, List.drop_zero]
  rw [d1]
  simp only [List.isPrefixOf, List.drop_succ_cons, List.drop_zero, d2]
  simp [List.replicate_succ]

theorem spacedPrefix_mem (t : Text) (h : spacedPrefix ["X".toList, "Y".toList, "Z".toList] t = true) : 'X' ∈ t ∧ 'Y' ∈ t := by
  have e1 : "X".toList = ['X'] := rfl
  have e2 : "Y".toList = ['Y'] := rfl
  rw [e1, e2] at h
  simp only [spacedPrefix, Bool.and_eq_true, List.isPrefixOf_iff_prefix] at h
  obtain ⟨⟨⟨u, rfl⟩, -⟩, ⟨⟨v, hv⟩, -⟩, -⟩ := h
  refine ⟨by simp, ?_⟩
  have : 'Y' ∈ (List.drop ['X'].length (['X'] ++ u)).dropWhile (· = ' ') := by rw [← hv]; simp
  have := (List.dropWhile_sublist _).mem this
  simpa using this

theorem spaced_axis {c : Char} {l : Text} (hc : c = 'X' ∨ c = 'Y' ∨ c = 'Z') (h : AxisLine c l) :
    hasSpaced ["X".toList, "Y".toList, "Z".toList] l = false := by
  obtain ⟨n, rest, rfl, h1, h2, -⟩ := h
  rw [← Bool.not_eq_true]
  unfold hasSpaced
  rw [List.any_eq_true]
  rintro ⟨t, ht, hp⟩
  obtain ⟨hx, hy⟩ := spacedPrefix_mem t hp
  have sx := ((List.mem_tails _ _).1 ht).mem hx
  have sy := ((List.mem_tails _ _).1 ht).mem hy
  rcases hc with rfl | rfl | rfl <;> simp [List.mem_replicate, h1, h2] at sx sy

/-- **C110** The stress tensor of an output with one: title with the unit GPa, another line, the column titles `X Y Z`, and the rows of X, Y and Z
with three numbers each. The result is these numbers, whatever stands before and after. -/
theorem C110_stress_partial (num : Text → Option K) (A B : List Text) (title other head rx ry rz : Text) (vx vy vz : List K)
    (hA : ∀ l ∈ A, ¬ StressTitle l) (hB : ∀ l ∈ B, ¬ StressTitle l) (ht : StressTitle title ∧ NoAxis title)
    (ho : ¬ StressTitle other ∧ NoAxis other) (hh : XYZTitle head ∧ ¬ StressTitle head)
    (hx : AxisLine 'X' rx) (hy : AxisLine 'Y' ry) (hz : AxisLine 'Z' rz) (hn : ∀ l ∈ [rx, ry, rz], ¬ StressTitle l)
    (wx : ∃ axis, AtomLine num 0 rx axis vx) (wy : ∃ axis, AtomLine num 0 ry axis vy) (wz : ∃ axis, AtomLine num 0 rz axis vz)
    (l3 : vx.length = 3 ∧ vy.length = 3 ∧ vz.length = 3) :
    cp2kStress num (A ++ [title, other, head, rx, ry, rz] ++ B) = .ok [vx, vy, vz] := by
  have e : A ++ [title, other, head, rx, ry, rz] ++ B = A ++ title :: ([other, head, rx, ry, rz] ++ B) := by simp
  rw [e]
  refine stress_rows num A [other, head, rx, ry, rz] B title other head [rx, ry, rz] [vx, vy, vz]
    (fun l hl => title_false (hA l hl)) ((title_iff _).2 ht.1) ?_ (fun l hl => title_false (hB l hl)) (isXYZ_no ht.2) (isXYZ_no ho.2)
    (spaced_title hh.1) rfl rfl ?_ ?_
  · intro l hl
    apply title_false
    simp only [List.mem_cons, List.not_mem_nil, or_false] at hl
    rcases hl with rfl | rfl | hl
    · exact ho.1
    · exact hh.2
    · exact hn l (by simpa using hl)
  · intro l hl
    simp only [List.mem_cons, List.not_mem_nil, or_false] at hl
    rcases hl with rfl | rfl | rfl
    · exact ⟨isXYZ_axis (by simp) hx, spaced_axis (by simp) hx⟩
    · exact ⟨isXYZ_axis (by simp) hy, spaced_axis (by simp) hy⟩
    · exact ⟨isXYZ_axis (by simp) hz, spaced_axis (by simp) hz⟩
  · obtain ⟨ax, wx⟩ := wx
    obtain ⟨ay, wy⟩ := wy
    obtain ⟨az, wz⟩ := wz
    exact .cons ⟨ax, wx, l3.1⟩ (.cons ⟨ay, wy, l3.2.1⟩ (.cons ⟨az, wz, l3.2.2⟩ .nil))

/-- Non-vacuity: the lines of an output meet the hypotheses. -/
example : StressTitle " STRESS| STRESS TENSOR [GPa]".toList ∧ XYZTitle "     X    Y    Z".toList ∧ AxisLine 'Y' "  Y  4 5 6".toList ∧
    AtomLine (fun w => some w) 0 "  Y  4 5 6".toList "Y".toList ["4".toList, "5".toList, "6".toList] := by
  refine ⟨⟨" STRESS| ".toList, " [".toList, "]".toList, by decide +kernel⟩, ⟨"     ".toList, 3, 3, [], by decide +kernel⟩,
    ⟨1, "  4 5 6".toList, by decide +kernel⟩, by unfold AtomLine; decide +kernel⟩

/-- **C110** is false for outputs without stress tensor: the getter raises instead of returning `None`, so that the whole file cannot be read. -/
theorem C110_no_stress (num : Text → Option K) (out : List Text) (h : ∀ l ∈ out, ¬ StressTitle l) :
    cp2kStress num out = .error .index := by
  replace h : ∀ l ∈ out, hasSeq ["STRESS TENSOR".toList, "GPa".toList] l = false := fun l hl => title_false (h l hl)
  unfold cp2kStress
  rw [grepA_none 5 _ out h]
  rfl

/-- Non-vacuity: a small CP2K output. -/
example : (cp2kForces (fun w => some w.length) ["CP2K".toList, " ATOMIC FORCES in [a.u.]".toList, [], " # Atom   Kind   Element  X  Y  Z".toList,
      "   1   1   Si   0.1   0.2   0.34".toList, "   2   1   C   0.4   0.5   0.6".toList, " SUM OF ATOMIC FORCES  0 0 0".toList]).toOption =
    some (some (2, ["Si".toList, "C".toList], [[3, 3, 4], [3, 3, 3]])) := by
  decide +kernel

example : (cp2kEtot (fun w => some w) [" ENERGY| Total FORCE_EVAL ( QS ) energy (a.u.):   -12.5".toList]).toOption = some (some "-12.5".toList) := by
  decide +kernel

example : (scaleAtoms (fun w => some w) 1 ["SCALED ATOMIC COORDINATES".toList, " 0.1 0.2 0.3 Si".toList]).toOption =
    some ([["0.1".toList, "0.2".toList, "0.3".toList]], ["Si".toList]) := by decide +kernel

example : (cp2kStress (fun w => some w) [" STRESS| STRESS TENSOR [GPa]".toList, " STRESS|".toList, "     X    Y    Z".toList, "  X  1 2 3".toList,
      "  Y  4 5 6".toList, "  Z  7 8 9".toList, [], " X no".toList]).toOption =
    some [["1".toList, "2".toList, "3".toList], ["4".toList, "5".toList, "6".toList], ["7".toList, "8".toList, "9".toList]] := by decide +kernel

example : (cpmdEtot (fun w => some w) ["TOTAL ENERGY = 1 A.U.".toList, "(K+E1+L+N+X) TOTAL ENERGY = -7.5 A.U.".toList]).toOption =
    some (some "-7.5".toList) := by decide +kernel

example : (cpmdForces (fun w => some w) 1 ["ATOM COORDINATES GRADIENTS".toList, "1 H 1 2 3 4 5 6".toList]).toOption =
    some (some [["4".toList, "5".toList, "6".toList]]) := by decide +kernel

example : pwConverged ["  convergence has been achieved in   8 iterations".toList] = true ∧ pwConverged ["  iteration # 8".toList] = false := by
  decide +kernel

end Pwtools.Scf
