import Verif.Spec.ScellAlg
import Verif.Props.Scell
/-!
# C162: supercells of supercells, and the crystal a supercell describes

No new model: `scell` of C34.
-/
namespace Pwtools.Cry
open Pwtools.Spec

theorem zip_flatMap {α β γ : Type} (g : α → β → γ) (B : List β) : ∀ (cf : List α) (syms : List String), syms.length = cf.length →
    (cf.flatMap (fun s => B.map (g s))).zip (syms.flatMap (fun x => List.replicate B.length x)) =
      (cf.zip syms).flatMap (fun p => B.map (fun n => (g p.1 n, p.2)))
  | [], [], _ => by simp
  | [], _ :: _, h => by simp at h
  | _ :: _, [], h => by simp at h
  | a :: cf, x :: syms, h => by
    have ih := zip_flatMap g B cf syms (by simpa using h)
    have e : ∀ B : List β, (B.map (g a)).zip (List.replicate B.length x) = B.map (fun n => (g a n, x)) := by
      intro B
      induction B with
      | nil => rfl
      | cons b B ihB => simp [List.replicate_succ, ihB]
    rw [List.flatMap_cons, List.flatMap_cons, List.zip_cons_cons, List.flatMap_cons, List.zip_append (by simp), ih, e]

/-- `scell` as atoms. -/
theorem scell_atoms (st : Struct) (hc : SymbolsComplete st) (dims : Fin 3 → Int) (h : ∀ k, dims k ≠ 0) (method : Nat)
    (hm : method = 1 ∨ method = 2) (direc : Int) (hd : direc = 1 ∨ direc = -1) :
    ∃ (sc : Struct) (B : List (Fin 3 → Int)), scell st dims method direc = .ok sc ∧ B.Nodup ∧ (∀ n, n ∈ B ↔ InBlock dims n) ∧
      (∀ i k, sc.cell i k = (dims i : ℝ) * st.cell i k) ∧ SymbolsComplete sc ∧
      atomList sc = (atomList st).flatMap (fun p => B.map (fun n => (translate st.cell n p.1, p.2))) := by
  obtain ⟨syms, hs, hl⟩ := hc
  obtain ⟨sc, B, e, hnd, hmem, _, hcell, hpos, hsym, _⟩ := C34_scell st dims h method hm direc hd syms hs
  have hlen : sc.coordsFrac.length = st.coordsFrac.length * B.length := by
    have := congrArg List.length hpos
    simpa using this
  refine ⟨sc, B, e, hnd, hmem, hcell, ⟨_, hsym, ?_⟩, ?_⟩
  · rw [hlen]; simp [hl]
  · unfold atomList
    rw [hpos, hsym, hs, Option.getD_some, Option.getD_some, zip_flatMap (fun s n => translate st.cell n (frac2cart st.cell s)) B _ _ hl,
      List.zip_map_left, List.flatMap_map]
    rfl

theorem translate_add (cell : Cell) (n m : Fin 3 → Int) (r : V3) :
    translate cell n (translate cell m r) = translate cell (fun i => m i + n i) r := by
  funext k
  simp only [translate, Fin.sum_univ_three]
  push_cast
  ring

theorem translate_scaled (cell cell' : Cell) (dims : Fin 3 → Int) (hcell : ∀ i k, cell' i k = (dims i : ℝ) * cell i k)
    (n : Fin 3 → Int) (r : V3) : translate cell' n r = translate cell (fun i => dims i * n i) r := by
  funext k
  simp only [translate, Fin.sum_univ_three, hcell]
  push_cast
  ring

/-- **C162** (the same crystal). The infinite crystal described by a supercell, of any non-zero and also negative
dimensions, is the crystal described by the structure. -/
theorem C162_crystal (st : Struct) (hc : SymbolsComplete st) (dims : Fin 3 → Int) (h : ∀ k, dims k ≠ 0) (method : Nat)
    (hm : method = 1 ∨ method = 2) (direc : Int) (hd : direc = 1 ∨ direc = -1) (sc : Struct)
    (hsc : scell st dims method direc = .ok sc) (e : String) (r : V3) : InCrystal sc e r ↔ InCrystal st e r := by
  obtain ⟨sc', B, e1, _, hmem, hcell, _, hat⟩ := scell_atoms st hc dims h method hm direc hd
  rw [hsc] at e1
  cases e1
  unfold InCrystal
  rw [hat]
  simp only [List.mem_flatMap, List.mem_map, Prod.mk.injEq, Prod.exists]
  constructor
  · rintro ⟨_, ⟨r0, e0, h0, m, hm, rfl, rfl⟩, n, rfl⟩
    exact ⟨r0, h0, _, by rw [translate_scaled _ _ dims hcell, translate_add]⟩
  · rintro ⟨r0, h0, n, rfl⟩
    -- n = dims * q + m with m in the block
    have hq : ∀ k, ∃ q m : Int, n k = m + dims k * q ∧ ((0 ≤ m ∧ m < dims k) ∨ (dims k < m ∧ m ≤ 0)) := by
      intro k
      rcases lt_or_gt_of_ne (h k) with hk | hk
      · refine ⟨-(-(n k) / dims k), -(-(n k) % dims k), ?_, Or.inr ⟨?_, ?_⟩⟩
        · have := Int.emod_add_mul_ediv (-(n k)) (dims k)
          linarith
        · have := Int.emod_lt_of_neg (-(n k)) hk
          omega
        · have := Int.emod_nonneg (-(n k)) (h k)
          omega
      · exact ⟨n k / dims k, n k % dims k, by have := Int.emod_add_mul_ediv (n k) (dims k); linarith,
          Or.inl ⟨Int.emod_nonneg _ (h k), Int.emod_lt_of_pos _ hk⟩⟩
    choose q m hqm hb using hq
    refine ⟨translate st.cell m r0, ⟨r0, e, h0, m, (hmem m).2 hb, rfl, rfl⟩, q, ?_⟩
    rw [translate_scaled _ _ dims hcell, translate_add]
    congr 1
    funext k
    exact hqm k

/-- **C162** (repeated supercells). A supercell of a supercell is the supercell with the products of the dimensions:
the same cell and the same atoms, each as often (the order differs). The first dimensions are any
non-zero integers, the second ones positive. -/
theorem C162_compose (st : Struct) (hc : SymbolsComplete st) (d1 d2 : Fin 3 → Int) (h1 : ∀ k, d1 k ≠ 0) (h2 : ∀ k, 0 < d2 k)
    (m1 m2 m3 : Nat) (hm1 : m1 = 1 ∨ m1 = 2) (hm2 : m2 = 1 ∨ m2 = 2) (hm3 : m3 = 1 ∨ m3 = 2)
    (e1 e2 e3 : Int) (he1 : e1 = 1 ∨ e1 = -1) (he2 : e2 = 1 ∨ e2 = -1) (he3 : e3 = 1 ∨ e3 = -1) (s1 s2 s3 : Struct)
    (hs1 : scell st d1 m1 e1 = .ok s1) (hs2 : scell s1 d2 m2 e2 = .ok s2)
    (hs3 : scell st (fun k => d1 k * d2 k) m3 e3 = .ok s3) :
    s2.cell = s3.cell ∧ (atomList s2).Perm (atomList s3) := by
  have h2' : ∀ k, d2 k ≠ 0 := fun k => (h2 k).ne'
  obtain ⟨t1, B1, f1, n1, M1, c1, C1, a1⟩ := scell_atoms st hc d1 h1 m1 hm1 e1 he1
  rw [hs1] at f1; cases f1
  obtain ⟨t2, B2, f2, n2, M2, c2, _, a2⟩ := scell_atoms s1 C1 d2 h2' m2 hm2 e2 he2
  rw [hs2] at f2; cases f2
  obtain ⟨t3, B3, f3, n3, M3, c3, _, a3⟩ := scell_atoms st hc (fun k => d1 k * d2 k) (fun k => mul_ne_zero (h1 k) (h2' k)) m3 hm3 e3 he3
  rw [hs3] at f3; cases f3
  constructor
  · ext i k
    rw [c2, c1, c3]
    push_cast
    ring
  · rw [a2, a1, a3, List.flatMap_assoc]
    have hB : (B1.flatMap (fun a => B2.map (fun b => fun i => a i + d1 i * b i))).Perm B3 := by
      refine (List.perm_ext_iff_of_nodup ?_ n3).2 ?_
      · rw [List.nodup_flatMap]
        constructor
        · intro a _
          refine n2.map ?_
          intro b b' hb
          funext k
          have := congrFun hb k
          have : d1 k * b k = d1 k * b' k := by simpa using this
          exact mul_left_cancel₀ (h1 k) this
        · refine n1.imp_of_mem ?_
          intro a a' ha ha' hne
          rw [Function.onFun, List.disjoint_left]
          intro x hx hx'
          simp only [List.mem_map] at hx hx'
          obtain ⟨b, _, rfl⟩ := hx
          obtain ⟨b', _, hb⟩ := hx'
          apply hne
          funext k
          have hk := congrFun hb k
          have A := (M1 a).1 ha k
          have A' := (M1 a').1 ha' k
          have hk : a' k - a k = d1 k * (b k - b' k) := by linarith
          have hlt : |a' k - a k| < |d1 k| := by
            rcases A with A | A <;> rcases A' with A' | A' <;> rw [abs_lt] <;>
              rcases abs_cases (d1 k) with ⟨h, _⟩ | ⟨h, _⟩ <;> rw [h] <;> constructor <;> omega
          have : a' k - a k = 0 := Int.eq_zero_of_abs_lt_dvd ((abs_dvd _ _).2 (Dvd.intro _ hk.symm : d1 k ∣ _)) hlt
          omega
      · intro x
        simp only [List.mem_flatMap, List.mem_map, M1, M2, M3, InBlock]
        constructor
        · rintro ⟨a, ha, b, hb, rfl⟩ k
          have hb' : 0 ≤ b k ∧ b k < d2 k := by
            have := h2 k
            rcases hb k with hb | hb <;> omega
          rcases ha k with ha | ha
          · left
            have := mul_nonneg (show 0 ≤ d1 k by omega) hb'.1
            have := mul_le_mul_of_nonneg_left (show b k ≤ d2 k - 1 by omega) (show 0 ≤ d1 k by omega)
            constructor
            · linarith
            · have : d1 k * (d2 k - 1) = d1 k * d2 k - d1 k := by ring
              linarith
          · right
            have := mul_nonpos_of_nonpos_of_nonneg (show d1 k ≤ 0 by omega) hb'.1
            have := mul_le_mul_of_nonpos_left (show b k ≤ d2 k - 1 by omega) (show d1 k ≤ 0 by omega)
            constructor
            · have : d1 k * (d2 k - 1) = d1 k * d2 k - d1 k := by ring
              linarith
            · linarith
        · intro hx
          have key : ∀ k, ∃ a b : Int, x k = a + d1 k * b ∧ ((0 ≤ a ∧ a < d1 k) ∨ (d1 k < a ∧ a ≤ 0)) ∧ 0 ≤ b ∧ b < d2 k := by
            intro k
            have p2 := h2 k
            rcases lt_or_gt_of_ne (h1 k) with hk | hk
            · have X : d1 k * d2 k < x k ∧ x k ≤ 0 := by
                have : d1 k * d2 k < 0 := mul_neg_of_neg_of_pos hk p2
                rcases hx k with h | h
                · omega
                · exact h
              have E := Int.emod_add_mul_ediv (-(x k)) (-(d1 k))
              refine ⟨-(-(x k) % -(d1 k)), -(x k) / -(d1 k), by linarith, Or.inr ⟨?_, ?_⟩, Int.ediv_nonneg (by omega) (by omega), ?_⟩
              · have := Int.emod_lt_of_pos (-(x k)) (show 0 < -(d1 k) by omega); omega
              · have := Int.emod_nonneg (-(x k)) (show -(d1 k) ≠ 0 by omega); omega
              · apply Int.ediv_lt_of_lt_mul (by omega)
                have : d2 k * -(d1 k) = -(d1 k * d2 k) := by ring
                omega
            · have X : 0 ≤ x k ∧ x k < d1 k * d2 k := by
                have : 0 < d1 k * d2 k := mul_pos hk p2
                rcases hx k with h | h
                · exact h
                · omega
              have E := Int.emod_add_mul_ediv (x k) (d1 k)
              refine ⟨x k % d1 k, x k / d1 k, by linarith, Or.inl ⟨Int.emod_nonneg _ (h1 k), Int.emod_lt_of_pos _ hk⟩,
                Int.ediv_nonneg X.1 hk.le, ?_⟩
              apply Int.ediv_lt_of_lt_mul hk
              have : d2 k * d1 k = d1 k * d2 k := by ring
              omega
          choose a b hab ha hb using key
          exact ⟨a, ha, b, fun k => Or.inl (hb k), by funext k; exact (hab k).symm⟩
    refine List.Perm.flatMap_left _ (fun p _ => ?_)
    refine List.Perm.trans (List.Perm.of_eq ?_) (hB.map (fun n => (translate st.cell n p.1, p.2)))
    rw [List.flatMap_map, List.map_flatMap]
    congr 1
    funext a
    rw [List.map_map]
    apply List.map_congr_left
    intro b _
    simp only [Function.comp]
    rw [translate_scaled _ _ d1 c1, translate_add]

/-- **C162** (in any order). Two steps with positive dimensions can be exchanged. -/
theorem C162_commute (st : Struct) (hc : SymbolsComplete st) (d1 d2 : Fin 3 → Int) (h1 : ∀ k, 0 < d1 k) (h2 : ∀ k, 0 < d2 k)
    (m : Nat) (hm : m = 1 ∨ m = 2) (e : Int) (he : e = 1 ∨ e = -1) (s1 s12 s2 s21 : Struct)
    (hs1 : scell st d1 m e = .ok s1) (hs12 : scell s1 d2 m e = .ok s12)
    (hs2 : scell st d2 m e = .ok s2) (hs21 : scell s2 d1 m e = .ok s21) :
    s12.cell = s21.cell ∧ (atomList s12).Perm (atomList s21) := by
  have h1' : ∀ k, d1 k ≠ 0 := fun k => (h1 k).ne'
  have h2' : ∀ k, d2 k ≠ 0 := fun k => (h2 k).ne'
  obtain ⟨s3, _, hs3, _⟩ := scell_atoms st hc (fun k => d1 k * d2 k) (fun k => mul_ne_zero (h1' k) (h2' k)) m hm e he
  obtain ⟨a, b⟩ := C162_compose st hc d1 d2 h1' h2 m m m hm hm hm e e e he he he _ _ _ hs1 hs12 hs3
  have hs3' : scell st (fun k => d2 k * d1 k) m e = .ok s3 := by
    rw [← hs3]; congr 1; funext k; ring
  obtain ⟨a', b'⟩ := C162_compose st hc d2 d1 h2' h1 m m m hm hm hm e e e he he he _ _ _ hs2 hs21 hs3'
  exact ⟨a.trans a'.symm, b.trans b'.symm⟩

/-- **C162** (the direction only orders the cells). -/
theorem C162_direc (st : Struct) (hc : SymbolsComplete st) (dims : Fin 3 → Int) (h : ∀ k, dims k ≠ 0) (m m' : Nat) (hm : m = 1 ∨ m = 2)
    (hm' : m' = 1 ∨ m' = 2) (s s' : Struct) (hs : scell st dims m 1 = .ok s) (hs' : scell st dims m' (-1) = .ok s') :
    s.cell = s'.cell ∧ (atomList s).Perm (atomList s') := by
  obtain ⟨t, B, f, n, M, c, _, a⟩ := scell_atoms st hc dims h m hm 1 (Or.inl rfl)
  rw [hs] at f; cases f
  obtain ⟨t', B', f', n', M', c', _, a'⟩ := scell_atoms st hc dims h m' hm' (-1) (Or.inr rfl)
  rw [hs'] at f'; cases f'
  refine ⟨by ext i k; rw [c, c'], ?_⟩
  rw [a, a']
  refine List.Perm.flatMap_left _ (fun p _ => List.Perm.map _ ?_)
  exact (List.perm_ext_iff_of_nodup n n').2 (fun x => by rw [M, M'])

/-- **C162** (trivial supercell). Dimensions `(1,1,1)` give back the structure. -/
theorem C162_one (st : Struct) (hs : st.symbols ≠ none) (m : Nat) (hm : m = 1 ∨ m = 2) (e : Int) (he : e = 1 ∨ e = -1) :
    scell st (fun _ => 1) m e = .ok st := by
  obtain ⟨syms, hsy⟩ := Option.ne_none_iff_exists'.1 hs
  obtain ⟨cf, cell, sy⟩ := st
  simp only at hsy
  subst hsy
  have hmask : scellMask 1 1 1 e = some [[0, 0, 0]] := by
    rcases he with rfl | rfl <;> decide
  have hv : maskVec [0, 0, 0] = 0 := by
    funext k; fin_cases k <;> simp [maskVec]
  have hsym : ∀ l : List String, l.flatMap (List.replicate 1) = l := fun l => by
    induction l with
    | nil => rfl
    | cons a l ih => rw [List.flatMap_cons, ih]; rfl
  have hcf : scellCoords2 cf [[0, 0, 0]] = cf := by
    unfold scellCoords2
    simp [hv]
  have hcell : (Matrix.of (fun i k => cell i k * ((1 : Int) : ℝ)) : Cell) = cell := by
    ext i k; simp
  unfold scell
  simp only [hmask]
  rcases hm with rfl | rfl
  · simp only [if_true, List.isEmpty_cons, Bool.false_eq_true, if_false, scellCoords_eq, hcf, hcell]
    simp [hsym]
  · simp only [show (2 : Nat) ≠ 1 by decide, if_true, if_false, hcf, hcell]
    simp [hsym]

/-- **C162** is false for negative dimensions in the second step (which would then describe the same crystal by
other atoms, see `C162_crystal`): one atom at the origin, `(2,1,1)` and then `(-1,1,1)` gives positions 0 and 1, but
`(-2,1,1)` gives 0 and -1. -/
theorem C162_negative : ∃ (st s1 s2 s3 : Struct) (d1 d2 : Fin 3 → Int), SymbolsComplete st ∧ (∀ k, d1 k ≠ 0) ∧ (∀ k, d2 k ≠ 0) ∧
    scell st d1 1 1 = .ok s1 ∧ scell s1 d2 1 1 = .ok s2 ∧ scell st (fun k => d1 k * d2 k) 1 1 = .ok s3 ∧
    ¬ (atomList s2).Perm (atomList s3) := by
  have hc : SymbolsComplete ⟨[0], 1, some ["H"]⟩ := ⟨_, rfl, rfl⟩
  have h1 : ∀ k, (![2, 1, 1] : Fin 3 → Int) k ≠ 0 := by decide
  have h2 : ∀ k, (![-1, 1, 1] : Fin 3 → Int) k ≠ 0 := by decide
  obtain ⟨s1, B1, f1, _, M1, c1, C1, a1⟩ := scell_atoms ⟨[0], 1, some ["H"]⟩ hc ![2, 1, 1] h1 1 (Or.inl rfl) 1 (Or.inl rfl)
  obtain ⟨s2, B2, f2, _, M2, c2, C2, a2⟩ := scell_atoms s1 C1 ![-1, 1, 1] h2 1 (Or.inl rfl) 1 (Or.inl rfl)
  obtain ⟨s3, B3, f3, _, M3, c3, C3, a3⟩ := scell_atoms ⟨[0], 1, some ["H"]⟩ hc (fun k => ![2, 1, 1] k * ![-1, 1, 1] k)
    (fun k => mul_ne_zero (h1 k) (h2 k)) 1 (Or.inl rfl) 1 (Or.inl rfl)
  refine ⟨_, s1, s2, s3, _, _, hc, h1, h2, f1, f2, f3, fun hp => ?_⟩
  have hat : atomList ⟨[0], 1, some ["H"]⟩ = [(0, "H")] := by
    simp [atomList, frac2cart]
  have m2 : (translate 1 ![1, 0, 0] 0, "H") ∈ atomList s2 := by
    rw [a2, a1, hat]
    simp only [List.mem_flatMap, List.mem_map, List.mem_singleton]
    refine ⟨_, ⟨_, rfl, ![1, 0, 0], (M1 _).2 ?_, rfl⟩, 0, (M2 _).2 ?_, ?_⟩
    · intro k; fin_cases k <;> simp
    · intro k; fin_cases k <;> simp
    · simp only [Prod.mk.injEq, and_true]
      funext k
      simp [translate]
  rw [hp.mem_iff, a3, hat] at m2
  simp only [List.mem_flatMap, List.mem_map, List.mem_singleton] at m2
  obtain ⟨_, rfl, n, hn, e⟩ := m2
  have hn0 := (M3 n).1 hn 0
  have e0 := congrFun (congrArg Prod.fst e) 0
  simp [translate, Matrix.one_apply] at e0 hn0
  have : n 0 = 1 := by exact_mod_cast e0
  omega

/-! Non-vacuity: both supercells exist for every structure with symbols. -/
example (st : Struct) (hc : SymbolsComplete st) : ∃ s1 s2 s3, scell st ![2, -1, 3] 1 1 = .ok s1 ∧ scell s1 ![1, 2, 2] 2 (-1) = .ok s2 ∧
    scell st (fun k => ![2, -1, 3] k * ![1, 2, 2] k) 1 1 = .ok s3 ∧ s2.cell = s3.cell ∧ (atomList s2).Perm (atomList s3) := by
  have h1 : ∀ k, (![2, -1, 3] : Fin 3 → Int) k ≠ 0 := by decide
  have h2 : ∀ k, 0 < (![1, 2, 2] : Fin 3 → Int) k := by decide
  obtain ⟨s1, B1, f1, _, M1, c1, C1, a1⟩ := scell_atoms st hc ![2, -1, 3] h1 1 (Or.inl rfl) 1 (Or.inl rfl)
  obtain ⟨s2, B2, f2, _⟩ := scell_atoms s1 C1 ![1, 2, 2] (fun k => (h2 k).ne') 2 (Or.inr rfl) (-1) (Or.inr rfl)
  obtain ⟨s3, B3, f3, _⟩ := scell_atoms st hc (fun k => ![2, -1, 3] k * ![1, 2, 2] k)
    (fun k => mul_ne_zero (h1 k) (h2 k).ne') 1 (Or.inl rfl) 1 (Or.inl rfl)
  exact ⟨s1, s2, s3, f1, f2, f3, C162_compose st hc _ _ h1 h2 1 2 1 (Or.inl rfl) (Or.inr rfl) (Or.inl rfl) 1 (-1) 1 (Or.inl rfl)
    (Or.inr rfl) (Or.inl rfl) _ _ _ f1 f2 f3⟩

example : SymbolsComplete ⟨[0, fun _ => 1 / 2], 1, some ["Na", "Cl"]⟩ := ⟨_, rfl, rfl⟩

end Pwtools.Cry
