import Verif.Model.LmpData
import Verif.Spec.LmpData
import Verif.Props.Cell2
import Verif.Props.Traj3
/-!
# C101: LAMMPS data files and the LAMMPS calculator
-/
namespace Pwtools.LmpData
open Cry Tr Spec Matrix

theorem mul_transpose_apply (a b : Cell) (i j : Fin 3) : (a * b.transpose) i j = dot (a i) (b j) := dot_eq_mul a b i j

/-- The new cell is the old one times an orthogonal matrix. -/
theorem rotation (c : Cell) (h : c.det ≠ 0) : ∃ q : Cell, q * q.transpose = 1 ∧ cc2cell (cell2cc c) = c * q := by
  have hu : IsUnit c.det := isUnit_iff_ne_zero.2 h
  refine ⟨c⁻¹ * cc2cell (cell2cc c), ?_, ?_⟩
  · have e : cc2cell (cell2cc c) * (cc2cell (cell2cc c)).transpose = c * c.transpose := by
      ext i j
      rw [mul_transpose_apply, mul_transpose_apply, C41_cell_metric c h]
    rw [transpose_mul, Matrix.mul_assoc, ← Matrix.mul_assoc (cc2cell (cell2cc c)), e, Matrix.mul_assoc, ← Matrix.mul_assoc c⁻¹,
      Matrix.nonsing_inv_mul c hu, Matrix.one_mul, ← transpose_mul, Matrix.nonsing_inv_mul c hu, transpose_one]
  · rw [← Matrix.mul_assoc, Matrix.mul_nonsing_inv c hu, Matrix.one_mul]

theorem aligned_new (c : Cell) (h : c.det ≠ 0) : Aligned (cc2cell (cell2cc c)) := by
  have hv := valid_cell c h
  obtain ⟨h0, h12, h11, h22⟩ := C41_orientation _ hv
  have h01 : cc2cell (cell2cc c) 0 1 = 0 := by rw [h0]; rfl
  have h02 : cc2cell (cell2cc c) 0 2 = 0 := by rw [h0]; rfl
  have h00 : 0 < cc2cell (cell2cc c) 0 0 := by rw [h0]; exact hv.a
  refine ⟨h01, h02, h12, h00, h11, lt_of_le_of_ne h22 fun e => ?_⟩
  have hdet : (cc2cell (cell2cc c)).det ≠ 0 := by
    obtain ⟨q, hq, e⟩ := rotation c h
    rw [e, det_mul]
    refine mul_ne_zero h fun hz => ?_
    have := congrArg det hq
    rw [det_mul, hz, zero_mul, det_one] at this
    exact zero_ne_one this
  apply hdet
  rw [det_fin_three, h01, h02, h12, ← e]
  ring

theorem orth (q : Cell) (h : q * q.transpose = 1) (x y : V3) : dot (vecMul x q) (vecMul y q) = dot x y := by
  have := orth_dot q.transpose (by rw [transpose_transpose]; exact _root_.mul_eq_one_comm.1 h) x y
  rwa [transpose_transpose] at this

theorem sq_pos_inj {a b : ℝ} (ha : 0 < a) (hb : 0 < b) (h : a * a = b * b) : a = b := by
  rcases mul_self_eq_mul_self_iff.1 h with h | h
  · exact h
  · linarith

/-- Cells of this form are determined by their scalar products. -/
theorem aligned_unique (a b : Cell) (ha : Aligned a) (hb : Aligned b) (h : ∀ i j, dot (a i) (a j) = dot (b i) (b j)) : a = b := by
  obtain ⟨a01, a02, a12, a0, a1, a2⟩ := ha
  obtain ⟨b01, b02, b12, b0, b1, b2⟩ := hb
  have e := fun i j => h i j
  simp only [dot3] at e
  have e00 := e 0 0
  have e10 := e 1 0
  have e20 := e 2 0
  have e11 := e 1 1
  have e21 := e 2 1
  have e22 := e 2 2
  rw [a01, a02, b01, b02] at e00 e10 e20
  rw [a12, b12] at e11 e21
  have h00 : a 0 0 = b 0 0 := sq_pos_inj a0 b0 (by linarith)
  have h10 : a 1 0 = b 1 0 := by
    rw [h00] at e10
    exact mul_right_cancel₀ b0.ne' (by linarith)
  have h20 : a 2 0 = b 2 0 := by
    rw [h00] at e20
    exact mul_right_cancel₀ b0.ne' (by linarith)
  have h11 : a 1 1 = b 1 1 := by rw [h10] at e11; exact sq_pos_inj a1 b1 (by linarith)
  have h21 : a 2 1 = b 2 1 := by
    rw [h20, h10, h11] at e21
    exact mul_right_cancel₀ b1.ne' (by linarith)
  have h22 : a 2 2 = b 2 2 := by rw [h20, h21] at e22; exact sq_pos_inj a2 b2 (by linarith)
  ext i j
  fin_cases i <;> fin_cases j <;> simp only [Fin.zero_eta, Fin.mk_one, Fin.reduceFinMk, *]

theorem coords_rotated {n : Nat} {S : Type} (st : St n S) (q : Cell) (h : cc2cell (cell2cc st.cell) = st.cell * q) :
    (realign st).coords = fun i => vecMul (st.coords i) q := by
  funext i
  unfold St.coords realign frac2cart
  simp only
  rw [h, vecMul_vecMul]

/-- **C101** The written structure is the structure of the user in another orientation (possibly mirrored): cell and coordinates are multiplied by
the same orthogonal matrix. -/
theorem C101_orientation {n : Nat} {S : Type} (st : St n S) (h : st.cell.det ≠ 0) :
    ∃ q : Cell, q * q.transpose = 1 ∧ (realign st).cell = st.cell * q ∧ (∀ i, (realign st).coords i = vecMul (st.coords i) q) ∧
      Aligned (realign st).cell ∧ (realign st).symbols = st.symbols := by
  obtain ⟨q, hq, e⟩ := rotation st.cell h
  exact ⟨q, hq, e, fun i => congrFun (coords_rotated st q e) i, aligned_new _ h, rfl⟩

theorem dist_eq (x y : V3) : pointDist x y = Cry.norm (fun k => x k - y k) := by
  unfold pointDist Cry.norm dot
  congr 1
  exact Finset.sum_congr rfl fun k _ => by ring

/-- **C101** All distances between atoms and periodic images of atoms stay. -/
theorem C101_distances {n : Nat} {S : Type} (st : St n S) (h : st.cell.det ≠ 0) (i j : Fin n) (t : Fin 3 → ℤ) :
    pointDist (image (realign st).cell t ((realign st).coords i)) ((realign st).coords j) =
      pointDist (image st.cell t (st.coords i)) (st.coords j) := by
  obtain ⟨q, hq, hc, hx, -, -⟩ := C101_orientation st h
  rw [dist_eq, dist_eq]
  have key : (fun k => image (realign st).cell t ((realign st).coords i) k - (realign st).coords j k) =
      vecMul (fun k => image st.cell t (st.coords i) k - st.coords j k) q := by
    rw [hx, hx, hc]
    unfold image
    funext k
    simp only [vecMul, dotProduct, Matrix.mul_apply, Fin.sum_univ_three]
    ring
  rw [key]
  unfold Cry.norm
  rw [orth q hq]

theorem fix_close (x : ℝ) : |fix x - x| ≤ 1 / 10 ^ 13 := by
  unfold fix
  split_ifs with h
  · simpa using h
  · simp

/-- **C101** The box of the file is the new cell, up to `1e-13`; its zeros are exact. -/
theorem C101_box {n : Nat} {S M : Type} [LinearOrder S] (mass : S → M) (st : St n S) (h : st.cell.det ≠ 0) (i j : Fin 3) :
    |lammpsBox (structData mass st).hi (structData mass st).tilt i j - (realign st).cell i j| ≤ 1 / 10 ^ 13 ∧
      0 < (structData mass st).hi i := by
  obtain ⟨h01, h02, h12, d0, d1, d2⟩ := aligned_new st.cell h
  have z : ∀ x : ℝ, |x - x| ≤ 1 / 10 ^ 13 := fun x => by simp
  have z' : ∀ x : ℝ, x = 0 → |0 - x| ≤ 1 / 10 ^ 13 := fun x e => by simp [e]
  constructor
  · fin_cases i <;> fin_cases j
    · exact z _
    · exact z' _ h01
    · exact z' _ h02
    · exact fix_close _
    · exact z _
    · exact z' _ h12
    · exact fix_close _
    · exact fix_close _
    · exact z _
  · fin_cases i
    · exact d0
    · exact d1
    · exact d2

/-- **C101** Line `i` of the section `Atoms` has number `i+1`, the type whose mass is that of the symbol of atom `i`, and the coordinates (up to
`1e-13`). -/
theorem C101_atoms {n : Nat} {S M : Type} [LinearOrder S] (mass : S → M) (st : St n S) (i : Fin n) :
    ∃ k x, (structData mass st).atoms[i.val]? = some (i.val + 1, k, x) ∧ 1 ≤ k ∧ k ≤ (structData mass st).ntypes ∧
      (structData mass st).masses[k - 1]? = some (k, mass (st.symbols i)) ∧ ∀ c, |x c - (realign st).coords i c| ≤ 1 / 10 ^ 13 := by
  obtain ⟨t, ht, htl, hts⟩ := C53_typat (List.ofFn st.symbols)
  obtain ⟨k, hk, h1, h2, h3⟩ := hts i.val (st.symbols i) (by simp)
  have hd := (C53_order (List.ofFn st.symbols) (st.symbols i) k).2 ⟨h1, h3⟩
  refine ⟨k, fun c => fix ((realign st).coords i c), ?_, h1, h2, ?_, fun c => fix_close _⟩
  · unfold structData
    simp only [List.getElem?_ofFn, Fin.is_lt, dite_true]
    rw [show (realign st).symbols = st.symbols from rfl, hd]
    rfl
  · unfold structData
    simp only [List.getElem?_map]
    rw [show (realign st).symbols = st.symbols from rfl, List.getElem?_zipIdx, h3]
    simp
    omega

/-- **C101** The counts in the file are those of its sections: one line per atom, one mass for each species, numbered 1, 2, ... -/
theorem C101_counts {n : Nat} {S M : Type} [LinearOrder S] (mass : S → M) (st : St n S) :
    (structData mass st).natoms = n ∧ (structData mass st).atoms.length = n ∧
      (structData mass st).masses.length = (structData mass st).ntypes ∧
      (structData mass st).masses.map Prod.fst = List.range' 1 (structData mass st).ntypes ∧
      (structData mass st).ntypes = (Finset.univ.image st.symbols).card := by
  refine ⟨rfl, by simp [structData], by simp [structData], ?_, ?_⟩
  · apply List.ext_getElem?
    intro i
    simp only [structData, List.map_map, List.getElem?_map, List.getElem?_zipIdx]
    by_cases hi : i < (symbolsUnique (List.ofFn (realign st).symbols)).length
    · rw [List.getElem?_eq_getElem hi, List.getElem?_range' hi]
      simp
      omega
    · rw [List.getElem?_eq_none (by omega), List.getElem?_eq_none (by simpa using hi)]
      rfl
  · have hu := C53_unique (List.ofFn st.symbols)
    have hn := uniq_nodup (List.ofFn st.symbols)
    have : (symbolsUnique (List.ofFn st.symbols)).toFinset = Finset.univ.image st.symbols := by
      ext s
      rw [List.mem_toFinset, hu.2, List.mem_ofFn]
      simp
    rw [← this, List.toFinset_card_of_nodup hn]
    rfl

/-! ## the calculator -/

/-- What the calculator returns, in terms of the right results: the energy is right, forces and stress are those in the orientation of the data
file. -/
theorem C101_results {n : Nat} {S : Type} (law : Law n) (hl : Covariant law.energy law.forces law.stress) (st : St n S) (h : st.cell.det ≠ 0) :
    ∃ q : Cell, q * q.transpose = 1 ∧ (realign st).cell = st.cell * q ∧
      lammpsResults law st = (law.energy st.cell st.coords, (fun i => vecMul (law.forces st.cell st.coords i) q),
        q.transpose * law.stress st.cell st.coords * q) := by
  obtain ⟨q, hq, e⟩ := rotation st.cell h
  refine ⟨q, hq, e, ?_⟩
  have e' : (realign st).cell = st.cell * q := e
  unfold lammpsResults
  simp only
  rw [coords_rotated st q e, e', hl.energy q hq, hl.forces q hq, hl.stress q hq]

/-- **C101** (where it holds) If the cell of the structure already has the form of LAMMPS, then the calculator returns energy, forces and stress
of the structure. For every cell, energy and pressure (the trace of the stress) are right. Missing: forces and stress for other cells. -/
theorem C101_forces_partial {n : Nat} {S : Type} (law : Law n) (hl : Covariant law.energy law.forces law.stress) (st : St n S)
    (h : st.cell.det ≠ 0) :
    (lammpsResults law st).1 = law.energy st.cell st.coords ∧
    (lammpsResults law st).2.2.trace = (law.stress st.cell st.coords).trace ∧
    (Aligned st.cell → lammpsResults law st = (law.energy st.cell st.coords, law.forces st.cell st.coords, law.stress st.cell st.coords)) := by
  obtain ⟨q, hq, e, hr⟩ := C101_results law hl st h
  refine ⟨by rw [hr], ?_, ?_⟩
  · rw [hr]
    simp only
    rw [trace_mul_cycle, hq, Matrix.one_mul]
  · intro ha
    have hc : (realign st).cell = st.cell := aligned_unique _ _ (aligned_new _ h) ha fun i j => C41_cell_metric _ h i j
    have hx : (realign st).coords = st.coords := by
      unfold St.coords
      rw [hc]
      rfl
    unfold lammpsResults
    simp only
    rw [hc, hx]

/-- Springs between all atoms. -/
noncomputable def springs (n : Nat) : Law n where
  energy _ x := ∑ i, ∑ j, dot (fun k => x j k - x i k) (fun k => x j k - x i k) / 4
  forces _ x := fun i k => ∑ j, (x j k - x i k)
  stress _ x := Matrix.of fun k l => ∑ i, ∑ j, (x j k - x i k) * (x j l - x i l)

theorem springs_covariant (n : Nat) : Covariant (springs n).energy (springs n).forces (springs n).stress := by
  have hd : ∀ (q : Cell) (x : Fin n → V3) (i j : Fin n), (fun k => vecMul (x j) q k - vecMul (x i) q k) = vecMul (fun k => x j k - x i k) q := by
    intro q x i j
    funext k
    simp only [vecMul, dotProduct, ← Finset.sum_sub_distrib]
    exact Finset.sum_congr rfl fun l _ => by ring
  constructor
  · intro q hq cell x
    simp only [springs]
    refine Finset.sum_congr rfl fun i _ => Finset.sum_congr rfl fun j _ => ?_
    rw [hd, orth q hq]
  · intro q hq cell x
    funext i k
    simp only [springs]
    have : ∀ j, vecMul (x j) q k - vecMul (x i) q k = vecMul (fun k => x j k - x i k) q k := fun j => congrFun (hd q x i j) k
    rw [Finset.sum_congr rfl fun j _ => this j]
    simp only [vecMul, dotProduct, Finset.sum_mul]
    exact Finset.sum_comm
  · intro q hq cell x
    ext k l
    simp only [springs, Matrix.mul_apply, Matrix.of_apply, transpose_apply]
    have : ∀ i j k, vecMul (x j) q k - vecMul (x i) q k = vecMul (fun k => x j k - x i k) q k := fun i j k => congrFun (hd q x i j) k
    simp only [this, vecMul, dotProduct, Fin.sum_univ_three, Finset.mul_sum, Finset.sum_mul, ← Finset.sum_add_distrib]
    refine Finset.sum_congr rfl fun i _ => Finset.sum_congr rfl fun j _ => ?_
    ring

/-- A cubic cell whose first vector is along y: two atoms, one at the origin and one halfway along the first vector. -/
noncomputable def exSt : St 2 Nat where
  symbols := fun _ => 1
  frac := ![![0, 0, 0], ![1 / 2, 0, 0]]
  cell := !![0, 1, 0; -1, 0, 0; 0, 0, 1]

theorem exSt_det : exSt.cell.det = 1 := by
  simp [exSt, det_fin_three]

theorem exSt_new : (realign exSt).cell = 1 := by
  apply aligned_unique
  · exact aligned_new _ (by rw [exSt_det]; norm_num)
  · constructor <;> simp
  · intro i j
    show dot (cc2cell (cell2cc exSt.cell) i) (cc2cell (cell2cc exSt.cell) j) = _
    rw [C41_cell_metric _ (by rw [exSt_det]; norm_num)]
    fin_cases i <;> fin_cases j <;> simp [exSt, dot3, Matrix.one_apply]

/-- **C101** is false: springs between two atoms along y. The force on the first atom is (0, 1/2, 0), the calculator returns (1/2, 0, 0). -/
theorem C101_forces_counterexample : (springs 2).forces exSt.cell exSt.coords 0 = ![0, 1 / 2, 0] ∧
    (lammpsResults (springs 2) exSt).2.1 0 = ![1 / 2, 0, 0] := by
  constructor
  · funext k
    fin_cases k <;> simp [springs, exSt, St.coords, frac2cart, vecMul, dotProduct, Fin.sum_univ_three, Fin.sum_univ_two]
  · have hc : (realign exSt).coords = fun i => exSt.frac i := by
      funext i
      unfold St.coords frac2cart
      rw [exSt_new, vecMul_one]
      rfl
    unfold lammpsResults
    simp only
    rw [hc]
    funext k
    fin_cases k <;> simp [springs, exSt, Fin.sum_univ_two]

/-- Non-vacuity: the example satisfies the hypotheses of the theorems above. -/
example : exSt.cell.det ≠ 0 ∧ Covariant (springs 2).energy (springs 2).forces (springs 2).stress :=
  ⟨by rw [exSt_det]; norm_num, springs_covariant 2⟩

example : Aligned (!![2, 0, 0; 1, 3, 0; 0, 1, 2] : Cell) := by
  constructor <;> simp

end Pwtools.LmpData
