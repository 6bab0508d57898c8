import Verif.Props.Lammps
import Verif.Props.Cp2k
/-!
# C89, C90: files whose tables do not have the expected shape are refused
-/
namespace Pwtools.Lmp
open Pwtools.Gr Pwtools.Spec
variable {K : Type} {num : Text → Option K} {t : Text} {cols : List Text} {na nb m : Nat}

/-- **C89**: atom rows with more or fewer numbers than there are names of columns: `ValueError`, no array. -/
theorem C89_columns (junk : K) (toInt : K → Int) (hc : ColsText t cols) (fs : List (Frame K)) (hf : ∀ f ∈ fs, f.Wf num na m nb) (h0 : fs ≠ []) (hna : 0 < na)
    (hm : m ≠ cols.length) (order : List (Text × Int)) :
    let file := fs.flatMap (Frame.lines na t)
    coords junk num file = .error .value ∧ coordsFrac junk num file = .error .value ∧ forces junk num file = .error .value ∧
    velocity junk num file = .error .value ∧ symbols junk toInt num file order = .error .value := by
  have h : dumpArr num (fs.flatMap (Frame.lines na t)) = .error .value := by
    obtain ⟨f, fs', rfl⟩ := List.exists_cons_of_ne_nil h0
    have hn : natoms ((f :: fs').flatMap (Frame.lines na t)) = .ok na := by
      rw [List.flatMap_cons]
      exact natoms_eq f _ (hf f (by simp)).step.1
    have hh : dumpHeader ((f :: fs').flatMap (Frame.lines na t)) = cols := by
      rw [List.flatMap_cons]
      exact header_eq hc f (hf f (by simp)) _
    have hg := atoms_rows (t := t) (f :: fs') hf []
    rw [List.append_nil, show grepItem na kAtoms [] = [] from rfl, List.append_nil, flatMap_fst] at hg
    obtain ⟨hl, hr⟩ := all_rows (f :: fs') hf
    have hw := fromString_map num _ _ (words_rows num _ fun r hm => (hr r hm).2.2)
    have hlen : ∀ r ∈ ((f :: fs').flatMap fun f => f.rows).map Prod.snd, r.length = m := by
      intro r hm
      obtain ⟨x, hx, rfl⟩ := List.mem_map.1 hm
      exact (hr x hx).2.1
    unfold dumpArr
    simp only [hn, hh, hg, hw, step_count hc.item (f :: fs') hf]
    rw [if_neg]
    rw [flatten_const_length _ _ hlen, List.length_map, hl]
    intro e
    exact hm (Nat.eq_of_mul_eq_mul_left (Nat.mul_pos (by simp) hna) e)
  simp only [coords, coordsFrac, forces, velocity, dump3d, symbols, h, and_self]

/-- **C89**: without a line with the number of atoms the parser finds no atoms, and no array at all. -/
theorem C89_no_natoms (junk : K) (toInt : K → Int) (dump : List Text) (h : ∀ l ∈ dump, ¬ Has "ITEM: NUMBER OF ATOMS".toList l)
    (order : List (Text × Int)) :
    natoms dump = .ok 0 ∧ (∃ e, coords junk num dump = .error e) ∧ (∃ e, coordsFrac junk num dump = .error e) ∧
    (∃ e, forces junk num dump = .error e) ∧ (∃ e, velocity junk num dump = .error e) ∧ ∃ e, symbols junk toInt num dump order = .error e := by
  have hn : natoms dump = .ok 0 := by
    unfold natoms
    have : dump.dropWhile (fun l => !isInfix kNum l) = [] := by
      clear order toInt junk
      induction dump with
      | nil => rfl
      | cons l dump ih =>
        have e : isInfix kNum l = false := has_false (h l (by simp))
        rw [List.dropWhile_cons, e, Bool.not_false, if_pos rfl]
        exact ih fun x hx => h x (by simp [hx])
    rw [this]
  have ha : ∃ e, dumpArr num dump = .error e := by
    unfold dumpArr
    rw [hn]
    simp only [if_true]
    split
    · exact ⟨_, rfl⟩
    · exact ⟨_, rfl⟩
  obtain ⟨e, ha⟩ := ha
  simp only [coords, coordsFrac, forces, velocity, dump3d, symbols, ha]
  exact ⟨hn, ⟨_, rfl⟩, ⟨_, rfl⟩, ⟨_, rfl⟩, ⟨_, rfl⟩, _, rfl⟩

/-- **C89**: a thermo table with fewer columns than names: `IndexError`, no column at all. -/
theorem C89_thermo_short (junk : K) (pre : List Text) (hp : ∀ l ∈ pre, ¬ Has "Step".toList l) (r0 : LogRun K) (rs : List (LogRun K))
    (hr : ∀ r ∈ r0 :: rs, r.Wf num m) (hcols : splitWs ("Step".toList ++ r0.header) = cols) (h2 : 2 ≤ m) (hm : m < cols.length)
    (hne : ∃ r ∈ r0 :: rs, r.rows ≠ []) (key : Text) :
    thermoCol junk num (pre ++ (r0 :: rs).flatMap LogRun.lines) key = .error .index := by
  have hfind : (pre ++ (r0 :: rs).flatMap LogRun.lines).find? (isInfix "Step".toList) = some ("Step".toList ++ r0.header) := by
    rw [List.find?_append, List.find?_eq_none.2 (fun l hl => by rw [has_false (hp l hl)]; simp), List.flatMap_cons]
    simp only [LogRun.lines, List.cons_append, List.find?_cons, has_prefix, Option.none_or]
  have hsed : (sedRange false (pre ++ (r0 :: rs).flatMap LogRun.lines)).filter keepLog = ((r0 :: rs).flatMap fun r => r.rows).map Prod.fst := by
    rw [sedRange_noise _ _ (fun l hl u hu => hp l hl ⟨[], u, by simpa using hu⟩), sed_runs (r0 :: rs) hr, List.map_flatMap]
  have hrow : ∀ x ∈ (r0 :: rs).flatMap fun r => r.rows, x.2.length = m ∧ (splitWs x.1).map num = x.2.map some := by
    intro x hx
    obtain ⟨r, hm, hx⟩ := List.mem_flatMap.1 hx
    exact ((hr r hm).rows x hx).2.2
  set R := (r0 :: rs).flatMap fun r => r.rows with hR
  have hRne : R ≠ [] := by
    obtain ⟨r, hm, h⟩ := hne
    obtain ⟨x, xs, e⟩ := List.exists_cons_of_ne_nil h
    intro hc
    have : x ∈ R := List.mem_flatMap.2 ⟨r, hm, by simp [e]⟩
    rw [hc] at this
    simp at this
  obtain ⟨x, xs, e⟩ := List.exists_cons_of_ne_nil hRne
  have hx := hrow x (by simp [e])
  have hload := loadRows_eq num _ _ m (by omega) (forall2_rows R fun r hm => (hrow r hm).2) (by
    intro v hv
    obtain ⟨y, hy, rfl⟩ := List.mem_map.1 hv
    exact (hrow y hy).1)
  have hflat : ((R.map Prod.fst).map splitWs).flatten ≠ [] := by
    intro hc
    rw [e] at hc
    simp only [List.map_cons, List.flatten_cons, List.append_eq_nil_iff] at hc
    have h5 := row_words x hx.2
    rw [hc.1] at h5
    simp at h5
    omega
  unfold thermoCol thermo
  have hk : (fun l => !isInfix "Step".toList l && !isInfix "Loop".toList l) = keepLog := rfl
  simp only [hfind, hk, hsed, hcols]
  unfold arr2d
  rw [if_neg hflat, hload]
  have hhead : ((R.map Prod.snd).headD []).length = m := by rw [e]; simpa using hx.1
  simp only [hhead]
  rw [if_neg (by omega)]
  simp only [hhead]
  rw [if_neg (by omega)]

/-! ### concrete cases -/

/-- Three names, four numbers per atom. -/
example : coords (-7) exNum ([exFrame1, exFrame2].flatMap (Frame.lines 2 "zu xu yu ".toList)) = .error .value :=
  (C89_columns (cols := ["zu".toList, "xu".toList, "yu".toList]) (-7) Rat.floor
    ⟨by decide +kernel, notHas_of _ _ (by decide +kernel), notHas_of _ _ (by decide +kernel), by decide⟩ [exFrame1, exFrame2] exFrame_wf (by simp)
    (by omega) (by decide) []).1

example : natoms ["ITEM: TIMESTEP".toList, "0".toList] = .ok 0 :=
  (C89_no_natoms (K := Rat) (num := exNum) (-7) Rat.floor _ (by
    intro l hl
    simp only [List.mem_cons, List.not_mem_nil, or_false] at hl
    rcases hl with h | h <;> rw [h] <;> exact notHas_of _ _ (by decide +kernel)) []).1

/-- Four names, three numbers per row. -/
def exRunShort : LogRun Rat := ⟨" Temp Volume Press".toList, [("0 300 10".toList, [0, 300, 10])], ["Loop time of 1".toList, "run 5".toList]⟩

example : temperature (-1) exNum ([exRunShort].flatMap LogRun.lines) = .error .index := by
  have := C89_thermo_short (num := exNum) (cols := ["Step".toList, "Temp".toList, "Volume".toList, "Press".toList]) (m := 3) (-1) []
    (by intro l hl; simp at hl) exRunShort []
    (by intro r hr; simp only [List.mem_singleton] at hr; rw [hr]; exact run_wf 3 _ (by decide +kernel) (by decide +kernel) (by decide +kernel))
    (by decide +kernel) (by omega) (by decide) ⟨exRunShort, by simp, by decide⟩ "Temp".toList
  simpa [temperature] using this

end Pwtools.Lmp

namespace Pwtools.Cp2k
open Pwtools.Gr Pwtools.Spec
variable {K : Type} {num : Text → Option K}

/-- **C90**: a cell or stress file without the eleven columns it should have: `IndexError`. -/
theorem C90_columns (junk : K) (file : List Text) (rows : List (List K)) (m : Nat) (hm : 0 < m) (h : IsTable num file rows)
    (hr : ∀ v ∈ rows, v.length = m) (h2 : rows ≠ []) (h10 : m ≤ 10) :
    cell junk num file = .error .index ∧ stress junk num file = .error .index := by
  have hload := loadtxt_eq h m hm hr
  have hh : (rows.headD []).length = m := by
    obtain ⟨v, rows', rfl⟩ := List.exists_cons_of_ne_nil h2
    exact hr v (by simp)
  have : cell junk num file = .error .index := by
    simp only [cell, hload]
    unfold repack
    rw [hh, if_neg]
    simp only [Bool.and_eq_true, decide_eq_true_eq, not_and]
    omega
  exact ⟨this, this⟩

/-- **C90**: an energy file without the column: `IndexError`. -/
theorem C90_ener_columns (junk : K) (file : List Text) (rows : List (List K)) (m : Nat) (hm : 0 < m) (h : IsTable num file rows)
    (hr : ∀ v ∈ rows, v.length = m) (h2 : rows ≠ []) :
    (m ≤ 2 → ekin junk num file = .error .index) ∧ (m ≤ 3 → temperature junk num file = .error .index) ∧
    (m ≤ 4 → etot junk num file = .error .index) ∧ (m ≤ 5 → econst junk num file = .error .index) := by
  have hload := loadtxt_eq h m hm hr
  have hh : (rows.headD []).length = m := by
    obtain ⟨v, rows', rfl⟩ := List.exists_cons_of_ne_nil h2
    exact hr v (by simp)
  have key : ∀ i, m ≤ i → enerCol junk num file i = .error .index := by
    intro i hi
    simp only [enerCol, hload]
    unfold column
    rw [hh, if_neg]
    simp only [Bool.and_eq_true, decide_eq_true_eq, not_and]
    omega
  exact ⟨key 2, key 3, key 4, key 5⟩

example : cell (-1) exNum ["0 0 4 0 0 1 5 0 0 0".toList, "1 1 4 0 0 1 5 0 0 0".toList] = .error .index :=
  (C90_columns (-1) _ [[0, 0, 4, 0, 0, 1, 5, 0, 0, 0], [1, 1, 4, 0, 0, 1, 5, 0, 0, 0]] 10 (by omega)
    (IsTable.row (by decide +kernel) (by decide +kernel) (IsTable.row (by decide +kernel) (by decide +kernel) IsTable.nil))
    (by decide) (by decide) (by omega)).1

end Pwtools.Cp2k
