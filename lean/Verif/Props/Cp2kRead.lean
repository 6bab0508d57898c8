import Verif.Spec.Cp2kRead
import Verif.Props.ReadMd
import Verif.Props.Cp2k
import Verif.Props.Cp2kOut
/-!
# C129: `read_cp2k_md` and `read_cp2k_relax` return what is in the files
-/
namespace Pwtools.Cp2kRead
open Gr Tr Units PwMd ReadMd Spec
variable {K : Type} {num : Text → Option K} {d : Cp2kData K} {fs : Files}

theorem xyz_file (symbols file : List Text) (vals : List (List (List K))) (h : IsXyz num symbols file vals) :
    Cp2k.xyz2arr num file = .ok vals ∧ Cp2k.symbols symbols.length file = symbols := by
  obtain ⟨fs, h0, rfl, hf, rfl⟩ := h
  refine ⟨Cp2k.C90_xyz fs (fun f hf' => (hf f hf').1) h0, ?_⟩
  obtain ⟨f, fs', rfl⟩ := List.exists_cons_of_ne_nil h0
  rw [Cp2k.C90_symbols fs' f fun f hf' => (hf f hf').1]
  exact (hf f (by simp)).2

theorem ifExists_ok {A : Type} (file : Option (List Text)) (f : List Text → Except PErr A) (v : A)
    (h : ∀ x, file = some x → f x = .ok v) : ifExists file f = .ok (if file = none then none else some v) := by
  cases file with
  | none => rfl
  | some x => simp [ifExists, h x rfl, Except.map]

theorem natoms_run (h : IsCp2kRun num d fs) : Cp2kOut.natoms fs.out = .ok (some (d.symbols.length : Int)) := by
  obtain ⟨A, l, B, e, hA, p, s, t, rfl, hs, ht⟩ := h.atoms
  rw [e]
  exact (Cp2kOut.C123_natoms A B p s t _ hA hs ht).1

theorem time_run (h : IsCp2kRun num d fs) : Cp2kOut.timestep num fs.out = .ok (some d.dt) := by
  obtain ⟨A, l, B, e, hA, p, s, w, t, rfl, hs, hw, hb, ht, hx⟩ := h.time
  rw [e]
  exact (Cp2kOut.C123_timestep num A B p s w t _ hA hs hw hb ht hx).1

theorem symbols_run (h : IsCp2kTables num d fs) : symbols (some d.symbols.length) fs =
    if fs.pos.or (fs.frc.or fs.vel) = none then none else some d.symbols := by
  unfold symbols
  rcases hp : fs.pos with _ | f
  · rcases hf : fs.frc with _ | f
    · rcases hv : fs.vel with _ | f
      · simp
      · simp [(xyz_file _ _ _ (h.vel f hv)).2]
    · simp [(xyz_file _ _ _ (h.frc f hf)).2]
  · simp [(xyz_file _ _ _ (h.pos f hp)).2]

theorem one_of {A : Type} {l : List A} (h0 : l ≠ []) (h2 : ¬ 2 ≤ l.length) : ∃ x, l = [x] := by
  match l, h0, h2 with
  | [x], _, _ => exact ⟨x, rfl⟩
  | _ :: _ :: _, _, h => simp at h

theorem ener_get (h : IsCp2kTables num d fs) (junk : K) (h2 : fs.ener ≠ none → 2 ≤ d.ener.length) :
    ifExists fs.ener (Cp2k.ekin junk num) = .ok (if fs.ener = none then none else some (d.ener.map EnerRow.ekin)) ∧
    ifExists fs.ener (Cp2k.temperature junk num) = .ok (if fs.ener = none then none else some (d.ener.map EnerRow.temp)) ∧
    ifExists fs.ener (Cp2k.etot junk num) = .ok (if fs.ener = none then none else some (d.ener.map EnerRow.epot)) ∧
    ifExists fs.ener (Cp2k.econst junk num) = .ok (if fs.ener = none then none else some (d.ener.map EnerRow.econst)) := by
  have := fun f (hf : fs.ener = some f) => Cp2k.C90_energies_partial junk f d.ener (h.ener f hf).1 (h2 (by simp [hf]))
  exact ⟨ifExists_ok _ _ _ fun f hf => (this f hf).1, ifExists_ok _ _ _ fun f hf => (this f hf).2.1,
    ifExists_ok _ _ _ fun f hf => (this f hf).2.2.1, ifExists_ok _ _ _ fun f hf => (this f hf).2.2.2⟩

theorem cell_get (h : IsCp2kTables num d fs) (junk : K) (h2 : fs.cell ≠ none → 2 ≤ d.cells.length) :
    ifExists fs.cell (Cp2k.cell junk num) = .ok (if fs.cell = none then none else some (d.cells.map CellRow.cell)) :=
  ifExists_ok _ _ _ fun f hf => (Cp2k.C90_cell_partial junk f d.cells (h.cells f hf).1 (h2 (by simp [hf]))).1

theorem stress_get (h : IsCp2kTables num d fs) (junk : K) (h2 : fs.stress ≠ none → 2 ≤ d.stress.length) :
    ifExists fs.stress (Cp2k.stress junk num) = .ok (if fs.stress = none then none else some (d.stress.map CellRow.cell)) :=
  ifExists_ok _ _ _ fun f hf => Cp2k.C90_stress_partial junk f d.stress (h.stress f hf).1 (h2 (by simp [hf]))

theorem xyz_get (h : IsCp2kTables num d fs) :
    ifExists fs.pos (Cp2k.xyz2arr num) = .ok (if fs.pos = none then none else some d.pos) ∧
    ifExists fs.vel (Cp2k.xyz2arr num) = .ok (if fs.vel = none then none else some d.vel) :=
  ⟨ifExists_ok _ _ _ fun f hf => (xyz_file _ _ _ (h.pos f hf)).1, ifExists_ok _ _ _ fun f hf => (xyz_file _ _ _ (h.vel f hf)).1⟩

theorem forces_get (h : IsCp2kTables num d fs) (hn : Cp2kOut.natoms fs.out = .ok (some (d.symbols.length : Int))) :
    forces num fs = .ok (if d.frc = [] then none else some d.frc) := by
  unfold forces
  cases hf : fs.frc with
  | none => exact Cp2kOut.C123_forces num _ _ _ (List.length_pos_of_ne_nil h.atoms0) hn (h.frcOut hf)
  | some f =>
    have hx := h.frc f hf
    have h0 : d.frc ≠ [] := by
      obtain ⟨fr, h0, -, -, e⟩ := hx
      rw [← e]
      simpa using h0
    simp only [(xyz_file _ _ _ hx).1, Except.map, if_neg h0]

theorem parse_eq (h : IsCp2kRun num d fs) (h2 : TwoRows d fs) (junk : K) : ∃ attrs, parse junk num fs = .ok attrs ∧
    attrs .cell = (if fs.cell = none then none else some (.arr (d.cells.map CellRow.cell))) ∧
    attrs .coords = (if fs.pos = none then none else some (.arr d.pos)) ∧
    attrs .ekin = (if fs.ener = none then none else some (.vec (d.ener.map EnerRow.ekin))) ∧
    attrs .etot = (if fs.ener = none then none else some (.vec (d.ener.map EnerRow.epot))) ∧
    attrs .temperature = (if fs.ener = none then none else some (.vec (d.ener.map EnerRow.temp))) ∧
    attrs .forces = (if d.frc = [] then none else some (.arr d.frc)) ∧
    attrs .stress = (if fs.stress = none then none else some (.arr (d.stress.map CellRow.cell))) ∧
    attrs .timestep = some (.num d.dt) ∧
    attrs .velocity = (if fs.vel = none then none else some (.arr d.vel)) ∧
    attrs (.other "symbols") = (if fs.pos.or (fs.frc.or fs.vel) = none then none else some (.words d.symbols)) ∧
    attrs (.other "natoms") = some (.nat d.symbols.length) := by
  have ht := h.tables
  have hn := natoms_run h
  obtain ⟨e1, e2, e3, e4⟩ := ener_get ht junk h2.ener
  obtain ⟨x1, x2⟩ := xyz_get ht
  unfold parse
  rw [cell_get ht junk h2.cells]
  simp only [Except.bind]
  rw [x1, e4, e1, e3, forces_get ht hn, hn, stress_get ht junk h2.stress, e2, time_run h, x2]
  refine ⟨_, rfl, ?_, ?_, ?_, ?_, ?_, ?_, ?_, rfl, ?_, ?_, ?_⟩
  · simp only; split <;> rfl
  · simp only; split <;> rfl
  · simp only; split <;> rfl
  · simp only; split <;> rfl
  · simp only; split <;> rfl
  · simp only; split <;> rfl
  · simp only; split <;> rfl
  · simp only; split <;> rfl
  · simp only [if_true, Option.map_some, Int.toNat_natCast, symbols_run ht]
    split <;> rfl
  · simp

/-- A cell per row is not extended. -/
theorem cells_kept (n : Nat) (cs : List (List (List K))) (h : 2 ≤ cs.length) : (∀ x, Val.arr cs ≠ .arr [x]) ∧ ∀ x, Val.arr cs ≠ .mat x := by
  constructor
  · intro x hx
    injection hx with hx
    rw [hx] at h
    simp at h
  · intro x hx
    cases hx

theorem scale_scaled [Mul K] (s : K) (cs : List (List (List K))) : Val.scale s (.arr cs) = .arr (scaled s cs) := rfl

section
variable [Field K] [DecidableEq K]

/-- **C129** `read_cp2k_md`, whatever parsers have been used before: the contents of the files which exist, in order, times the factors of the user, or else
in eV, Angstrom, eV/Angstrom, GPa, fs. Partial: the tables need two rows, see `C129_single_row_counterexample`. -/
theorem C129_traj_partial (h : IsCp2kRun num d fs) (h2 : TwoRows d fs) (c : Consts K) (hist : List (Kind × UDict K)) (user : UDict K) (g : Getters K (Val K))
    (junk : K) :
    ∃ tr, readCp2kMd c hist user g junk num fs = .ok tr ∧ tr.attr (.other "natoms") = some (.nat d.symbols.length) ∧
      (fs.pos ≠ none ∨ fs.frc ≠ none ∨ fs.vel ≠ none → tr.attr (.other "symbols") = some (.words d.symbols)) ∧
      (fs.pos ≠ none → tr.attr (.other "nstep") = some (.nat d.pos.length) ∧ tr.attr .coords = some (.arr (scaled ((user .length).getD 1) d.pos))) ∧
      (fs.cell ≠ none → tr.attr .cell = some (.arr (scaled ((user .length).getD 1) (d.cells.map CellRow.cell)))) ∧
      (fs.stress ≠ none → tr.attr .stress = some (.arr (scaled ((user .stress).getD (1 / 10000)) (d.stress.map CellRow.cell)))) ∧
      (fs.ener ≠ none → tr.attr .etot = some (.vec (d.ener.map fun r => r.epot * (user .energy).getD (c.Ha / c.eV))) ∧
        tr.attr .ekin = some (.vec (d.ener.map fun r => r.ekin * (user .energy).getD (c.Ha / c.eV))) ∧
        tr.attr .temperature = some (.vec (d.ener.map fun r => r.temp * (user .temperature).getD 1))) ∧
      (d.frc ≠ [] → tr.attr .forces = some (.arr (scaled ((user .forces).getD (c.Ha / c.eV * c.Ang / c.Bohr)) d.frc))) ∧
      (fs.vel ≠ none → tr.attr .velocity = some (.arr (scaled ((user .velocity).getD (c.Bohr / c.Ang * c.fs / c.thart)) d.vel))) ∧
      tr.attr .timestep = some (.num (d.dt * (user .time).getD 1)) := by
  obtain ⟨attrs, p0, p1, p2, p3, p4, p5, p6, p7, p8, p9, p10, p11⟩ := parse_eq h h2 junk
  obtain ⟨tr, t0, t1, t2, t3⟩ := toTraj_attr c hist .cp2kMd user g attrs none (by simp)
  have f := fun q => units_of c hist .cp2kMd user q (by cases q <;> rfl) (by simp)
  simp only [f, factor] at t1 t2 t3
  refine ⟨tr, ?_, ?_, fun e => ?_, fun e => ⟨?_, ?_⟩, fun e => ?_, fun e => ?_, fun e => ⟨?_, ?_, ?_⟩, fun e => ?_, fun e => ?_, ?_⟩
  · unfold readCp2kMd
    rw [p0]
    simp only [t0]
  · rw [t1 _ _ (by simp) (by simp) p11]
    rfl
  · rw [t1 (.other "symbols") (.words d.symbols) (by simp) (by simp) (by
      rw [p10, if_neg]
      rcases e with e | e | e
      · simp [e]
      · simp [e]
      · simp [e])]
    rfl
  · exact (t3 d.pos.length (.inl ⟨d.pos, by rw [p2, if_neg e], rfl⟩)).1
  · rw [t1 .coords (.arr d.pos) (by simp) (by simp) (by rw [p2, if_neg e])]
    simp only [unitFactor, f, factor]
    rfl
  · obtain ⟨k, k1, k2⟩ := t2 _ (by rw [p1, if_neg e])
    rw [k2, scale_scaled, k1]
    · exact (cells_kept 0 _ (by simpa [scaled] using h2.cells e)).1
    · exact (cells_kept 0 _ (by simpa [scaled] using h2.cells e)).2
  · rw [t1 .stress _ (by simp) (by simp) (by rw [p7, if_neg e])]
    simp only [unitFactor, f, factor]
    rfl
  · rw [t1 .etot _ (by simp) (by simp) (by rw [p4, if_neg e])]
    simp only [unitFactor, f, factor, Val.scale, List.map_map]
    rfl
  · rw [t1 .ekin _ (by simp) (by simp) (by rw [p3, if_neg e])]
    simp only [unitFactor, f, factor, Val.scale, List.map_map]
    rfl
  · rw [t1 .temperature _ (by simp) (by simp) (by rw [p5, if_neg e])]
    simp only [unitFactor, f, factor, Val.scale, List.map_map]
    rfl
  · rw [t1 .forces _ (by simp) (by simp) (by rw [p6, if_neg e])]
    simp only [unitFactor, f, factor]
    rfl
  · rw [t1 .velocity _ (by simp) (by simp) (by rw [p9, if_neg e])]
    simp only [unitFactor, f, factor]
    rfl
  · rw [t1 .timestep _ (by simp) (by simp) p8]
    simp only [unitFactor, f, factor, Val.scale]

/-- **C129** For a run which writes all files in every step: entry `i` of each attribute belongs to step `i`. -/
theorem C129_steps_partial (symbols : List Text) (dt : K) (steps : List (Cp2kStep K)) (h : IsCp2kRun num (.ofSteps symbols dt steps) fs) (h2 : 2 ≤ steps.length)
    (hall : fs.cell ≠ none ∧ fs.ener ≠ none ∧ fs.stress ≠ none ∧ fs.pos ≠ none ∧ fs.frc ≠ none ∧ fs.vel ≠ none)
    (c : Consts K) (hist : List (Kind × UDict K)) (g : Getters K (Val K)) (junk : K) :
    ∃ tr co ce st fo ve et ek te, readCp2kMd c hist (fun _ => none) g junk num fs = .ok tr ∧ tr.attr (.other "nstep") = some (.nat steps.length) ∧
      tr.attr .coords = some (.arr co) ∧ tr.attr .cell = some (.arr ce) ∧ tr.attr .stress = some (.arr st) ∧ tr.attr .forces = some (.arr fo) ∧
      tr.attr .velocity = some (.arr ve) ∧ tr.attr .etot = some (.vec et) ∧ tr.attr .ekin = some (.vec ek) ∧ tr.attr .temperature = some (.vec te) ∧
      (∀ n ∈ [co.length, ce.length, st.length, fo.length, ve.length, et.length, ek.length, te.length], n = steps.length) ∧
      ∀ (i : Nat) (x : Cp2kStep K), steps[i]? = some x →
        co[i]? = some x.pos ∧ ce[i]? = some x.cell.cell ∧ st[i]? = some (x.stress.cell.map fun r => r.map (· * (1 / 10000))) ∧
        fo[i]? = some (x.frc.map fun r => r.map (· * (c.Ha / c.eV * c.Ang / c.Bohr))) ∧
        ve[i]? = some (x.vel.map fun r => r.map (· * (c.Bohr / c.Ang * c.fs / c.thart))) ∧
        et[i]? = some (x.ener.epot * (c.Ha / c.eV)) ∧ ek[i]? = some (x.ener.ekin * (c.Ha / c.eV)) ∧ te[i]? = some x.ener.temp := by
  obtain ⟨a1, a2, a3, a4, a5, a6⟩ := hall
  obtain ⟨tr, t0, -, -, t1, t2, t3, t4, t5, t6, -⟩ := C129_traj_partial h
    ⟨fun _ => by simpa [Cp2kData.ofSteps] using h2, fun _ => by simpa [Cp2kData.ofSteps] using h2, fun _ => by simpa [Cp2kData.ofSteps] using h2⟩
    c hist (fun _ => none) g junk
  have hne : steps ≠ [] := by
    rintro rfl
    simp at h2
  refine ⟨tr, _, _, _, _, _, _, _, _, t0, ?_, (t1 a4).2, t2 a1, t3 a3, t5 (by simpa [Cp2kData.ofSteps] using hne), t6 a6, (t4 a2).1, (t4 a2).2.1, (t4 a2).2.2, ?_,
    fun i x hx => ?_⟩
  · simpa [Cp2kData.ofSteps] using (t1 a4).1
  · simp [scaled, Cp2kData.ofSteps]
  · simp [scaled, Cp2kData.ofSteps, hx]

/-- **C129**, disagreement: one row in a table which exists (a run of one step), and the run cannot be read. -/
theorem C129_single_row_counterexample (h : IsCp2kRun num d fs) (h1 : ¬ TwoRows d fs) (c : Consts K) (hist : List (Kind × UDict K)) (user : UDict K)
    (g : Getters K (Val K)) (junk : K) : readCp2kMd c hist user g junk num fs = .error (.inl .index) := by
  have ht := h.tables
  have key : parse junk num fs = .error .index := by
    unfold parse
    by_cases hc : fs.cell ≠ none → 2 ≤ d.cells.length
    · rw [cell_get ht junk hc]
      simp only [Except.bind]
      rw [(xyz_get ht).1]
      simp only
      by_cases he : fs.ener ≠ none → 2 ≤ d.ener.length
      · obtain ⟨e1, e2, e3, e4⟩ := ener_get ht junk he
        rw [e4, e1, e3, forces_get ht (natoms_run h), natoms_run h]
        simp only
        have hs : ¬ (fs.stress ≠ none → 2 ≤ d.stress.length) := fun hs => h1 ⟨he, hc, hs⟩
        rw [_root_.not_imp] at hs
        cases hf : fs.stress with
        | none => exact absurd hf hs.1
        | some f =>
          obtain ⟨t1, t2⟩ := ht.stress f hf
          obtain ⟨r, hr⟩ := one_of t2 hs.2
          rw [hr] at t1
          have hload := Cp2k.loadtxt_eq t1 11 (by omega) (by simp [CellRow.row])
          simp [ifExists, Cp2k.stress, Cp2k.cell, hload, Cp2k.repack, Cp2k.is2d, Except.map]
      · rw [_root_.not_imp] at he
        cases hf : fs.ener with
        | none => exact absurd hf he.1
        | some f =>
          obtain ⟨t1, t2⟩ := ht.ener f hf
          obtain ⟨r, hr⟩ := one_of t2 he.2
          rw [hr] at t1
          simp [ifExists, (Cp2k.C90_single_step_counterexample junk f r t1).2.2.2, Except.map]
    · rw [_root_.not_imp] at hc
      cases hf : fs.cell with
      | none => exact absurd hf hc.1
      | some f =>
        obtain ⟨t1, t2⟩ := ht.cells f hf
        obtain ⟨r, hr⟩ := one_of t2 hc.2
        rw [hr] at t1
        simp [ifExists, (Cp2k.C90_single_cell_counterexample junk f r t1).1, Except.map, Except.bind]
  unfold readCp2kMd
  rw [key]

/-! ## relaxations -/

omit [Field K] [DecidableEq K] in
theorem run_type {run : Text} (h : FirstLine RunTypeLike RunTypeLine fs.out run) : Cp2kOut.runType fs.out = run := by
  obtain ⟨A, l, B, e, hA, p, q, s, t, rfl, hs, hw, hb, ht⟩ := h
  rw [e]
  exact Cp2kOut.C123_run_type A B p q s run t hA hs hw hb ht

omit [Field K] [DecidableEq K] in
theorem relax_natoms {run : Text} {es : List K} (h : IsCp2kRelax num d run es fs) : relaxNatoms fs = .ok (some (d.symbols.length : Int)) := by
  obtain ⟨f, hf, fr, h0, rfl, hw, -⟩ := h.pos
  obtain ⟨x, fr, rfl⟩ := List.exists_cons_of_ne_nil h0
  unfold relaxNatoms
  rw [hf]
  exact Cp2k.int_count x (hw x (by simp))

omit [Field K] [DecidableEq K] in
theorem relax_forces {run : Text} {es : List K} (h : IsCp2kRelax num d run es fs) : relaxForces num fs = .ok (if d.frc = [] then none else some d.frc) := by
  unfold relaxForces
  have ht := h.tables
  cases hf : fs.frc with
  | none =>
    simp only [relax_natoms h]
    exact Cp2kOut.C123_forces_of num _ _ _ (List.length_pos_of_ne_nil ht.atoms0) (ht.frcOut hf)
  | some f =>
    have hx := ht.frc f hf
    have h0 : d.frc ≠ [] := by
      obtain ⟨fr, h0, -, -, e⟩ := hx
      rw [← e]
      simpa using h0
    simp only [(xyz_file _ _ _ hx).1, Except.map, if_neg h0]

omit [Field K] [DecidableEq K] in
theorem getLast_row (cs : List (CellRow K)) (h : cs ≠ []) : [(cs.map CellRow.cell).getLastD []] = (cs.getLast?.map CellRow.cell).toList := by
  rw [List.getLastD_eq_getLast?, List.getLast?_map]
  obtain ⟨x, hx⟩ : ∃ x, cs.getLast? = some x := ⟨_, List.getLast?_eq_some_getLast h⟩
  simp [hx]

omit [Field K] [DecidableEq K] in
/-- The cells: those of the table; after an optimisation of the cell, the last one again for the last frame. -/
theorem relax_cell {run : Text} {es : List K} (h : IsCp2kRelax num d run es fs) (h2 : TwoRows d fs) (junk : K) :
    relaxCell junk num fs = if fs.cell = none then .ok none else
      if run = "CELL_OPT".toList then
        if d.pos.length = d.cells.length + 1 then .ok (some (d.cells.map CellRow.cell ++ (d.cells.getLast?.map CellRow.cell).toList)) else .error .offset
      else .ok (some (d.cells.map CellRow.cell)) := by
  unfold relaxCell
  cases hf : fs.cell with
  | none => rfl
  | some f =>
    have hc := h.tables.cells f hf
    have hcell := (Cp2k.C90_cell_partial junk f d.cells hc.1 (h2.cells (by simp [hf]))).1
    simp only [hcell, run_type h.runLine]
    obtain ⟨p, hp, -⟩ := h.pos
    have hx := (xyz_get h.tables).1
    by_cases hr : run = "CELL_OPT".toList
    · rw [if_pos hr, hx]
      simp only [hp, if_pos hr, if_neg (Option.some_ne_none _), Cp2k.relaxCell, hcell, if_true, List.length_map]
      rw [getLast_row _ hc.2]
    · rw [if_neg hr, if_neg (Option.some_ne_none _), if_neg hr]
      simp only [Cp2k.relaxCell, hcell, Bool.false_eq_true, if_false]

omit [Field K] [DecidableEq K] in
theorem relax_parse {run : Text} {es : List K} (h : IsCp2kRelax num d run es fs) (h2 : TwoRows d fs) (junk : K) (cs : Option (List (List (List K))))
    (hcs : relaxCell junk num fs = .ok cs) : ∃ attrs, parseRelax junk num fs = .ok attrs ∧
    attrs .cell = cs.map .arr ∧ attrs .coords = some (.arr d.pos) ∧ attrs .etot = some (.vec es) ∧
    attrs .forces = (if d.frc = [] then none else some (.arr d.frc)) ∧
    attrs .stress = (if fs.stress = none then none else some (.arr (d.stress.map CellRow.cell))) ∧
    attrs (.other "symbols") = some (.words d.symbols) ∧ attrs (.other "natoms") = some (.nat d.symbols.length) := by
  have ht := h.tables
  obtain ⟨p, hp, fr, h0, hfr, hw, -, hes⟩ := h.pos
  obtain ⟨e1, e2, e3, e4⟩ := ener_get ht junk h2.ener
  obtain ⟨x1, x2⟩ := xyz_get ht
  have het : relaxEtot num fs = .ok (some es) := by
    unfold relaxEtot
    rw [hp]
    simp only
    rw [hfr]
    exact Cp2k.C90_relax_etot fr hw h0 es hes
  have htm : Cp2kOut.timestep num fs.out = .ok none := by
    unfold Cp2kOut.timestep
    rw [List.find?_eq_none.2 fun l hl => by simpa using PwHead.infix_false (h.noTime l hl)]
    rfl
  unfold parseRelax
  rw [hcs, x1, e4, e1, het, relax_forces h, relax_natoms h, stress_get ht junk h2.stress, e2, htm, x2]
  simp only [Except.bind, lift]
  refine ⟨_, rfl, rfl, ?_, rfl, ?_, ?_, ?_, ?_⟩
  · simp [hp]
  · simp only; split <;> rfl
  · simp only; split <;> rfl
  · simp only [if_true, Option.map_some, Int.toNat_natCast, symbols_run ht]
    simp [hp]
  · simp

/-- **C129** `read_cp2k_relax`: positions and energies of all frames, forces and stress, in standard units. After an optimisation of the cell, there is one cell
less than frames; the last frame gets the last cell. -/
theorem C129_relax_partial {run : Text} {es : List K} (h : IsCp2kRelax num d run es fs) (h2 : TwoRows d fs)
    (hlen : run = "CELL_OPT".toList → d.pos.length = d.cells.length + 1) (c : Consts K) (hist : List (Kind × UDict K)) (user : UDict K)
    (g : Getters K (Val K)) (junk : K) :
    ∃ tr, readCp2kRelax c hist user g junk num fs = .ok tr ∧ tr.attr (.other "natoms") = some (.nat d.symbols.length) ∧
      tr.attr (.other "symbols") = some (.words d.symbols) ∧ tr.attr (.other "nstep") = some (.nat d.pos.length) ∧
      tr.attr .coords = some (.arr (scaled ((user .length).getD 1) d.pos)) ∧
      es.length = d.pos.length ∧ tr.attr .etot = some (.vec (es.map (· * (user .energy).getD (c.Ha / c.eV)))) ∧
      (fs.cell ≠ none → run = "CELL_OPT".toList → ∀ init last, d.cells = init ++ [last] →
        tr.attr .cell = some (.arr (scaled ((user .length).getD 1) ((init ++ [last, last]).map CellRow.cell)))) ∧
      (fs.cell ≠ none → run ≠ "CELL_OPT".toList → tr.attr .cell = some (.arr (scaled ((user .length).getD 1) (d.cells.map CellRow.cell)))) ∧
      (d.frc ≠ [] → tr.attr .forces = some (.arr (scaled ((user .forces).getD (c.Ha / c.eV * c.Ang / c.Bohr)) d.frc))) ∧
      (fs.stress ≠ none → tr.attr .stress = some (.arr (scaled ((user .stress).getD (1 / 10000)) (d.stress.map CellRow.cell)))) := by
  have hce := relax_cell h h2 junk
  obtain ⟨cs, hcs⟩ : ∃ cs, relaxCell junk num fs = .ok cs := by
    rw [hce]
    split
    · exact ⟨_, rfl⟩
    · split
      · rename_i hr
        rw [if_pos (hlen hr)]
        exact ⟨_, rfl⟩
      · exact ⟨_, rfl⟩
  obtain ⟨attrs, p0, p1, p2, p3, p4, p5, p6, p7⟩ := relax_parse h h2 junk cs hcs
  obtain ⟨tr, t0, t1, t2, t3⟩ := toTraj_attr c hist .cp2kRelax user g attrs none (by simp)
  have f := fun q => units_of c hist .cp2kRelax user q (by cases q <;> rfl) (by simp)
  simp only [f, factor] at t1 t2 t3
  have hcell : ∀ v, 2 ≤ v.length → cs = some v → tr.attr .cell = some (.arr (scaled ((user .length).getD 1) v)) := by
    intro v hv e
    obtain ⟨k, k1, k2⟩ := t2 _ (by rw [p1, e]; rfl)
    rw [k2, scale_scaled, k1]
    · exact (cells_kept 0 _ (by simpa [scaled] using hv)).1
    · exact (cells_kept 0 _ (by simpa [scaled] using hv)).2
  refine ⟨tr, ?_, ?_, ?_, (t3 d.pos.length (.inl ⟨d.pos, p2, rfl⟩)).1, ?_, ?_, ?_, fun e hr init last hl => ?_, fun e hr => ?_, fun e => ?_, fun e => ?_⟩
  · unfold readCp2kRelax
    rw [p0]
    simp only [t0]
  · rw [t1 _ _ (by simp) (by simp) p7]
    rfl
  · rw [t1 _ _ (by simp) (by simp) p6]
    rfl
  · rw [t1 .coords _ (by simp) (by simp) p2]
    simp only [unitFactor, f, factor]
    rfl
  · obtain ⟨p, hp, fr, h0, hfr, hw, hv, hes⟩ := h.pos
    rw [← hv, List.length_map, hes.length_eq]
  · rw [t1 .etot _ (by simp) (by simp) p3]
    simp only [unitFactor, f, factor, Val.scale]
  · rw [hce, if_neg e, if_pos hr, if_pos (hlen hr)] at hcs
    injection hcs with hcs
    refine hcell _ ?_ (by rw [← hcs, hl]; simp)
    have := h2.cells e
    rw [hl] at this
    simp at this ⊢
  · rw [hce, if_neg e, if_neg hr] at hcs
    injection hcs with hcs
    exact hcell _ (by simpa using h2.cells e) hcs.symm
  · rw [t1 .forces _ (by simp) (by simp) (by rw [p4, if_neg e])]
    simp only [unitFactor, f, factor]
    rfl
  · rw [t1 .stress _ (by simp) (by simp) (by rw [p5, if_neg e])]
    simp only [unitFactor, f, factor]
    rfl

/-- **C129** An optimisation of the cell with another number of cells is refused. -/
theorem C129_relax_refused {run : Text} {es : List K} (h : IsCp2kRelax num d run es fs) (h2 : TwoRows d fs) (hc : fs.cell ≠ none)
    (hr : run = "CELL_OPT".toList) (hlen : d.pos.length ≠ d.cells.length + 1) (c : Consts K) (hist : List (Kind × UDict K)) (user : UDict K)
    (g : Getters K (Val K)) (junk : K) : readCp2kRelax c hist user g junk num fs = .error (.inl .offset) := by
  have := relax_cell h h2 junk
  rw [if_neg hc, if_pos hr, if_neg hlen] at this
  unfold readCp2kRelax parseRelax
  rw [this]
  rfl

end

/-! ## Non-vacuity, and files which are written in different steps -/

/-- The output file of a run. -/
def exOut : List Text := [" MD| Time Step [fs]    2", " - Number of atoms:   2", " GLOBAL| Run type   CELL_OPT"].map String.toList

theorem has_false (w l : Text) (h : isInfix w l = false) : ¬ HasText w l := fun hc => by
  rw [(Cp2kOut.has_iff _ _).2 hc] at h
  cases h

theorem exNoForces : IsForceOut Cp2k.exNum 2 exOut [] := by
  have nb : ∀ l, Scf.blankLine l = false → ¬ BlankText l := fun l h hc => by
    rw [Scf.blankLine, List.all_eq_true.2 hc] at h
    cases h
  refine ⟨exOut, exOut, [], .hit ⟨rfl, nb _ (by decide +kernel)⟩ (.hit ⟨rfl, nb _ (by decide +kernel)⟩ (.hit ⟨rfl, nb _ (by decide +kernel)⟩ .nil)), by simp, ?_, .nil⟩
  intro l hl
  refine has_false _ _ ?_
  revert l
  decide +kernel

/-- Two frames, or one frame only. -/
def exPos (n : Nat) : List Text := (List.replicate n (Cp2k.exXyz "0".toList "-5".toList [])).flatMap XyzFrame.lines

theorem exPos_xyz (n : Nat) (hn : 0 < n) : IsXyz Cp2k.exNum ["H".toList, "O".toList] (exPos n) (List.replicate n [[1, 2, 3], [4, 5, 6]]) := by
  refine ⟨_, by simpa using hn.ne', rfl, ?_, by simp [Cp2k.exXyz]⟩
  intro f hf
  rw [List.eq_of_mem_replicate hf]
  exact ⟨Cp2k.exXyz_wf _ _ _, rfl⟩

/-- A run with tables of two rows and `n` frames. -/
def exFiles (n : Nat) : Files := ⟨exOut, none, some Cp2k.exEner, none, some (exPos n), none, none⟩

def exData (n : Nat) : Cp2kData Rat := ⟨["H".toList, "O".toList], 2, [⟨0, 0, 1, 300, -5, -4, 1⟩, ⟨1, 1, 2, 310, -6, -4, 1⟩], [], [],
  List.replicate n [[1, 2, 3], [4, 5, 6]], [], []⟩

theorem exRun (n : Nat) (hn : 0 < n) : IsCp2kRun Cp2k.exNum (exData n) (exFiles n) where
  tables :=
    { atoms0 := by simp [exData]
      ener := fun f hf => by
        have : Cp2k.exEner = f := by simpa [exFiles] using hf
        rw [← this]
        exact ⟨Cp2k.exEner_table, by simp [exData]⟩
      cells := fun f hf => by simp [exFiles] at hf
      stress := fun f hf => by simp [exFiles] at hf
      pos := fun f hf => by
        have : exPos n = f := by simpa [exFiles] using hf
        rw [← this]
        exact exPos_xyz n hn
      frc := fun f hf => by simp [exFiles] at hf
      vel := fun f hf => by simp [exFiles] at hf
      frcOut := fun _ => exNoForces }
  atoms := ⟨exOut.take 1, _, exOut.drop 2, rfl, fun l hl => has_false _ _ (by revert l; decide +kernel), " - ".toList, "   ".toList, [],
    (by decide +kernel : _ = " - ".toList ++ "Number of atoms:".toList ++ ("   ".toList ++ strNat 2 ++ [])), by unfold BlankText; decide +kernel, by simp [BlankText]⟩
  time := ⟨[], _, exOut.drop 1, rfl, by simp, " ".toList, "    ".toList, "2".toList, [], by decide +kernel, by unfold BlankText; decide +kernel,
    by unfold WordText; decide +kernel, by decide +kernel,
    by simp [BlankText], (by decide +kernel : Cp2k.exNum "2".toList = some 2)⟩

theorem exTwo (n : Nat) : TwoRows (exData n) (exFiles n) := ⟨fun _ => by simp [exData], fun h => absurd rfl h, fun h => absurd rfl h⟩

/-- **C129**, disagreement: files which are written in different steps. With positions in every second step, the trajectory has one step and two energies,
without any error. -/
theorem C129_intervals_counterexample (c : Consts Rat) (hist : List (Kind × UDict Rat)) (g : Getters Rat (Val Rat)) :
    ∃ (fs : Files) (d : Cp2kData Rat) (tr : UObj Rat (Val Rat)) (es : List Rat), IsCp2kRun Cp2k.exNum d fs ∧
      readCp2kMd c hist (fun _ => none) g (-1) Cp2k.exNum fs = .ok tr ∧ tr.attr (.other "nstep") = some (.nat 1) ∧ tr.attr .etot = some (.vec es) ∧ es.length = 2 := by
  obtain ⟨tr, t0, -, -, t1, -, -, t2, -⟩ := C129_traj_partial (exRun 1 (by omega)) (exTwo 1) c hist (fun _ => none) g (-1)
  exact ⟨_, _, tr, _, exRun 1 (by omega), t0, by simpa [exData] using (t1 (by simp [exFiles])).1, (t2 (by simp [exFiles])).1, by simp [exData]⟩

example (c : Consts Rat) (hist : List (Kind × UDict Rat)) (g : Getters Rat (Val Rat)) :
    ∃ tr, readCp2kMd c hist (Function.update (fun _ => none) .energy (some 3)) g (-1) Cp2k.exNum (exFiles 2) = .ok tr ∧
      tr.attr .etot = some (.vec [-15, -18]) ∧ tr.attr .temperature = some (.vec [300, 310]) ∧ tr.attr .timestep = some (.num 2) ∧
      tr.attr .coords = some (.arr [[[1, 2, 3], [4, 5, 6]], [[1, 2, 3], [4, 5, 6]]]) := by
  obtain ⟨tr, t0, -, -, t1, -, -, t2, -, -, t3⟩ := C129_traj_partial (exRun 2 (by omega)) (exTwo 2) c hist (Function.update (fun _ => none) .energy (some 3)) g (-1)
  refine ⟨tr, t0, ?_, ?_, ?_, ?_⟩
  · rw [(t2 (by simp [exFiles])).1]
    norm_num [exData]
  · rw [(t2 (by simp [exFiles])).2.2]
    norm_num [exData]
    rfl
  · rw [t3]
    norm_num [exData]
    rfl
  · rw [(t1 (by simp [exFiles])).2]
    norm_num [exData, scaled, List.replicate]
    rfl

/-- A frame of a relaxation. -/
def exFrame : XyzFrame Rat := ⟨"   2".toList, " i =  1, E =  -7".toList, (Cp2k.exXyz [] [] []).rows⟩

theorem exFrame_wf : exFrame.Wf Cp2k.exNum 2 :=
  ⟨⟨2, by decide +kernel⟩, ⟨" ".toList, " 1, ".toList, "  -7".toList, by decide +kernel⟩, rfl, (Cp2k.exXyz_wf [] [] []).rows⟩

/-- An optimisation of the cell with `n` frames and a table of two cells. -/
def exRelaxFiles (n : Nat) : Files :=
  ⟨exOut.drop 1, some Cp2k.exCell, none, none, some ((List.replicate n exFrame).flatMap XyzFrame.lines), none, none⟩

def exRelaxData (n : Nat) : Cp2kData Rat := ⟨["H".toList, "O".toList], 0, [],
  [⟨0, 0, 4, 0, 0, 1, 5, 0, 0, 0, 6, 120⟩, ⟨1, 1, 4, 0, 0, 1, 5, 0, 0, 0, 7, 140⟩], [], List.replicate n [[1, 2, 3], [4, 5, 6]], [], []⟩

theorem exFrames (n : Nat) : (List.replicate n exFrame).map (fun x => x.rows.map fun r => r.2.2) = (exRelaxData n).pos := by
  simp [exRelaxData, exFrame, Cp2k.exXyz]

theorem exRelax (n : Nat) (hn : 0 < n) : IsCp2kRelax Cp2k.exNum (exRelaxData n) "CELL_OPT".toList (List.replicate n (-7)) (exRelaxFiles n) where
  tables :=
    { atoms0 := by simp [exRelaxData]
      ener := fun f hf => by simp [exRelaxFiles] at hf
      cells := fun f hf => by
        have : Cp2k.exCell = f := by simpa [exRelaxFiles] using hf
        rw [← this]
        exact ⟨Cp2k.exCell_table, by simp [exRelaxData]⟩
      stress := fun f hf => by simp [exRelaxFiles] at hf
      pos := fun f hf => by
        have : (List.replicate n exFrame).flatMap XyzFrame.lines = f := by simpa [exRelaxFiles] using hf
        rw [← this]
        refine ⟨_, by simpa using hn.ne', rfl, ?_, exFrames n⟩
        intro x hx
        rw [List.eq_of_mem_replicate hx]
        exact ⟨exFrame_wf, rfl⟩
      frc := fun f hf => by simp [exRelaxFiles] at hf
      vel := fun f hf => by simp [exRelaxFiles] at hf
      frcOut := fun _ => by
        have nb : ∀ l, Scf.blankLine l = false → ¬ BlankText l := fun l h hc => by
          rw [Scf.blankLine, List.all_eq_true.2 hc] at h
          cases h
        refine ⟨exOut.drop 1, exOut.drop 1, [], .hit ⟨rfl, nb _ (by decide +kernel)⟩ (.hit ⟨rfl, nb _ (by decide +kernel)⟩ .nil), by simp, ?_, .nil⟩
        intro l hl
        refine has_false _ _ ?_
        revert l
        decide +kernel }
  runLine := by
    refine ⟨(exOut.drop 1).take 1, _, [], rfl, ?_, " ".toList, "| ".toList, "   ".toList, [], by decide +kernel, by unfold Blanks; decide +kernel,
      by unfold WordText; decide +kernel, ?_, by simp [BlankText]⟩
    · rintro l hl ⟨a, b, c, e⟩
      refine has_false "GLOBAL".toList l ?_ ⟨a, b ++ ("Run type".toList ++ c), by rw [e]; simp⟩
      clear e
      revert l
      decide +kernel
    · intro a b e
      exact has_false "type".toList "CELL_OPT".toList (by decide +kernel) ⟨a, b, by rw [e]; simp⟩
  noTime := fun l hl => has_false _ _ ((by decide +kernel : ∀ l ∈ exOut.drop 1, isInfix "MD| Time Step [fs]".toList l = false) l hl)
  pos := ⟨_, rfl, _, by simpa using hn.ne', rfl, fun x hx => by rw [List.eq_of_mem_replicate hx]; exact exFrame_wf, exFrames n, by
    rw [List.forall₂_iff_get]
    refine ⟨by simp, fun i h1 h2 => ⟨"-7".toList, ?_⟩⟩
    have : ((List.replicate n exFrame).get ⟨i, h1⟩) = exFrame := by simp
    rw [this]
    simp only [List.get_eq_getElem, List.getElem_replicate]
    decide +kernel⟩

theorem exRelaxTwo (n : Nat) : TwoRows (exRelaxData n) (exRelaxFiles n) := ⟨fun h => absurd rfl h, fun _ => by simp [exRelaxData], fun h => absurd rfl h⟩

example (c : Consts Rat) (hist : List (Kind × UDict Rat)) (g : Getters Rat (Val Rat)) :
    (∃ tr, readCp2kRelax c hist (fun _ => some 2) g (-1) Cp2k.exNum (exRelaxFiles 3) = .ok tr ∧ tr.attr .etot = some (.vec [-14, -14, -14]) ∧
      tr.attr .cell = some (.arr [[[8, 0, 0], [2, 10, 0], [0, 0, 12]], [[8, 0, 0], [2, 10, 0], [0, 0, 14]], [[8, 0, 0], [2, 10, 0], [0, 0, 14]]])) ∧
    readCp2kRelax c hist (fun _ => some 2) g (-1) Cp2k.exNum (exRelaxFiles 2) = .error (.inl .offset) := by
  obtain ⟨tr, t0, -, -, -, -, -, t1, t2, -⟩ := C129_relax_partial (exRelax 3 (by omega)) (exRelaxTwo 3) (by simp [exRelaxData]) c hist (fun _ => some 2) g (-1)
  refine ⟨⟨tr, t0, ?_, ?_⟩, C129_relax_refused (exRelax 2 (by omega)) (exRelaxTwo 2) (by simp [exRelaxFiles]) rfl (by simp [exRelaxData]) c hist (fun _ => some 2) g (-1)⟩
  · rw [t1]
    norm_num [List.replicate]
  · rw [t2 (by simp [exRelaxFiles]) rfl [_] _ rfl]
    norm_num [scaled, CellRow.cell]

end Pwtools.Cp2kRead
