import Verif.Spec.CpmdRead
import Verif.Props.ReadMd
import Verif.Props.Cpmd
import Verif.Props.ScfOut
import Verif.Props.PwHead
import Verif.Props.Cp2kRead
/-!
# C131: `read_cpmd_md` returns what is in the files
-/
namespace Pwtools.CpmdRead
open Gr Tr Units PwMd ReadMd Cpmd Spec PwHead
variable {K : Type} {num : Text → Option K} {d : CpmdData K} {fs : Files}

theorem natoms_run (h : IsCpmdRun num d fs) : natoms fs = some d.symbols.length := by
  obtain ⟨f, hf, ls, rfl, hn, hl⟩ := h.geometry
  unfold natoms
  rw [hf, Option.map_some, Cpmd.C91_natoms ls hl, hn]

theorem scale_run (h : IsCpmdRun num d fs) : scaleFile num fs = .ok (if fs.scale = none then none else some ⟨some d.cell0, d.frac, d.symbols⟩) := by
  unfold scaleFile
  cases hs : fs.scale with
  | none => rfl
  | some f =>
    have hf := h.scale f hs
    have h1 : Scf.scaleCell num f = .ok (some d.cell0) := by
      obtain ⟨A, hd, R, B, rfl, hp, hn, hv⟩ := hf.cellRows
      exact Scf.C111_cell num A R B hd d.cell0 hp (fun l hl => hn l (by simp [hl])) (fun l hl => hn l (by simp [hl])) (by rw [hv.length_eq, h.cell33.1]) hv h.cell33.2
    have h2 : Scf.scaleAtoms num d.symbols.length f = .ok (d.frac, d.symbols) := by
      obtain ⟨A, hd, R, B, rfl, hp, hn, hl1, hl2, hv⟩ := hf.atomRows
      rw [← hl2]
      exact Scf.C111_atoms num A R B hd d.frac d.symbols hp (fun l hl => hn l (by simp [hl])) (fun l hl => hn l (by simp [hl]))
        (by intro e; rw [e] at hl2; exact h.atoms0 (List.eq_nil_of_length_eq_zero hl2.symm)) hl1 hl2 hv
    simp only [h1, lift, Except.bind, natoms_run h, h2, reduceCtorEq, if_false]

theorem cell_run (h : IsCpmdRun num d fs) : getCell num fs =
    .ok (if fs.cell = none then if fs.scale = none then none else some (.mat d.cell0) else some (.arr d.cells3)) := by
  unfold getCell
  cases hc : fs.cell with
  | none =>
    simp only [scale_run h, Except.bind, if_true]
    split <;> rfl
  | some f =>
    obtain ⟨rfl, h0, n, hn, hw⟩ := h.cells f hc
    simp only [Cpmd.C91_cell d.cells hw h0 (by omega), lift, Except.bind, reduceCtorEq, if_false]
    rfl

theorem traj_run (h : IsCpmdRun num d fs) (h2 : fs.ftraj ≠ none ∨ fs.traj ≠ none → 2 ≤ d.steps.length * d.symbols.length) (junk : K) : coordsVelForces junk num fs =
    .ok (if fs.ftraj = none ∧ fs.traj = none then none else some ⟨d.pos, d.vel, if fs.ftraj = none then none else some d.force⟩) := by
  have h0 : 0 < d.symbols.length := List.length_pos_of_ne_nil h.atoms0
  unfold coordsVelForces
  simp only [natoms_run h]
  cases hf : fs.ftraj with
  | some f =>
    simp only [Cpmd.C91_trajectory_partial junk true f d.steps (h.ftraj f hf) h.atoms h0 (h2 (by simp [hf])), lift, Except.bind]
    simp
    exact ⟨rfl, rfl, rfl⟩
  | none =>
    cases ht : fs.traj with
    | none => simp
    | some f =>
      simp only [Cpmd.C91_trajectory_partial junk false f d.steps (h.traj f hf ht) h.atoms h0 (h2 (by simp [ht])), lift, Except.bind]
      simp
      exact ⟨rfl, rfl⟩

theorem ener_run (h : IsCpmdRun num d fs) (h2 : CpmdTwoRows d fs) (junk : K) :
    fromEnergies fs (Cpmd.temperature junk num) = .ok (if fs.energies = none then none else some (d.col junk "TEMPP")) ∧
    fromEnergies fs (Cpmd.etot junk num) = .ok (if fs.energies = none then none else some (d.col junk "EKS")) ∧
    fromEnergies fs (Cpmd.ekin junk num) = .ok (if fs.energies = none then none else some (d.col junk "ECLASSIC")) ∧
    (∃ x, fromEnergies fs (Cpmd.ekinElec junk num) = .ok x) ∧ (∃ x, fromEnergies fs (Cpmd.ekinCell junk num) = .ok x) ∧
    ∃ x, fromEnergies fs (Cpmd.econst junk num) = .ok x := by
  unfold fromEnergies
  cases hf : fs.energies with
  | none => exact ⟨rfl, rfl, rfl, ⟨_, rfl⟩, ⟨_, rfl⟩, ⟨_, rfl⟩⟩
  | some f =>
    obtain ⟨a, b, c⟩ := h.energies f hf
    obtain ⟨e1, e2, e3, e4, e5, e6⟩ := Cpmd.C91_energies_partial junk d.cols a f d.ener b c (h2.energies (by simp [hf]))
    simp only [reduceCtorEq, if_false]
    exact ⟨e1, e2, e3, ⟨_, e4⟩, ⟨_, e5⟩, ⟨_, e6⟩⟩

theorem stress_run (h : IsCpmdRun num d fs) : getStress num fs = .ok (if fs.stress = none then none else some d.stress3) := by
  unfold getStress
  cases hf : fs.stress with
  | none => rfl
  | some f =>
    obtain ⟨rfl, h0, hw⟩ := h.stress f hf
    simp only [Cpmd.C91_stress d.stress hw h0, lift, reduceCtorEq, if_false]
    rfl

theorem blanks_space {s : Text} (h : Blanks s) : BlankText s := by
  intro c hc
  rw [h.2 c hc]
  decide

theorem afterIons_line (p s w t : Text) (hs : Blanks s) (hw : ':' ∉ w) (ht : BlankText t) :
    afterIons (p ++ "TIME STEP FOR IONS:".toList ++ (s ++ w ++ t)) = s ++ w ++ t := by
  have hc : ':' ∉ s ++ w ++ t := by
    simp only [List.mem_append, not_or]
    refine ⟨⟨fun h => ?_, hw⟩, fun h => ?_⟩
    · have := hs.2 _ h; revert this; decide
    · have := ht _ h; revert this; decide
  have e : p ++ "TIME STEP FOR IONS:".toList ++ (s ++ w ++ t) = (p ++ "TIME STEP FOR ".toList) ++ ("IONS:".toList ++ (s ++ w ++ t)) := by
    simp
  unfold afterIons
  rw [e, lastOcc_eq "IONS:".toList (by decide) _ _ _ (s ++ w ++ t)]
  · rfl
  · obtain ⟨c, s', rfl⟩ : ∃ c s', s = c :: s' := by
      cases s with
      | nil => exact absurd rfl hs.1
      | cons c s' => exact ⟨c, s', rfl⟩
    have : isPySpace c = true := blanks_space hs c (by simp)
    simp [this]
  · intro p' q' e' hl
    refine absurd ?_ hc
    have e1 : ((p ++ "TIME STEP FOR ".toList) ++ "IONS".toList) ++ ([':'] ++ (s ++ w ++ t)) = (p' ++ "IONS".toList) ++ ([':'] ++ q') := by
      have : "IONS:".toList = "IONS".toList ++ [':'] := by decide
      rw [this] at e'
      simpa using e'
    exact later_mem ':' _ _ _ _ e1 (by simp at hl ⊢; omega)

theorem filter_only (p : Text → Bool) (A B : List Text) (l : Text) (h : ∀ x ∈ A ++ B, p x = false) (hl : p l = true) : (A ++ l :: B).filter p = [l] := by
  have hA : A.filter p = [] := List.filter_eq_nil_iff.2 fun x hx => by simp [h x (by simp [hx])]
  have hB : B.filter p = [] := List.filter_eq_nil_iff.2 fun x hx => by simp [h x (by simp [hx])]
  rw [List.filter_append, hA, List.filter_cons_of_pos hl, hB]
  rfl

theorem ionLine_has {l : Text} {x : K} (h : IonStepLine num l x) : HasText "TIME STEP FOR IONS".toList l := by
  obtain ⟨p, s, w, t, rfl, -⟩ := h
  exact ⟨p, ':' :: (s ++ w ++ t), by simp⟩

theorem ionLine_words {l : Text} {x : K} (h : IonStepLine num l x) : ∃ w, splitWs (afterIons l) = [w] ∧ num w = some x := by
  obtain ⟨p, s, w, t, rfl, hs, hw, hc, ht, hx⟩ := h
  exact ⟨w, by rw [afterIons_line p s w t hs hc ht, splitWs_word s w t (blanks_space hs) hw ht], hx⟩

theorem time_run (h : IsCpmdRun num d fs) : timestep num fs.out = .ok (some d.dt) := by
  obtain ⟨A, l, B, e, hl, hn⟩ := h.time
  obtain ⟨w, h1, h2⟩ := ionLine_words hl
  unfold timestep
  rw [e, filter_only _ A B l (fun x hx => Lmp.has_false (hn x hx)) ((Lmp.has_iff _ _).2 (ionLine_has hl))]
  unfold Scf.floatTxt
  simp only [List.map_cons, List.map_nil, List.flatMap_cons, List.flatMap_nil, List.append_nil, h1, h2]

theorem parse_eq (h : IsCpmdRun num d fs) (h2 : CpmdTwoRows d fs) (junk : K) : ∃ attrs, parse junk num fs = .ok attrs ∧
    attrs .cell = (if fs.cell = none then if fs.scale = none then none else some (.mat d.cell0) else some (.arr d.cells3)) ∧
    attrs .coords = (if fs.ftraj = none ∧ fs.traj = none then none else some (.arr d.pos)) ∧
    attrs .velocity = (if fs.ftraj = none ∧ fs.traj = none then none else some (.arr d.vel)) ∧
    attrs .forces = (if fs.ftraj = none then none else some (.arr d.force)) ∧
    attrs .ekin = (if fs.energies = none then none else some (.vec (d.col junk "ECLASSIC"))) ∧
    attrs .etot = (if fs.energies = none then none else some (.vec (d.col junk "EKS"))) ∧
    attrs .temperature = (if fs.energies = none then none else some (.vec (d.col junk "TEMPP"))) ∧
    attrs .stress = (if fs.stress = none then none else some (.arr d.stress3)) ∧
    attrs .timestep = some (.num d.dt) ∧
    attrs (.other "symbols") = (if fs.scale = none then none else some (.words d.symbols)) ∧
    attrs (.other "natoms") = some (.nat d.symbols.length) := by
  obtain ⟨e1, e2, e3, ⟨x4, e4⟩, ⟨x5, e5⟩, ⟨x6, e6⟩⟩ := ener_run h h2 junk
  unfold parse
  rw [cell_run h]
  simp only [Except.bind]
  rw [traj_run h h2.traj junk, e6, e3, e5, e4, e2, stress_run h, scale_run h, e1, time_run h]
  refine ⟨_, rfl, rfl, ?_, ?_, ?_, ?_, ?_, ?_, ?_, rfl, ?_, ?_⟩
  · simp only; split <;> rfl
  · simp only; split <;> rfl
  · simp only
    by_cases hf : fs.ftraj = none
    · simp only [hf, true_and, if_true]
      split <;> rfl
    · simp only [hf, false_and, if_false]
      rfl
  · simp only; split <;> rfl
  · simp only; split <;> rfl
  · simp only; split <;> rfl
  · simp only; split <;> rfl
  · simp only [if_true]; split <;> rfl
  · simp only [String.reduceEq, if_false, if_true, natoms_run h]
    rfl

theorem is33_scaled [Mul K] (s : K) (m : List (List K)) (h : m.length = 3 ∧ ∀ r ∈ m, r.length = 3) : is33 (m.map (·.map (· * s))) = true := by
  unfold is33
  simp only [List.length_map, h.1, decide_true, Bool.true_and, List.all_map, List.all_eq_true, Function.comp]
  intro r hr
  simpa using h.2 r hr

section
variable [Field K] [DecidableEq K]

/-- **C131** `read_cpmd_md`, whatever parsers have been used before: the contents of the files which exist, in order, times the factors of the user, or else
in eV, Angstrom, eV/Angstrom, GPa, fs. Without the file `CELL`, each step has the cell of `GEOMETRY.scale`. Partial: the tables need two rows, see
`C131_single_row_counterexample`. -/
theorem C131_traj_partial (h : IsCpmdRun num d fs) (h2 : CpmdTwoRows d fs) (c : Consts K) (hist : List (Kind × UDict K)) (user : UDict K) (g : Getters K (Val K))
    (junk : K) :
    ∃ tr, readCpmdMd c hist user g junk num fs = .ok tr ∧ tr.attr (.other "natoms") = some (.nat d.symbols.length) ∧
      (fs.scale ≠ none → tr.attr (.other "symbols") = some (.words d.symbols)) ∧
      (fs.ftraj ≠ none ∨ fs.traj ≠ none → tr.attr (.other "nstep") = some (.nat d.steps.length) ∧
        tr.attr .coords = some (.arr (scaled ((user .length).getD (c.Bohr / c.Ang)) d.pos)) ∧
        tr.attr .velocity = some (.arr (scaled ((user .velocity).getD (c.Bohr / c.Ang * c.fs / c.thart)) d.vel)) ∧
        (fs.cell = none → fs.scale ≠ none → tr.attr .cell = some (.arr (scaled ((user .length).getD (c.Bohr / c.Ang)) (List.replicate d.steps.length d.cell0))))) ∧
      (fs.ftraj ≠ none → tr.attr .forces = some (.arr (scaled ((user .forces).getD (c.Ha / c.eV * c.Ang / c.Bohr)) d.force))) ∧
      (fs.cell ≠ none → 2 ≤ d.cells.length → tr.attr .cell = some (.arr (scaled ((user .length).getD (c.Bohr / c.Ang)) d.cells3))) ∧
      (fs.stress ≠ none → tr.attr .stress = some (.arr (scaled ((user .stress).getD (1 / 10)) d.stress3))) ∧
      (fs.energies ≠ none → tr.attr .etot = some (.vec ((d.col junk "EKS").map (· * (user .energy).getD (c.Ha / c.eV)))) ∧
        tr.attr .ekin = some (.vec ((d.col junk "ECLASSIC").map (· * (user .energy).getD (c.Ha / c.eV)))) ∧
        tr.attr .temperature = some (.vec ((d.col junk "TEMPP").map (· * (user .temperature).getD 1)))) ∧
      tr.attr .timestep = some (.num (d.dt * (user .time).getD (c.thart / c.fs))) := by
  obtain ⟨attrs, p0, p1, p2, p3, p4, p5, p6, p7, p8, p9, p10, p11⟩ := parse_eq h h2 junk
  obtain ⟨tr, t0, t1, t2, t3⟩ := toTraj_attr c hist .cpmdMd user g attrs none (by simp)
  have f := fun q => units_of c hist .cpmdMd user q (by cases q <;> rfl) (by simp)
  simp only [f, factor] at t1 t2 t3
  have hx : fs.ftraj ≠ none ∨ fs.traj ≠ none → ¬ (fs.ftraj = none ∧ fs.traj = none) := by tauto
  refine ⟨tr, ?_, ?_, fun e => ?_, fun e => ⟨?_, ?_, ?_, fun e1 e2 => ?_⟩, fun e => ?_, fun e e2 => ?_, fun e => ?_, fun e => ⟨?_, ?_, ?_⟩, ?_⟩
  · unfold readCpmdMd
    rw [p0]
    simp only [t0]
  · rw [t1 _ _ (by simp) (by simp) p11]
    rfl
  · rw [t1 (.other "symbols") (.words d.symbols) (by simp) (by simp) (by rw [p10, if_neg e])]
    rfl
  · exact (t3 d.steps.length (.inl ⟨d.pos, by rw [p2, if_neg (hx e)], by simp [CpmdData.pos]⟩)).1
  · rw [t1 .coords (.arr d.pos) (by simp) (by simp) (by rw [p2, if_neg (hx e)])]
    simp only [unitFactor, f, factor]
    rfl
  · rw [t1 .velocity (.arr d.vel) (by simp) (by simp) (by rw [p3, if_neg (hx e)])]
    simp only [unitFactor, f, factor]
    rfl
  · rw [(t3 d.steps.length (.inl ⟨d.pos, by rw [p2, if_neg (hx e)], by simp [CpmdData.pos]⟩)).2 (.mat d.cell0) (by rw [p1, if_pos e1, if_neg e2])]
    simp only [Val.scale, extendCell]
    rw [if_pos (is33_scaled _ _ h.cell33)]
    simp only [scaled, List.map_replicate]
  · rw [t1 .forces _ (by simp) (by simp) (by rw [p4, if_neg e])]
    simp only [unitFactor, f, factor]
    rfl
  · obtain ⟨k, k1, k2⟩ := t2 _ (by rw [p1, if_neg e])
    have hl : 2 ≤ (scaled ((user .length).getD (c.Bohr / c.Ang)) d.cells3).length := by simpa [scaled, CpmdData.cells3] using e2
    rw [k2, Cp2kRead.scale_scaled, k1]
    · exact (Cp2kRead.cells_kept 0 _ hl).1
    · exact (Cp2kRead.cells_kept 0 _ hl).2
  · rw [t1 .stress _ (by simp) (by simp) (by rw [p8, if_neg e])]
    simp only [unitFactor, f, factor]
    rfl
  · rw [t1 .etot _ (by simp) (by simp) (by rw [p6, if_neg e])]
    simp only [unitFactor, f, factor, Val.scale]
  · rw [t1 .ekin _ (by simp) (by simp) (by rw [p5, if_neg e])]
    simp only [unitFactor, f, factor, Val.scale]
  · rw [t1 .temperature _ (by simp) (by simp) (by rw [p7, if_neg e])]
    simp only [unitFactor, f, factor, Val.scale]
  · rw [t1 .timestep _ (by simp) (by simp) p9]
    simp only [unitFactor, f, factor, Val.scale]

/-- **C131** For a run which writes all files in every step: entry `i` of each attribute belongs to step `i`. -/
theorem C131_steps_partial (symbols : List Text) (dt : K) (cell0 frac : List (List K)) (cols : List String) (steps : List (CpmdStep K))
    (h : IsCpmdRun num (.ofSteps symbols dt cell0 frac cols steps) fs) (h2 : 2 ≤ steps.length)
    (hall : fs.cell ≠ none ∧ fs.energies ≠ none ∧ fs.stress ≠ none ∧ fs.ftraj ≠ none)
    (c : Consts K) (hist : List (Kind × UDict K)) (g : Getters K (Val K)) (junk : K) :
    ∃ tr co ce st fo ve et ek te, readCpmdMd c hist (fun _ => none) g junk num fs = .ok tr ∧ tr.attr (.other "nstep") = some (.nat steps.length) ∧
      tr.attr .coords = some (.arr co) ∧ tr.attr .cell = some (.arr ce) ∧ tr.attr .stress = some (.arr st) ∧ tr.attr .forces = some (.arr fo) ∧
      tr.attr .velocity = some (.arr ve) ∧ tr.attr .etot = some (.vec et) ∧ tr.attr .ekin = some (.vec ek) ∧ tr.attr .temperature = some (.vec te) ∧
      (∀ n ∈ [co.length, ce.length, st.length, fo.length, ve.length, et.length, ek.length, te.length], n = steps.length) ∧
      ∀ (i : Nat) (x : CpmdStep K), steps[i]? = some x →
        co[i]? = some (x.atoms.map fun a => (vec a.pos).map (· * (c.Bohr / c.Ang))) ∧
        ve[i]? = some (x.atoms.map fun a => (vec a.vel).map (· * (c.Bohr / c.Ang * c.fs / c.thart))) ∧
        fo[i]? = some (x.atoms.map fun a => (vec a.force).map (· * (c.Ha / c.eV * c.Ang / c.Bohr))) ∧
        ce[i]? = some (x.cell.rows.map fun r => (r.2.take 3).map (· * (c.Bohr / c.Ang))) ∧
        st[i]? = some (x.stress.rows.map fun r => r.2.map (· * (1 / 10))) ∧
        et[i]? = some (namedCol junk cols x.ener "EKS" * (c.Ha / c.eV)) ∧ ek[i]? = some (namedCol junk cols x.ener "ECLASSIC" * (c.Ha / c.eV)) ∧
        te[i]? = some (namedCol junk cols x.ener "TEMPP") := by
  obtain ⟨a1, a2, a3, a4⟩ := hall
  have hs : 0 < symbols.length := List.length_pos_of_ne_nil h.atoms0
  obtain ⟨tr, t0, -, -, t1, t2, t3, t4, t5, -⟩ := C131_traj_partial h
    ⟨fun _ => by simpa [CpmdData.ofSteps] using h2, fun _ => by
      simp only [CpmdData.ofSteps, List.length_map]
      nlinarith⟩ c hist (fun _ => none) g junk
  obtain ⟨u1, u2, u3, -⟩ := t1 (.inl a4)
  obtain ⟨w1, w2, w3⟩ := t5 a2
  refine ⟨tr, _, _, _, _, _, _, _, _, t0, ?_, u2, t3 a1 (by simpa [CpmdData.ofSteps] using h2), t4 a3, t2 a4, u3, w1, w2, w3, ?_, fun i x hx => ?_⟩
  · simpa [CpmdData.ofSteps] using u1
  · simp [scaled, CpmdData.ofSteps, CpmdData.pos, CpmdData.vel, CpmdData.force, CpmdData.cells3, CpmdData.stress3, CpmdData.col]
  · simp [scaled, CpmdData.ofSteps, CpmdData.pos, CpmdData.vel, CpmdData.force, CpmdData.cells3, CpmdData.stress3, CpmdData.col, hx, Function.comp_def]

omit [Field K] [DecidableEq K] in
theorem econst_single (junk : K) (cols : List String) (hc : EnergyColumns cols) (file : List Text) (r : List K)
    (h : IsTable num file [r]) (hr : r.length = cols.length) : Cpmd.econst junk num file = .error (.py .index) := by
  unfold Cpmd.econst
  rw [Cpmd.C91_single_row_counterexample junk cols hc file r h hr]

/-- **C131**, disagreement: one row in `ENERGIES` (a run of one step), and the run cannot be read. -/
theorem C131_single_row_counterexample (h : IsCpmdRun num d fs) (he : fs.energies ≠ none) (h1 : d.ener.length = 1)
    (ht : fs.ftraj ≠ none ∨ fs.traj ≠ none → 2 ≤ d.steps.length * d.symbols.length) (c : Consts K) (hist : List (Kind × UDict K)) (user : UDict K)
    (g : Getters K (Val K)) (junk : K) : readCpmdMd c hist user g junk num fs = .error (.inl (.py .index)) := by
  obtain ⟨f, hf⟩ := Option.ne_none_iff_exists'.1 he
  obtain ⟨a, b, e⟩ := h.energies f hf
  obtain ⟨r, hr⟩ := List.length_eq_one_iff.1 h1
  rw [hr] at b e
  have key : parse junk num fs = .error (.py .index) := by
    unfold parse
    rw [cell_run h]
    simp only [Except.bind]
    rw [traj_run h ht junk]
    simp only [fromEnergies, hf, econst_single junk d.cols a f r b (e r (by simp))]
  unfold readCpmdMd
  rw [key]

/-- **C131**, disagreement: the output of a second run appended to the file (a restart with `>>`): the time step is there twice, and nothing can be read. -/
theorem C131_appended_counterexample (h : IsCpmdRun num d fs) (h2 : CpmdTwoRows d fs) (c : Consts K) (hist : List (Kind × UDict K)) (user : UDict K)
    (g : Getters K (Val K)) (junk : K) : readCpmdMd c hist user g junk num { fs with out := fs.out ++ fs.out } = .error (.inl (.py .value)) := by
  have ht : timestep num (fs.out ++ fs.out) = .error .value := by
    obtain ⟨A, l, B, e, hl, hn⟩ := h.time
    obtain ⟨w, h1, h2⟩ := ionLine_words hl
    unfold timestep
    rw [e, List.filter_append, filter_only _ A B l (fun x hx => Lmp.has_false (hn x hx)) ((Lmp.has_iff _ _).2 (ionLine_has hl))]
    unfold Scf.floatTxt
    simp only [List.cons_append, List.nil_append, List.map_cons, List.map_nil, List.flatMap_cons, List.flatMap_nil, h1]
  have key : parse junk num { fs with out := fs.out ++ fs.out } = .error (.py .value) := by
    obtain ⟨e1, e2, e3, ⟨x4, e4⟩, ⟨x5, e5⟩, ⟨x6, e6⟩⟩ := ener_run h h2 junk
    unfold parse
    show (getCell num fs).bind _ = _
    rw [cell_run h]
    simp only [Except.bind]
    show Except.bind (coordsVelForces junk num fs) _ = _
    rw [traj_run h h2.traj junk]
    simp only [Except.bind]
    show Except.bind (fromEnergies fs (Cpmd.econst junk num)) _ = _
    rw [e6]
    simp only [Except.bind]
    show Except.bind (fromEnergies fs (Cpmd.ekin junk num)) _ = _
    rw [e3]
    simp only [Except.bind]
    show Except.bind (fromEnergies fs (Cpmd.ekinCell junk num)) _ = _
    rw [e5]
    simp only [Except.bind]
    show Except.bind (fromEnergies fs (Cpmd.ekinElec junk num)) _ = _
    rw [e4]
    simp only [Except.bind]
    show Except.bind (fromEnergies fs (Cpmd.etot junk num)) _ = _
    rw [e2]
    simp only [Except.bind]
    show Except.bind (getStress num fs) _ = _
    rw [stress_run h]
    simp only [Except.bind]
    show Except.bind (scaleFile num fs) _ = _
    rw [scale_run h]
    simp only [Except.bind]
    show Except.bind (fromEnergies fs (Cpmd.temperature junk num)) _ = _
    rw [e1]
    simp only [Except.bind, ht, lift]
  unfold readCpmdMd
  rw [key]

/-- **C131**, disagreement: files which are written in different steps (say every step for `ENERGIES`, every tenth for `TRAJECTORY`) give a trajectory with
energies and temperatures which do not belong to its steps, without an error. -/
theorem C131_stride_counterexample (h : IsCpmdRun num d fs) (h2 : CpmdTwoRows d fs) (he : fs.energies ≠ none) (ht : fs.ftraj ≠ none ∨ fs.traj ≠ none)
    (hd : d.ener.length ≠ d.steps.length) (c : Consts K) (hist : List (Kind × UDict K)) (user : UDict K) (g : Getters K (Val K)) (junk : K) :
    ∃ tr et, readCpmdMd c hist user g junk num fs = .ok tr ∧ tr.attr (.other "nstep") = some (.nat d.steps.length) ∧ tr.attr .etot = some (.vec et) ∧
      et.length ≠ d.steps.length := by
  obtain ⟨tr, t0, -, -, t1, -, -, -, t5, -⟩ := C131_traj_partial h h2 c hist user g junk
  exact ⟨tr, _, t0, (t1 ht).1, (t5 he).1, by simpa [CpmdData.col] using hd⟩

/-- **C131** Without the file `GEOMETRY` nothing can be read: an exception in any case. -/
theorem C131_no_geometry (num : Text → Option K) (fs : Files) (h : fs.geometry = none) (c : Consts K) (hist : List (Kind × UDict K)) (user : UDict K)
    (g : Getters K (Val K)) (junk : K) : ∃ e, readCpmdMd c hist user g junk num fs = .error (.inl e) ∧
      ((∀ f, fs.cell = some f → ∃ v, Cpmd.cell num f = .ok v) → (∀ f, fs.scale = some f → ∃ v, Scf.scaleCell num f = .ok v) → e = .py .assertion) := by
  have key : ∃ e, parse junk num fs = .error e ∧
      ((∀ f, fs.cell = some f → ∃ v, Cpmd.cell num f = .ok v) → (∀ f, fs.scale = some f → ∃ v, Scf.scaleCell num f = .ok v) → e = .py .assertion) := by
    unfold parse
    cases hg : getCell num fs with
    | error e =>
      refine ⟨e, rfl, fun h1 h2 => ?_⟩
      unfold getCell at hg
      cases hc : fs.cell with
      | some f =>
        obtain ⟨v, hv⟩ := h1 f hc
        simp [hc, hv, lift, Except.bind] at hg
      | none =>
        cases hs : fs.scale with
        | none => simp [hc, hs, scaleFile, Except.bind] at hg
        | some f =>
          obtain ⟨v, hv⟩ := h2 f hs
          simp [hc, hs, hv, scaleFile, Except.bind, lift, natoms, h] at hg
          exact hg.symm
    | ok v =>
      refine ⟨.py .assertion, ?_, fun _ _ => rfl⟩
      simp [Except.bind, coordsVelForces, natoms, h]
  obtain ⟨e, h1, h2⟩ := key
  refine ⟨e, ?_, h2⟩
  unfold readCpmdMd
  rw [h1]

/-- **C131** A run which was killed while it wrote a step of `TRAJECTORY` or `FTRAJECTORY` cannot be read at all: an exception, no steps are returned. -/
theorem C131_killed (h : IsCpmdRun num d fs) (ft : Bool) (f : List Text) (rows : List (List K)) (hf : IsTrajFile num f rows) (hr : ∀ r ∈ rows, r ≠ [])
    (hm : ¬ d.symbols.length ∣ rows.length) (c : Consts K) (hist : List (Kind × UDict K)) (user : UDict K) (g : Getters K (Val K)) (junk : K) :
    readCpmdMd c hist user g junk num (if ft then { fs with ftraj := some f } else { fs with ftraj := none, traj := some f }) =
      .error (.inl (.py .assertion)) := by
  have h0 : 0 < d.symbols.length := List.length_pos_of_ne_nil h.atoms0
  have hn := natoms_run h
  have key : parse junk num (if ft then { fs with ftraj := some f } else { fs with ftraj := none, traj := some f }) = .error (.py .assertion) := by
    have hc : getCell num (if ft then { fs with ftraj := some f } else { fs with ftraj := none, traj := some f }) = getCell num fs := by
      cases ft <;> rfl
    have ht : coordsVelForces junk num (if ft then { fs with ftraj := some f } else { fs with ftraj := none, traj := some f }) = .error (.py .assertion) := by
      have hn' : natoms (if ft then { fs with ftraj := some f } else { fs with ftraj := none, traj := some f }) = some d.symbols.length := by
        cases ft <;> exact hn
      unfold coordsVelForces
      rw [hn']
      cases ft <;> simp [Cpmd.C91_trajectory_truncated junk _ f rows hf hr h0 hm, lift, Except.bind]
    unfold parse
    rw [hc, cell_run h]
    simp only [Except.bind]
    rw [ht]
  unfold readCpmdMd
  rw [key]

end

/-! ## Examples -/

def exOut : List Text := ["CPMD".toList, " TIME STEP FOR ELECTRONS:    4".toList, " TIME STEP FOR IONS:      5".toList, "END".toList]

def exScale : List Text := [" CELL MATRIX (BOHR)".toList, " 1 0 0".toList, " 0 2 0".toList, " 0 0 3".toList,
  " SCALED ATOMIC COORDINATES".toList, " 0 1 2 H".toList]

def exGeo : List Text := ["1.0 2.0 3.0 0.1 0.2 0.3".toList]

/-- A run with one atom, two steps, a fixed cell. -/
def exFiles : Files where
  out := exOut
  geometry := some exGeo
  scale := some exScale
  traj := some Cpmd.exTraj
  ftraj := none
  energies := some Cpmd.exEnergies
  cell := none
  stress := none

def exData : CpmdData Rat where
  symbols := ["H".toList]
  dt := 5
  cell0 := [[1, 0, 0], [0, 2, 0], [0, 0, 3]]
  frac := [[0, 1, 2]]
  cols := ["NFI", "EKINC", "TEMPP", "EKS", "ECLASSIC", "EHAM", "DIS", "TCPU"]
  ener := [[1, 0, 300, -7, -6, -5, 0, 1], [2, 0, 310, -8, -6, -5, 0, 1]]
  steps := [[⟨1, (1, 2, 3), (4, 5, 6), (0, 0, 0)⟩], [⟨2, (7, 8, 9), (10, 11, 12), (0, 0, 0)⟩]]
  cells := []
  stress := []

theorem exGeo_is : IsGeometry exGeo 1 := by
  refine ⟨[("1.0 2.0 3.0 0.1 0.2 0.3".toList, true)], rfl, rfl, ?_⟩
  intro l hl
  rw [List.mem_singleton.1 hl]
  have hb : ∀ a b c d e f : Text, (∀ x ∈ [a, b, c, d, e, f], ' ' ∉ x) → 
      BlankLine (List.replicate 0 ' ' ++ a ++ List.replicate 1 ' ' ++ (List.replicate 0 ' ' ++ b ++ List.replicate 1 ' ' ++
        (List.replicate 0 ' ' ++ c ++ List.replicate 1 ' ' ++ (List.replicate 0 ' ' ++ d ++ List.replicate 1 ' ' ++
        (List.replicate 0 ' ' ++ e ++ List.replicate 1 ' ' ++ (List.replicate 0 ' ' ++ f)))))) [a, b, c, d, e, f] := by
    intro a b c d e f hx
    exact BlankLine.cons (hx _ (by simp)) (BlankLine.cons (hx _ (by simp)) (BlankLine.cons (hx _ (by simp)) (BlankLine.cons (hx _ (by simp))
      (BlankLine.cons (hx _ (by simp)) (BlankLine.one (hx _ (by simp)))))))
  refine ⟨_, hb "1.0".toList "2.0".toList "3.0".toList "0.1".toList "0.2".toList "0.3".toList (by decide +kernel), ?_⟩
  rw [if_pos rfl]
  refine ⟨by simp, fun w hw => ?_⟩
  have := (by decide +kernel : ∀ w ∈ (["1.0".toList, "2.0".toList, "3.0".toList, "0.1".toList, "0.2".toList, "0.3".toList] : List Text).take 5,
      w = w.take 2 ++ [w.getD 2 ' '] ∧ (w.getD 2 ' ').isDigit = true) w hw
  exact ⟨_, _, this⟩

theorem no_text (k : Text) (ls : List Text) (h : ∀ l ∈ ls, isInfix k l = false) : ∀ l ∈ ls, ¬ HasText k l := by
  intro l hl hc
  have := (Lmp.has_iff _ _).2 hc
  rw [h l hl] at this
  cases this

theorem exRun : IsCpmdRun Lmp.exNum exData exFiles where
  atoms0 := by decide
  geometry := ⟨_, rfl, exGeo_is⟩
  cell33 := by decide
  scale := by
    intro f hf
    injection hf with hf
    subst hf
    refine ⟨⟨[], _, [" 1 0 0".toList, " 0 2 0".toList, " 0 0 3".toList], _, rfl, ⟨" ".toList, [], by decide +kernel⟩, no_text _ _ (by decide +kernel), ?_⟩,
      ⟨exScale.take 4, _, [" 0 1 2 H".toList], [], rfl, ⟨" ".toList, [], by decide +kernel⟩, no_text _ _ (by decide +kernel), rfl, rfl, ?_⟩⟩
    · exact .cons (by unfold NumLine; decide +kernel) (.cons (by unfold NumLine; decide +kernel) (.cons (by unfold NumLine; decide +kernel) .nil))
    · intro i l x s h1 h2 h3
      match i with
      | 0 =>
        simp only [exData, List.getElem?_cons_zero, Option.some.injEq] at h1 h2 h3
        rw [← h1, ← h2, ← h3]
        exact ⟨["0".toList, "1".toList, "2".toList], by decide +kernel, by decide +kernel, rfl⟩
      | i + 1 => simp at h1
  atoms := by decide
  traj := by
    intro f _ hf
    injection hf with hf
    subst hf
    exact Cpmd.exTraj_file
  ftraj := by simp [exFiles]
  energies := by
    intro f hf
    injection hf with hf
    subst hf
    exact ⟨EnergyColumns.cp, Cpmd.exEnergies_table, by decide⟩
  cells := by simp [exFiles]
  stress := by simp [exFiles]
  time := ⟨exOut.take 2, " TIME STEP FOR IONS:      5".toList, ["END".toList], rfl,
    ⟨" ".toList, "      ".toList, "5".toList, [], by decide +kernel, by unfold Blanks; decide +kernel, by unfold WordText; decide +kernel, by decide +kernel, by unfold BlankText; decide, by decide +kernel⟩,
    no_text _ _ (by decide +kernel)⟩

theorem exTwo : CpmdTwoRows exData exFiles := ⟨fun _ => by decide, fun _ => by decide⟩

/-- Non-vacuity of C131: positions of the second step, the cell of each step, temperatures, the time step. -/
example (g : Getters Rat (Val Rat)) (hist : List (Kind × UDict Rat)) (c : Consts Rat) :
    ∃ tr, readCpmdMd c hist (fun q => if q = .time then some 2 else some 1) g (-1) Lmp.exNum exFiles = .ok tr ∧
      tr.attr .coords = some (.arr [[[1, 2, 3]], [[7, 8, 9]]]) ∧
      tr.attr .cell = some (.arr [[[1, 0, 0], [0, 2, 0], [0, 0, 3]], [[1, 0, 0], [0, 2, 0], [0, 0, 3]]]) ∧
      tr.attr .temperature = some (.vec [300, 310]) ∧ tr.attr .timestep = some (.num 10) := by
  obtain ⟨tr, t0, -, -, t1, -, -, -, t5, t6⟩ := C131_traj_partial exRun exTwo c hist (fun q => if q = .time then some 2 else some 1) g (-1)
  obtain ⟨-, u1, -, u2⟩ := t1 (.inr (by simp [exFiles]))
  refine ⟨tr, t0, u1.trans ?_, (u2 rfl (by simp [exFiles])).trans ?_, (t5 (by simp [exFiles])).2.2.trans ?_, t6.trans ?_⟩
  · rw [if_neg (by decide), Option.getD_some, (by decide +kernel : scaled 1 exData.pos = [[[1, 2, 3]], [[7, 8, 9]]])]
  · rw [if_neg (by decide), Option.getD_some, (by decide +kernel : scaled 1 (List.replicate exData.steps.length exData.cell0) =
      [[[1, 0, 0], [0, 2, 0], [0, 0, 3]], [[1, 0, 0], [0, 2, 0], [0, 0, 3]]])]
  · rw [if_neg (by decide), Option.getD_some, (by decide +kernel : (exData.col (-1) "TEMPP").map (· * 1) = [300, 310])]
  · rw [if_pos rfl, Option.getD_some, (by decide +kernel : exData.dt * 2 = 10)]

end Pwtools.CpmdRead
