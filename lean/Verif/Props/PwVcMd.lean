import Verif.Model.PwVcMd
import Verif.Spec.PwVcMd
import Verif.Props.ReadMd
/-!
# C132: `read_pw_vcmd` returns what is in the file
-/
namespace Pwtools.PwVcMd
open Gr Scf PwHead Tr Units PwMd ReadMd Spec
variable {K : Type} {num : Text → Option K} {a : K} {cell : List (List K)} {atoms : List (Text × List K)} {start : List (Block K)}
  {steps : List (PwStep K)} {unit : Text} {ekins temps : List K} {dt : K} {file : List Text}

theorem rows_cols (xs : List (VcRow K)) (h0 : xs ≠ []) (hx : VcRows num file xs) :
    vcmdColumn num 0 file = .ok (xs.map VcRow.ekin) ∧ vcmdColumn num 1 file = .ok (xs.map VcRow.temp) ∧ vcmdColumn num 2 file = .ok (xs.map VcRow.econst) := by
  have h : Interleaved (fun l (x : K × K × K) => EkinLike l ∧ Row num [3, 7, 11] l [x.1, x.2.1, x.2.2]) (fun l => ¬ EkinLike l) file
      (xs.map fun x => (x.ekin, x.temp, x.econst)) := by
    clear h0
    unfold VcRows at hx
    induction hx with
    | nil => exact .nil
    | other hq _ ih => exact .other hq ih
    | hit hp _ ih => exact .hit hp ih
  obtain ⟨h1, h2, h3⟩ := C120_vcmd_partial num file _ (by simpa using h0) h
  rw [h1, h2, h3]
  simp [Function.comp_def]

/-- **C132** `read_pw_vcmd`, whatever parsers have been used before: for each structure after the first one positions, cell, energy, forces, stress; kinetic
energies and temperatures of the rows `Ekin = ... T = ... Etot = ...`; time step; all times the factors of the user, or else in Angstrom, eV, eV/Angstrom, GPa,
fs. Partial: there has to be such a row, see `C132_no_rows_counterexample`. -/
theorem C132_traj_partial [Field K] [DecidableEq K] (h : IsPwMd num a cell atoms start steps unit ekins temps dt file) (xs : List (VcRow K)) (h0 : xs ≠ [])
    (hx : VcRows num file xs) (useAlat : Bool) (hu : unit ∈ ["bohr".toList, "alat".toList, "angstrom".toList, "crystal".toList])
    (c : Consts K) (hist : List (Kind × UDict K)) (user : UDict K) (g : Getters K (Val K)) (cs : List (List (List K)))
    (hc : PwCells num (c.Ang / c.Bohr) a useAlat cell steps.length (start ++ steps.flatMap PwStep.blocks) file cs) :
    ∃ tr, readPwVcMd c hist user g num useAlat file = .ok tr ∧
      tr.attr (.other "symbols") = some (.words (atoms.map (·.1))) ∧ tr.attr (.other "natoms") = some (.nat atoms.length) ∧
      tr.attr (.other "nstep") = some (.nat steps.length) ∧
      (unit = "bohr".toList → tr.attr .coords = some (.arr (steps.map fun x => x.pos.map fun r => r.map (· * (user .length).getD (c.Bohr / c.Ang))))) ∧
      (unit = "alat".toList → tr.attr .coords =
        some (.arr (steps.map fun x => x.pos.map fun r => r.map fun v => v * (if useAlat then a else 1) * (user .length).getD (c.Bohr / c.Ang)))) ∧
      (unit = "angstrom".toList → tr.attr .coords =
        some (.arr (steps.map fun x => x.pos.map fun r => r.map fun v => v * (c.Ang / c.Bohr) * (user .length).getD (c.Bohr / c.Ang)))) ∧
      (unit = "crystal".toList → tr.attr (.other "coords_frac") = some (.arr (steps.map PwStep.pos))) ∧
      tr.attr .cell = some (.arr (scaled ((user .length).getD (c.Bohr / c.Ang)) cs)) ∧
      tr.attr .etot = some (.vec (steps.map fun x => x.energy * (user .energy).getD (c.Ry / c.eV))) ∧
      tr.attr .forces = some (.arr (steps.map fun x => (x.forces.take atoms.length).map fun r => r.map (· * (user .forces).getD (c.Ry / c.eV * c.Ang / c.Bohr)))) ∧
      tr.attr .stress = some (.arr (steps.map fun x => x.stress.map fun r => r.map (· * (user .stress).getD (1 / 10)))) ∧
      tr.attr .ekin = some (.vec (xs.map fun x => x.ekin * (user .energy).getD (c.Ry / c.eV))) ∧
      tr.attr .temperature = some (.vec (xs.map fun x => x.temp * (user .temperature).getD 1)) ∧
      tr.attr .timestep = some (.num (dt * (user .time).getD (c.tryd / c.fs))) := by
  have hna : 0 < atoms.length := List.length_pos_of_ne_nil h.atoms0
  obtain ⟨v1, v2, v3⟩ := rows_cols xs h0 hx
  obtain ⟨cl, hcl, hcl'⟩ := cell_eq h c useAlat cs hc
  obtain ⟨-, -, -, -, hp⟩ := aligned h
  obtain ⟨A, l, B, hfile, hA, hl⟩ := h.unitLine
  obtain ⟨b1, b2, b3, b4, b5⟩ := PwOut.C88_coords_partial h.out hna (by rw [hp]; simpa using h.some') c.Ang c.Bohr (if useAlat then a else 1) A B l unit hfile hA hl
  rw [hp] at b1 b2 b3 b4
  have hcases : ∃ co cf, PwOut.getCoords num c.Ang c.Bohr (some (if useAlat then a else 1)) file = .ok co ∧ PwOut.getCoordsFrac num file = .ok cf ∧
      (unit = "bohr".toList → co = some (steps.map PwStep.pos)) ∧ (unit = "alat".toList → co = some (scaled (if useAlat then a else 1) (steps.map PwStep.pos))) ∧
      (unit = "angstrom".toList → co = some (scaled (c.Ang / c.Bohr) (steps.map PwStep.pos))) ∧
      (unit = "crystal".toList → co = none ∧ cf = some (steps.map PwStep.pos)) := by
    simp only [List.mem_cons, List.not_mem_nil, or_false] at hu
    rcases hu with rfl | rfl | rfl | rfl
    · refine ⟨_, _, b1 rfl, b5 (by decide), fun _ => rfl, fun e => absurd e (by decide), fun e => absurd e (by decide), fun e => absurd e (by decide)⟩
    · refine ⟨_, _, b2 rfl, b5 (by decide), fun e => absurd e (by decide), fun _ => rfl, fun e => absurd e (by decide), fun e => absurd e (by decide)⟩
    · refine ⟨_, _, b3 rfl, b5 (by decide), fun e => absurd e (by decide), fun e => absurd e (by decide), fun _ => rfl, fun e => absurd e (by decide)⟩
    · refine ⟨_, _, (b4 rfl).1, (b4 rfl).2, fun e => absurd e (by decide), fun e => absurd e (by decide), fun e => absurd e (by decide), fun _ => ⟨rfl, rfl⟩⟩
  obtain ⟨co, cf, hco, hcf, u1, u2, u3, u4⟩ := hcases
  obtain ⟨attrs, p0, p1, p2, p3, p4, p5, p6, p7, p8, p9, p10, p11⟩ :=
    parseWith_eq h c useAlat co cf cl (some (xs.map VcRow.ekin)) (some (xs.map VcRow.temp)) hco hcf hcl
  obtain ⟨tr, t0, t3, -, t4⟩ := toTraj_attr c hist .pwVcMd user g attrs none (by simp)
  obtain ⟨t2, t4⟩ := t4 steps.length (by
    simp only [List.mem_cons, List.not_mem_nil, or_false] at hu
    rcases hu with e | e | e | e
    · left; rw [p1, u1 e]; exact ⟨_, rfl, by simp⟩
    · left; rw [p1, u2 e]; exact ⟨_, rfl, by simp [scaled]⟩
    · left; rw [p1, u3 e]; exact ⟨_, rfl, by simp [scaled]⟩
    · right; rw [p1, p2, (u4 e).1, (u4 e).2]; exact ⟨rfl, _, rfl, by simp⟩)
  have f := fun q hq => units_of c hist .pwVcMd user q hq (by simp)
  have f1 := f .length rfl
  have f2 := f .energy rfl
  have f3 := f .forces rfl
  have f4 := f .stress rfl
  have f5 := f .temperature rfl
  have f6 := f .time rfl
  simp only [factor] at f1 f2 f3 f4 f5 f6
  refine ⟨tr, ?_, ?_, ?_, t2, fun e => ?_, fun e => ?_, fun e => ?_, fun e => ?_, ?_, ?_, ?_, ?_, ?_, ?_, ?_⟩
  · unfold readPwVcMd parse
    rw [v1, v2, v3]
    simp only [Except.map, p0, Except.bind, t0]
  · exact t3 _ _ (by simp) (by simp) p10
  · exact t3 _ _ (by simp) (by simp) p11
  · rw [t3 .coords (.arr (steps.map PwStep.pos)) (by simp) (by simp) (by rw [p1, u1 e]; rfl)]
    simp only [unitFactor, Val.scale, f1, List.map_map]
    rfl
  · rw [t3 .coords (.arr (scaled (if useAlat then a else 1) (steps.map PwStep.pos))) (by simp) (by simp) (by rw [p1, u2 e]; rfl)]
    simp only [unitFactor, Val.scale, f1, scaled, List.map_map]
    simp only [Function.comp_def, List.map_map]
  · rw [t3 .coords (.arr (scaled (c.Ang / c.Bohr) (steps.map PwStep.pos))) (by simp) (by simp) (by rw [p1, u3 e]; rfl)]
    simp only [unitFactor, Val.scale, f1, scaled, List.map_map]
    simp only [Function.comp_def, List.map_map]
  · rw [t3 (.other "coords_frac") (.arr (steps.map PwStep.pos)) (by simp) (by simp) (by rw [p2, (u4 e).2]; rfl)]
    simp [unitFactor, Val.scale]
  · rw [t4 _ p3, f1, hcl']
  · rw [t3 _ _ (by simp) (by simp) p4]
    simp only [unitFactor, Val.scale, f2, List.map_map]
    rfl
  · rw [t3 _ _ (by simp) (by simp) p5]
    simp only [unitFactor, Val.scale, f3, List.map_map]
    rfl
  · rw [t3 _ _ (by simp) (by simp) p6]
    simp only [unitFactor, Val.scale, f4, List.map_map]
    rfl
  · rw [t3 _ _ (by simp) (by simp) p7]
    simp only [unitFactor, Val.scale, f2, List.map_map]
    rfl
  · rw [t3 _ _ (by simp) (by simp) p8]
    simp only [unitFactor, Val.scale, f5, List.map_map]
    rfl
  · rw [t3 _ _ (by simp) (by simp) p9]
    simp only [unitFactor, Val.scale, f6]

theorem rows_append {f1 f2 : List Text} {x1 x2 : List (VcRow K)} (h1 : VcRows num f1 x1) (h2 : VcRows num f2 x2) : VcRows num (f1 ++ f2) (x1 ++ x2) := by
  unfold VcRows at h1
  induction h1 with
  | nil => exact h2
  | other hq _ ih => exact .other hq ih
  | hit hp _ ih => exact .hit hp ih

/-- **C132** If each structure has its row in its part of the file: entry `i` of each attribute belongs to structure `i`. -/
theorem C132_steps_partial [Field K] [DecidableEq K] (h : IsPwMd num a cell atoms start steps unit ekins temps dt file) (xs : List (VcRow K))
    (hx : VcAligned num atoms.length start steps file h.out xs) (useAlat : Bool) (hu : unit ∈ ["bohr".toList, "alat".toList, "angstrom".toList, "crystal".toList])
    (c : Consts K) (hist : List (Kind × UDict K)) (g : Getters K (Val K)) (cs : List (List (List K)))
    (hc : PwCells num (c.Ang / c.Bohr) a useAlat cell steps.length (start ++ steps.flatMap PwStep.blocks) file cs) :
    ∃ tr et fo st ek te, readPwVcMd c hist (fun _ => none) g num useAlat file = .ok tr ∧ tr.attr (.other "nstep") = some (.nat steps.length) ∧
      tr.attr .etot = some (.vec et) ∧ tr.attr .forces = some (.arr fo) ∧ tr.attr .stress = some (.arr st) ∧ tr.attr .ekin = some (.vec ek) ∧
      tr.attr .temperature = some (.vec te) ∧ (∀ n ∈ [et.length, fo.length, st.length, ek.length, te.length, xs.length], n = steps.length) ∧
      ∀ (i : Nat) (s : PwStep K) (x : VcRow K), steps[i]? = some s → xs[i]? = some x →
        et[i]? = some (s.energy * (c.Ry / c.eV)) ∧ fo[i]? = some ((s.forces.take atoms.length).map fun r => r.map (· * (c.Ry / c.eV * c.Ang / c.Bohr))) ∧
        st[i]? = some (s.stress.map fun r => r.map (· * (1 / 10))) ∧ ek[i]? = some (x.ekin * (c.Ry / c.eV)) ∧ te[i]? = some x.temp := by
  obtain ⟨x1, x2⟩ := hx
  have hl := x2.length_eq
  have hrows : VcRows num (steps.flatMap fun s => s.blocks.flatMap Block.lines) xs := by
    clear hc hl h x1
    induction x2 with
    | nil => exact .nil
    | cons hs _ ih => exact rows_append hs ih
  have hfile : VcRows num file xs := by
    have := rows_append x1 hrows
    rw [h.out.eq, List.flatMap_append, List.flatMap_assoc]
    simpa using this
  have h0 : xs ≠ [] := by
    intro e
    rw [e] at hl
    exact h.some' (List.eq_nil_of_length_eq_zero hl)
  obtain ⟨tr, t0, -, -, t1, -, -, -, -, -, t2, t3, t4, t5, t6, -⟩ := C132_traj_partial h xs h0 hfile useAlat hu c hist (fun _ => none) g cs hc
  refine ⟨tr, _, _, _, _, _, t0, t1, t2, t3, t4, t5, t6, ?_, fun i s x hs hxi => ?_⟩
  · simp [hl]
  · simp [hs, hxi]

/-- **C132**, disagreement: an output without such a row (as that of a run which was killed in the first step, or of a vc-relax) cannot be read at all. -/
theorem C132_no_rows_counterexample [Field K] [DecidableEq K] (num : Text → Option K) (file : List Text) (hx : VcRows num file []) (useAlat : Bool) (c : Consts K)
    (hist : List (Kind × UDict K)) (user : UDict K) (g : Getters K (Val K)) : ∃ e, readPwVcMd c hist user g num useAlat file = .error (.inl e) := by
  have hno : ∀ l ∈ file, ¬ EkinLike l := by
    unfold VcRows at hx
    generalize hy : ([] : List (VcRow K)) = ys at hx
    induction hx with
    | nil => simp
    | other hq _ ih =>
      intro l hl
      rcases List.mem_cons.1 hl with rfl | hl
      · exact hq
      · exact ih hy l hl
    | hit _ _ _ => cases hy
  have hv := C120_vcmd_counterexample num file hno
  unfold readPwVcMd parse
  cases hw : parseWith c num useAlat file ((vcmdColumn num 0 file).map some) ((vcmdColumn num 1 file).map some) with
  | error e => exact ⟨e, by simp [Except.bind]⟩
  | ok attrs => exact ⟨.type, by simp [Except.bind, hv 2]⟩

/-! ## a concrete file: that of C127 has such a row -/

def exRow : VcRow ℚ := ⟨3, 250, -9⟩

theorem exRow_line : EkinLike "     Ekin =           3 Ry     T =         250 K  Etot =       -9".toList ∧
    Row PwOut.exNum [3, 7, 11] "     Ekin =           3 Ry     T =         250 K  Etot =       -9".toList [3, 250, -9] :=
  ⟨(ekin_iff _).1 (by decide +kernel), by unfold Row; decide +kernel⟩

theorem exAligned : VcAligned PwOut.exNum 1 exStart [exStep] exFile exIsPwMd.out [exRow] := by
  refine ⟨?_, .cons ?_ .nil⟩
  · have := exOther (P := fun l (x : VcRow ℚ) => EkinLike l ∧ Row PwOut.exNum [3, 7, 11] l [x.ekin, x.temp, x.econst]) _ ekin_iff
      (exIsPwMd.out.pre ++ exIsPwMd.out.natLine :: exStart.flatMap Block.lines) (by decide +kernel) .nil
    rwa [List.append_nil] at this
  · exact exOne _ ekin_iff 4 "     Ekin =           3 Ry     T =         250 K  Etot =       -9".toList (by decide +kernel) (by decide +kernel) (by decide +kernel) exRow_line

/-- Non-vacuity of C132. -/
example (c : Consts ℚ) (hist : List (Kind × UDict ℚ)) (g : Getters ℚ (Val ℚ)) :
    ∃ tr et te, readPwVcMd c hist (fun _ => none) g PwOut.exNum true exFile = .ok tr ∧ tr.attr .etot = some (.vec et) ∧ tr.attr .temperature = some (.vec te) ∧
      et[0]? = some (-15 * (c.Ry / c.eV)) ∧ te[0]? = some 250 := by
  obtain ⟨tr, et, fo, st, ek, te, t0, -, t1, -, -, -, t2, -, t3⟩ := C132_steps_partial exIsPwMd [exRow] exAligned true (by decide) c hist g _ (exCells c)
  obtain ⟨e1, -, -, -, e2⟩ := t3 0 exStep exRow rfl rfl
  exact ⟨tr, et, te, t0, t1, t2, e1, e2⟩

end Pwtools.PwVcMd
