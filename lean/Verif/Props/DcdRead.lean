import Verif.Spec.DcdRead
import Verif.Props.Dcd
import Verif.Props.Cp2kRead
import Verif.Props.LammpsRead
/-!
# C135: `read_cp2k_md_dcd` and `read_lammps_md_dcd` return what is in the files
-/
namespace Pwtools.DcdRead
open Gr Tr Units PwMd ReadMd Spec
variable {K : Type} {num : Text → Option K}

/-- The angle as it is in the file, or from the cosine. -/
abbrev conv (m : Fmt K) (convang : Bool) : K → K := if convang then m.acos else id

theorem dcd_data (m : Fmt K) (convang : Bool) (na : Nat) (frames : List Spec.Dcd.Frame) (file : Spec.Dcd.Bytes) (h : IsDcd na frames file) :
    dcdData m convang (some file) = .ok (some
      ⟨frames.map fun f => [m.f8 f.a, m.f8 f.b, m.f8 f.c, conv m convang (m.f8 f.alpha), conv m convang (m.f8 f.beta), conv m convang (m.f8 f.gamma)],
       frames.map fun f => f.atoms.map fun p => [m.f4 p.1, m.f4 p.2.1, m.f4 p.2.2], na⟩) := by
  obtain ⟨word, nstep, other, title, hw, ho, ht, hn, hf, rfl⟩ := h
  have h1 := (Dcd.C33_read m.f8 m.f4 m.acos word nstep other title na frames [] hw ho ht hn hf (by simp) convang).1 rfl
  rw [List.append_nil] at h1
  have h2 := Dcd.readNatoms_file word nstep other title na (frames.map Spec.Dcd.Frame.encode).flatten hw ho ht hn
  unfold dcdData
  simp only [h1]
  unfold Spec.Dcd.file
  simp only [h2, Int.toNat_natCast, List.map_map, Function.comp_def, Dcd.frameVal]
  cases convang <;> rfl

theorem dcd_killed (m : Fmt K) (convang : Bool) (na : Nat) (frames : List Spec.Dcd.Frame) (file part : Spec.Dcd.Bytes) (h : IsDcd na frames file) (hp : part ≠ [])
    (hl : part.length < 80 + 12 * na) : dcdData m convang (some (file ++ part)) = .error (.dcd .assertion) := by
  obtain ⟨word, nstep, other, title, hw, ho, ht, hn, hf, rfl⟩ := h
  have h1 := (Dcd.C33_read m.f8 m.f4 m.acos word nstep other title na frames part hw ho ht hn hf hl convang).2.1 hp
  unfold dcdData
  simp only [h1]

section
variable [Field K] [DecidableEq K]

/-- Lattice constants, and what the getters find: they see the scaled lattice constants. -/
theorem toTraj_dcd (c : Consts K) (hist : List (Kind × UDict K)) (k : Kind) (user : UDict K) (g : Getters K (Val K)) (attrs : UAttr → Option (Val K))
    (rows : List (List K)) (p : List (List (List K))) (hp : attrs .coords = some (.arr p)) (hl : rows.length = p.length) (h6 : ∀ r ∈ rows, r.length = 6) :
    ∃ tr o, toTraj c hist k user g attrs (some (.many rows)) = .ok tr ∧ tr.cc = some (.many (rows.map (scaleRow ((create c (after c hist) k user).2 .length)))) ∧
      o.cc = tr.cc ∧ ∀ x, x ≠ .other "nstep" → attrs x = none → tr.attr x = g.attr o x := by
  generalize hU : (create c (after c hist) k user).2 = U
  have hn : PwMd.nstep (scaleUnits U unitsMap attrs) = some p.length := by
    unfold PwMd.nstep
    rw [scale_each, hp]
    show some ((p.map _).length) = _
    rw [List.length_map]
  have hcc : extendCC p.length (CC.many (rows.map (scaleRow (U .length)))) = CC.many (rows.map (scaleRow (U .length))) := by
    match rows, hl, h6 with
    | [], _, _ => rfl
    | [r], hl, h6 =>
      have h6 := h6 r (by simp)
      have : (scaleRow (U .length) r).length = 6 := by simp [scaleRow]; omega
      simp only [List.map_cons, List.map_nil, extendCC, if_pos this]
      rw [← hl]
      rfl
    | _ :: _ :: _, _, _ => rfl
  unfold toTraj
  simp only [applyUnits, applyUnitsRaw, hU, scaleCC, Bool.false_eq_true, if_false]
  refine ⟨_, ⟨extend (scaleUnits U unitsMap attrs), extendObjCC ⟨scaleUnits U unitsMap attrs, some (CC.many (rows.map (scaleRow (U .length)))), U, true⟩, U, true⟩,
    rfl, ?_, ?_, fun x hx h0 => ?_⟩
  rotate_left
  · show extendObjCC _ = (extendObjCC _).or _
    simp only [extendObjCC, hn, Option.map_some, hcc]
    rfl
  · have : extend (scaleUnits U unitsMap attrs) x = none := by
      unfold extend
      rw [hn]
      simp only [if_neg hx, scale_each, h0]
      by_cases hc : x = .cell
      · rw [if_pos hc, ← hc, h0]
        rfl
      · rw [if_neg hc]
        rfl
    show (extend (scaleUnits U unitsMap attrs) x).or _ = _
    rw [this]
    rfl
  · show (extendObjCC _).or _ = _
    simp only [extendObjCC, hn, Option.map_some, hcc]
    rfl

omit [DecidableEq K] in
theorem scale_coords (m : Fmt K) (fac : K) (frames : List Spec.Dcd.Frame) :
    Val.scale fac (.arr (frames.map fun f => f.atoms.map fun p => [m.f4 p.1, m.f4 p.2.1, m.f4 p.2.2])) = .arr (dcdCoords m.f4 fac frames) := by
  simp [Val.scale, dcdCoords, Function.comp_def]

omit [DecidableEq K] in
theorem scale_const (m : Fmt K) (convang : Bool) (fac : K) (frames : List Spec.Dcd.Frame) :
    (frames.map fun f => [m.f8 f.a, m.f8 f.b, m.f8 f.c, conv m convang (m.f8 f.alpha), conv m convang (m.f8 f.beta), conv m convang (m.f8 f.gamma)]).map
      (scaleRow fac) = dcdConst m.f8 (conv m convang) fac frames := by
  simp [scaleRow, dcdConst, Function.comp_def]

end

/-! ## CP2K -/

section
variable {d : Cp2kData K} {fs : Cp2kFiles} {na : Nat} {frames : List Spec.Dcd.Frame} {file : Spec.Dcd.Bytes}

theorem lift_ok {A : Type} (v : A) : lift (.ok v : Except PErr A) = .ok v := rfl

theorem forces_get (h : IsCp2kTables num d (noCells fs.txt)) :
    cp2kForces num (some d.symbols.length) fs.txt = .ok (if d.frc = [] then none else some d.frc) := by
  unfold cp2kForces
  cases hf : fs.txt.frc with
  | none => exact Cp2kOut.C123_forces_of num _ _ _ (List.length_pos_of_ne_nil h.atoms0) (h.frcOut hf)
  | some f =>
    have hx := h.frc f hf
    have h0 : d.frc ≠ [] := by
      obtain ⟨fr, h0, -, -, e⟩ := hx
      rw [← e]
      simpa using h0
    simp only [(Cp2kRead.xyz_file _ _ _ hx).1, Except.map, if_neg h0]

theorem cp2k_parse (h : IsCp2kTables num d (noCells fs.txt)) (h2 : TwoRows d (noCells fs.txt)) (hd : fs.dcd = some file)
    (hdcd : IsDcd d.symbols.length frames file) (ht : FirstLine (HasText "MD| Time Step [fs]".toList) (TimeStepLine num) fs.txt.out d.dt) (m : Fmt K) (junk : K) :
    ∃ attrs, parseCp2k m junk num fs = .ok (attrs,
        some (.many (frames.map fun f => [m.f8 f.a, m.f8 f.b, m.f8 f.c, conv m false (m.f8 f.alpha), conv m false (m.f8 f.beta), conv m false (m.f8 f.gamma)]))) ∧
    attrs .cell = none ∧ attrs .coords = some (.arr (frames.map fun f => f.atoms.map fun p => [m.f4 p.1, m.f4 p.2.1, m.f4 p.2.2])) ∧
    attrs .ekin = (if fs.txt.ener = none then none else some (.vec (d.ener.map EnerRow.ekin))) ∧
    attrs .etot = (if fs.txt.ener = none then none else some (.vec (d.ener.map EnerRow.epot))) ∧
    attrs .temperature = (if fs.txt.ener = none then none else some (.vec (d.ener.map EnerRow.temp))) ∧
    attrs .forces = (if d.frc = [] then none else some (.arr d.frc)) ∧
    attrs .stress = (if fs.txt.stress = none then none else some (.arr (d.stress.map CellRow.cell))) ∧
    attrs .timestep = some (.num d.dt) ∧
    attrs .velocity = (if fs.txt.vel = none then none else some (.arr d.vel)) ∧
    attrs (.other "symbols") = (if fs.txt.pos.or (fs.txt.frc.or fs.txt.vel) = none then none else some (.words d.symbols)) ∧
    attrs (.other "natoms") = some (.nat d.symbols.length) ∧ attrs (.other "volume") = none := by
  obtain ⟨e1, e2, e3, e4⟩ := Cp2kRead.ener_get h junk h2.ener
  have x2 := (Cp2kRead.xyz_get h).2
  have hs := Cp2kRead.stress_get h junk h2.stress
  have hsy : Cp2kRead.symbols (some d.symbols.length) fs.txt =
      if fs.txt.pos.or (fs.txt.frc.or fs.txt.vel) = none then none else some d.symbols := (Cp2kRead.symbols_run (fs := noCells fs.txt) h :)
  have htm : Cp2kOut.timestep num fs.txt.out = .ok (some d.dt) := by
    obtain ⟨A, l, B, e, hA, p, s, w, t, rfl, hs, hw, hb, ht, hx⟩ := ht
    rw [e]
    exact (Cp2kOut.C123_timestep num A B p s w t _ hA hs hw hb ht hx).1
  unfold noCells at e1 e2 e3 e4 x2 hs
  simp only at e1 e2 e3 e4 x2 hs
  unfold parseCp2k
  rw [hd, dcd_data m false _ frames file hdcd]
  simp only [Except.bind, Option.map_some]
  rw [e4, e1, e3, forces_get h, hs, e2, htm, x2]
  simp only [lift_ok, hsy]
  refine ⟨_, rfl, rfl, rfl, ?_, ?_, ?_, ?_, ?_, rfl, ?_, ?_, ?_, ?_⟩
  · simp only; split <;> rfl
  · simp only; split <;> rfl
  · simp only; split <;> rfl
  · simp only; split <;> rfl
  · simp only; split <;> rfl
  · simp only; split <;> rfl
  · simp only [if_true]
    split <;> rfl
  · simp
  · simp

variable [Field K] [DecidableEq K]

/-- **C135** `read_cp2k_md_dcd`, whatever parsers have been used before: coordinates and lattice constants of the frames of the dcd file, in order, and the contents
of the text files which exist, times the factors of the user, or else in eV, Angstrom, eV/Angstrom, GPa, fs. The cell is computed (by the getter of the
container) from the lattice constants of the dcd file, whatever the file of cells says. Partial: the tables need two rows. -/
theorem C135_cp2k_partial (h : IsCp2kTables num d (noCells fs.txt)) (h2 : TwoRows d (noCells fs.txt)) (hd : fs.dcd = some file)
    (hdcd : IsDcd d.symbols.length frames file) (ht : FirstLine (HasText "MD| Time Step [fs]".toList) (TimeStepLine num) fs.txt.out d.dt)
    (c : Consts K) (hist : List (Kind × UDict K)) (user : UDict K) (g : Getters K (Val K)) (m : Fmt K) (junk : K) :
    ∃ tr, readCp2kMdDcd c hist user g m junk num fs = .ok tr ∧ tr.attr (.other "natoms") = some (.nat d.symbols.length) ∧
      tr.attr (.other "nstep") = some (.nat frames.length) ∧ tr.attr .coords = some (.arr (dcdCoords m.f4 ((user .length).getD 1) frames)) ∧
      tr.cc = some (.many (dcdConst m.f8 id ((user .length).getD 1) frames)) ∧
      (∀ f, (∀ o rows, o.cc = some (CC.many rows) → g.attr o .cell = some (.arr (rows.map f))) →
        tr.attr .cell = some (.arr ((dcdConst m.f8 id ((user .length).getD 1) frames).map f))) ∧
      (fs.txt.pos ≠ none ∨ fs.txt.frc ≠ none ∨ fs.txt.vel ≠ none → tr.attr (.other "symbols") = some (.words d.symbols)) ∧
      (fs.txt.stress ≠ none → tr.attr .stress = some (.arr (scaled ((user .stress).getD (1 / 10000)) (d.stress.map CellRow.cell)))) ∧
      (fs.txt.ener ≠ none → tr.attr .etot = some (.vec (d.ener.map fun r => r.epot * (user .energy).getD (c.Ha / c.eV))) ∧
        tr.attr .ekin = some (.vec (d.ener.map fun r => r.ekin * (user .energy).getD (c.Ha / c.eV))) ∧
        tr.attr .temperature = some (.vec (d.ener.map fun r => r.temp * (user .temperature).getD 1))) ∧
      (d.frc ≠ [] → tr.attr .forces = some (.arr (scaled ((user .forces).getD (c.Ha / c.eV * c.Ang / c.Bohr)) d.frc))) ∧
      (fs.txt.vel ≠ none → tr.attr .velocity = some (.arr (scaled ((user .velocity).getD (c.Bohr / c.Ang * c.fs / c.thart)) d.vel))) ∧
      tr.attr .timestep = some (.num (d.dt * (user .time).getD 1)) := by
  obtain ⟨attrs, p0, p1, p2, p3, p4, p5, p6, p7, p8, p9, p10, p11, -⟩ := cp2k_parse h h2 hd hdcd ht m junk
  obtain ⟨tr, t0, t1, t2, t3⟩ := toTraj_attr c hist .cp2kDcd user g attrs
    (some (.many (frames.map fun f => [m.f8 f.a, m.f8 f.b, m.f8 f.c, conv m false (m.f8 f.alpha), conv m false (m.f8 f.beta), conv m false (m.f8 f.gamma)]))) (by simp)
  obtain ⟨tr', o, s0, s1, s2, s3⟩ := toTraj_dcd c hist .cp2kDcd user g attrs _ _ p2
    (by rw [List.length_map, List.length_map] : (frames.map fun f => [m.f8 f.a, m.f8 f.b, m.f8 f.c, conv m false (m.f8 f.alpha), conv m false (m.f8 f.beta),
      conv m false (m.f8 f.gamma)]).length = _) (by intro r hr; simp only [List.mem_map] at hr; obtain ⟨f, -, rfl⟩ := hr; rfl)
  obtain rfl : tr = tr' := by
    rw [t0] at s0
    injection s0
  have f := fun q => units_of c hist .cp2kDcd user q (by cases q <;> rfl) (by simp)
  simp only [f, factor] at t1 t2 t3 s1
  rw [scale_const m false] at s1
  refine ⟨tr, ?_, ?_, ?_, ?_, ?_, fun fc hg => ?_, fun e => ?_, fun e => ?_, fun e => ⟨?_, ?_, ?_⟩, fun e => ?_, fun e => ?_, ?_⟩
  · unfold readCp2kMdDcd
    rw [p0]
    simp only [t0]
  · rw [t1 _ _ (by simp) (by simp) p11]
    rfl
  · rw [(t3 frames.length (.inl ⟨_, p2, by rw [List.length_map]⟩)).1]
  · rw [t1 .coords _ (by simp) (by simp) p2]
    simp only [unitFactor, f, factor, scale_coords]
  · exact s1
  · rw [s3 .cell (by simp) p1]
    exact hg o _ (s2.trans s1)
  · rw [t1 (.other "symbols") (.words d.symbols) (by simp) (by simp) (by
      rw [p10, if_neg]
      rcases e with e | e | e
      · simp [e]
      · simp [e]
      · simp [e])]
    rfl
  · rw [t1 .stress _ (by simp) (by simp) (by rw [p7, if_neg e])]
    simp only [unitFactor, f, factor]
    rfl
  · rw [t1 .etot _ (by simp) (by simp) (by rw [p4, if_neg e])]
    simp only [unitFactor, f, factor, Val.scale, List.map_map]
    rfl
  · rw [t1 .ekin _ (by simp) (by simp) (by rw [p3, if_neg e])]
    simp only [unitFactor, f, factor, Val.scale, List.map_map]
    rfl
  · rw [t1 .temperature _ (by simp) (by simp) (by rw [p5, if_neg e])]
    simp only [unitFactor, f, factor, Val.scale, List.map_map]
    rfl
  · rw [t1 .forces _ (by simp) (by simp) (by rw [p6, if_neg e])]
    simp only [unitFactor, f, factor]
    rfl
  · rw [t1 .velocity _ (by simp) (by simp) (by rw [p9, if_neg e])]
    simp only [unitFactor, f, factor]
    rfl
  · rw [t1 .timestep _ (by simp) (by simp) p8]
    simp only [unitFactor, f, factor, Val.scale]

end

/-! ## LAMMPS -/

section
variable [Field K] [LinearOrder K] {fs : LmpFiles} {na : Nat} {frames : List Spec.Dcd.Frame} {file : Spec.Dcd.Bytes} {tcols : List Text}
  {runs : List (List (List K))} {order : Option (List (Text × Int))} {toInt : K → Int} {junk : K} {syms : Option (List Text)}

omit [Field K] [LinearOrder K] in
theorem dumpArr_same (dump : List Text) (h : Lmp.natoms dump = .ok na) : dumpArr num na dump = Lmp.dumpArr num dump := by
  unfold dumpArr Lmp.dumpArr
  rw [h]

omit [Field K] [LinearOrder K] in
theorem lmp_same (dump : List Text) (txt : LmpRead.Files) (hd : txt.dump = some dump) (h : Lmp.natoms dump = .ok na) :
    lmpSymbols junk toInt num order (some na) txt = LmpRead.symbols junk toInt num order txt := by
  unfold lmpSymbols LmpRead.symbols
  cases txt.symbols with
  | some t => rfl
  | none =>
    simp only [hd, LmpRead.ifDump, dumpArr_same dump h, Lmp.symbols, h]
    cases Lmp.dumpArr num dump <;> rfl

theorem lmp_symbols (hs : DcdSymbols num junk toInt na order fs.txt syms) : lmpSymbols junk toInt num order (some na) fs.txt = .ok syms := by
  cases hs with
  | file h =>
    unfold lmpSymbols
    rw [h]
  | dump hd hdump hl =>
    rw [lmp_same _ _ hd (LmpRead.dump_get junk hdump).2.1]
    exact LmpRead.symbols_get hdump hd hl
  | none h1 h2 =>
    unfold lmpSymbols
    rw [h1, h2]

theorem lmp_parse (hd : fs.dcd = some file) (hdcd : IsDcd na frames file) (hl : IsLog num tcols runs fs.txt.log)
    (hs : DcdSymbols num junk toInt na order fs.txt syms) (dt : Option K) (ht : LmpRead.timestep num fs.txt.log = .ok dt) (m : Fmt K) :
    let col := fun (name : String) => if name.toList ∈ tcols then some (Val.vec (runs.flatten.map fun x => named junk tcols x name.toList)) else none
    ∃ attrs, parseLmp m junk toInt num order fs = .ok (attrs,
        some (.many (frames.map fun f => [m.f8 f.a, m.f8 f.b, m.f8 f.c, conv m true (m.f8 f.alpha), conv m true (m.f8 f.beta), conv m true (m.f8 f.gamma)]))) ∧
      attrs .cell = none ∧ attrs (.other "volume") = none ∧
      attrs .coords = some (.arr (frames.map fun f => f.atoms.map fun p => [m.f4 p.1, m.f4 p.2.1, m.f4 p.2.2])) ∧
      attrs .etot = col "PotEng" ∧ attrs .ekin = col "KinEng" ∧ attrs .temperature = col "Temp" ∧ attrs .timestep = dt.map .num ∧
      attrs (.other "natoms") = some (.nat na) ∧ attrs (.other "symbols") = syms.map .words ∧
      attrs .stress = (if AllIn ["Pxx", "Pyy", "Pzz", "Pxy", "Pxz", "Pyz"] tcols then some (.arr (runs.flatten.map (pressure junk tcols))) else none) ∧
      attrs .forces = none ∧ attrs .velocity = none := by
  obtain ⟨l1, l2, l3, -, -, l6⟩ := LmpRead.log_get junk hl
  unfold parseLmp
  rw [hd, dcd_data m true _ frames file hdcd]
  simp only [Except.bind, Option.map_some, l1, l2, l3, l6, lmp_symbols hs, ht, lift_ok]
  refine ⟨_, rfl, rfl, ?_, rfl, ?_, ?_, ?_, rfl, ?_, ?_, ?_, rfl, rfl⟩
  · simp
  · simp only; split <;> rfl
  · simp only; split <;> rfl
  · simp only; split <;> rfl
  · simp
  · simp
  · simp only; split <;> rfl

/-- **C135** `read_lammps_md_dcd`, whatever parsers have been used before: coordinates and lattice constants (angles in degrees from the cosines in the file) of the
frames of the dcd file, in order, and what the columns of the log file say, times the factors of the user, or else in eV, Angstrom, GPa, fs. Cell and volume
are those of the getters, found from the lattice constants of the dcd file, so they have the units of the lengths whatever factor the user has given.
Partial: the columns of all runs in the log are the same (`C89_thermo_counterexample`), and there is one `timestep` command with one number. -/
theorem C135_lammps_partial (hd : fs.dcd = some file) (hdcd : IsDcd na frames file) (hl : IsLog num tcols runs fs.txt.log)
    (hs : DcdSymbols num junk toInt na order fs.txt syms) (dt : K) (ht : FirstLine (Has "timestep".toList) (LmpTimeLine num) fs.txt.log dt)
    (c : Consts K) (hist : List (Kind × UDict K)) (user : UDict K) (g : Getters K (Val K)) (m : Fmt K) :
    ∃ tr o, readLammpsMdDcd c hist user g m junk toInt num order fs = .ok tr ∧ tr.attr (.other "natoms") = some (.nat na) ∧
      tr.attr (.other "nstep") = some (.nat frames.length) ∧ tr.attr .coords = some (.arr (dcdCoords m.f4 ((user .length).getD 1) frames)) ∧
      tr.cc = some (.many (dcdConst m.f8 m.acos ((user .length).getD 1) frames)) ∧
      o.cc = tr.cc ∧ tr.attr .cell = g.attr o .cell ∧ tr.attr (.other "volume") = g.attr o (.other "volume") ∧
      (∀ w, syms = some w → tr.attr (.other "symbols") = some (.words w)) ∧
      ("PotEng".toList ∈ tcols → tr.attr .etot = some (.vec (runs.flatten.map fun r => named junk tcols r "PotEng".toList * (user .energy).getD 1))) ∧
      ("KinEng".toList ∈ tcols → tr.attr .ekin = some (.vec (runs.flatten.map fun r => named junk tcols r "KinEng".toList * (user .energy).getD 1))) ∧
      ("Temp".toList ∈ tcols → tr.attr .temperature = some (.vec (runs.flatten.map fun r => named junk tcols r "Temp".toList * (user .temperature).getD 1))) ∧
      (AllIn ["Pxx", "Pyy", "Pzz", "Pxy", "Pxz", "Pyz"] tcols →
        tr.attr .stress = some (.arr (scaled ((user .stress).getD (1 / 10000)) (runs.flatten.map (pressure junk tcols))))) ∧
      tr.attr .timestep = some (.num (dt * (user .time).getD (c.ps / c.fs))) := by
  obtain ⟨attrs, p0, p1, p2, p3, p4, p5, p6, p7, p8, p9, p10, -, -⟩ := lmp_parse hd hdcd hl hs (some dt) (LmpRead.timestep_eq _ _ ht) m
  beta_reduce at p4 p5 p6
  obtain ⟨tr, t0, t1, t2, t3⟩ := toTraj_attr c hist .lammpsDcd user g attrs
    (some (.many (frames.map fun f => [m.f8 f.a, m.f8 f.b, m.f8 f.c, conv m true (m.f8 f.alpha), conv m true (m.f8 f.beta), conv m true (m.f8 f.gamma)]))) (by simp)
  obtain ⟨tr', o, s0, s1, s2, s3⟩ := toTraj_dcd c hist .lammpsDcd user g attrs _ _ p3
    (by rw [List.length_map, List.length_map] : (frames.map fun f => [m.f8 f.a, m.f8 f.b, m.f8 f.c, conv m true (m.f8 f.alpha), conv m true (m.f8 f.beta),
      conv m true (m.f8 f.gamma)]).length = _) (by intro r hr; simp only [List.mem_map] at hr; obtain ⟨f, -, rfl⟩ := hr; rfl)
  obtain rfl : tr = tr' := by
    rw [t0] at s0
    injection s0
  have f := fun q => units_of c hist .lammpsDcd user q (by cases q <;> rfl) (by simp)
  simp only [f, factor] at t1 t2 t3 s1
  rw [scale_const m true] at s1
  refine ⟨tr, o, ?_, ?_, ?_, ?_, ?_, s2, s3 .cell (by simp) p1, s3 (.other "volume") (by simp) p2, fun w hw => ?_, fun hin => ?_, fun hin => ?_, fun hin => ?_, fun e => ?_, ?_⟩
  · unfold readLammpsMdDcd
    rw [p0]
    simp only [t0]
  · rw [t1 _ _ (by simp) (by simp) p8]
    rfl
  · rw [(t3 frames.length (.inl ⟨_, p3, by rw [List.length_map]⟩)).1]
  · rw [t1 .coords _ (by simp) (by simp) p3]
    simp only [unitFactor, f, factor, scale_coords]
  · exact s1
  · rw [t1 (.other "symbols") (.words w) (by simp) (by simp) (by rw [p9, hw]; rfl)]
    rfl
  · rw [t1 .etot _ (by simp) (by simp) (by rw [p4, if_pos hin])]
    simp only [unitFactor, f, factor, Val.scale, List.map_map]
    rfl
  · rw [t1 .ekin _ (by simp) (by simp) (by rw [p5, if_pos hin])]
    simp only [unitFactor, f, factor, Val.scale, List.map_map]
    rfl
  · rw [t1 .temperature _ (by simp) (by simp) (by rw [p6, if_pos hin])]
    simp only [unitFactor, f, factor, Val.scale, List.map_map]
    rfl
  · rw [t1 .stress _ (by simp) (by simp) (by rw [p10, if_pos e])]
    simp only [unitFactor, f, factor]
    rfl
  · rw [t1 .timestep _ (by simp) (by simp) p7]
    simp only [unitFactor, f, factor, Val.scale]

end

/-! ## incomplete files -/

/-- **C135** A run which was killed while it wrote a frame of the dcd file: both readers refuse the file. -/
theorem C135_killed [Field K] [DecidableEq K] (na : Nat) (frames : List Spec.Dcd.Frame) (file part : Spec.Dcd.Bytes) (h : IsDcd na frames file) (hp : part ≠ [])
    (hl : part.length < 80 + 12 * na) (c : Consts K) (hist : List (Kind × UDict K)) (user : UDict K) (g : Getters K (Val K)) (m : Fmt K) (junk : K)
    (toInt : K → Int) (order : Option (List (Text × Int))) (cp : Cp2kRead.Files) (lm : LmpRead.Files) :
    readCp2kMdDcd c hist user g m junk num ⟨cp, some (file ++ part)⟩ = .error (.inl (.dcd .assertion)) ∧
    readLammpsMdDcd c hist user g m junk toInt num order ⟨lm, some (file ++ part)⟩ = .error (.inl (.dcd .assertion)) := by
  constructor
  · unfold readCp2kMdDcd parseCp2k
    rw [dcd_killed m false na frames file part h hp hl]
    rfl
  · unfold readLammpsMdDcd parseLmp
    rw [dcd_killed m true na frames file part h hp hl]
    rfl

/-! ## the cell of a LAMMPS run -/

theorem cos_degrees (x : ℝ) (h1 : -1 ≤ x) (h2 : x ≤ 1) : Real.cos (degrees x * Real.pi / 180) = x := by
  unfold degrees
  have : Real.arccos x * 180 / Real.pi * Real.pi / 180 = Real.arccos x := by
    field_simp
  rw [this, Real.cos_arccos h1 h2]

theorem sin_degrees (x : ℝ) : Real.sin (degrees x * Real.pi / 180) = Real.sqrt (1 - x ^ 2) := by
  unfold degrees
  have : Real.arccos x * 180 / Real.pi * Real.pi / 180 = Real.arccos x := by
    field_simp
  rw [this, Real.sin_arccos]

theorem abs_le_one_of_sq_le (b : ℝ) {x : ℝ} (hb : 0 < b) (h : (b * x) ^ 2 ≤ b ^ 2) : |x| ≤ 1 := by
  rw [mul_pow] at h
  have : x ^ 2 ≤ 1 := by
    by_contra hx
    nlinarith [pow_pos hb 2]
  exact (sq_le_one_iff_abs_le_one x).1 this

/-- The cell of the lattice constants of a box is the box. -/
theorem rowCell_box (a b c ca cb cg ax xy y xz yz z : ℝ) (h0 : 0 < ax) (h1 : 0 < y) (h2 : 0 < z) (pa : 0 < a) (pb : 0 < b) (pc : 0 < c) (ha : a ^ 2 = ax ^ 2)
    (hb : b ^ 2 = xy ^ 2 + y ^ 2) (hc : c ^ 2 = xz ^ 2 + yz ^ 2 + z ^ 2) (e1 : b * c * ca = xy * xz + y * yz) (e2 : a * c * cb = ax * xz)
    (e3 : a * b * cg = ax * xy) : rowCell [a, b, c, degrees ca, degrees cb, degrees cg] = [[ax, 0, 0], [xy, y, 0], [xz, yz, z]] := by
  obtain rfl : a = ax := by nlinarith [sq_nonneg (a - ax), mul_pos pa h0]
  have g1 : b * cg = xy := by
    apply mul_left_cancel₀ pa.ne'
    linarith
  have g2 : c * cb = xz := by
    apply mul_left_cancel₀ pa.ne'
    linarith
  have bg : -1 ≤ cg ∧ cg ≤ 1 := by
    apply abs_le.1
    apply abs_le_one_of_sq_le (b) pb
    rw [g1, hb]
    nlinarith
  have bb : -1 ≤ cb ∧ cb ≤ 1 := by
    apply abs_le.1
    apply abs_le_one_of_sq_le (c) pc
    rw [g2, hc]
    nlinarith
  have ba : -1 ≤ ca ∧ ca ≤ 1 := by
    apply abs_le.1
    apply abs_le_one_of_sq_le (b * c) (mul_pos pb pc)
    rw [e1, mul_pow, hb, hc]
    nlinarith [sq_nonneg (xy * yz - y * xz), sq_nonneg (xy * z), sq_nonneg (y * z)]
  have hs : b * Real.sqrt (1 - cg ^ 2) = y := by
    rw [← Real.sqrt_sq pb.le, ← Real.sqrt_mul (sq_nonneg b), ← Real.sqrt_sq h1.le]
    congr 1
    linear_combination hb - (b * cg + xy) * g1
  have hs0 : Real.sqrt (1 - cg ^ 2) ≠ 0 := fun e => by
    rw [e, mul_zero] at hs
    exact h1.ne hs
  have hy : c * (ca - cb * cg) / Real.sqrt (1 - cg ^ 2) = yz := by
    rw [div_eq_iff hs0]
    apply mul_left_cancel₀ pb.ne'
    have : b * (yz * Real.sqrt (1 - cg ^ 2)) = yz * y := by rw [← hs]; ring
    rw [this]
    have e4 : (b * cg) * (c * cb) = xy * xz := by rw [g1, g2]
    nlinarith
  have hz : Real.sqrt (c ^ 2 - yz ^ 2 - xz ^ 2) = z := by
    rw [hc, ← Real.sqrt_sq h2.le]
    congr 1
    rw [Real.sq_sqrt (sq_nonneg z)]
    ring
  unfold rowCell Cry.cc2cell
  simp only [List.getD_cons_zero, List.getD_cons_succ, cos_degrees _ ba.1 ba.2, cos_degrees _ bb.1 bb.2, cos_degrees _ bg.1 bg.2, sin_degrees, Matrix.of_apply,
    Matrix.cons_val_zero, Matrix.cons_val_one, Matrix.cons_val, g1, g2, hs, hy, hz]

/-- **C135** "the cell and cryst_const obtained from read_lammps_md_dcd() and read_lammps_md_txt() must be identical": for a run which wrote its boxes to a dump file
and to a dcd file, both readers find the same cells, namely the boxes times the (positive) factor of the user for lengths. -/
theorem C135_same_cell {num : Text → Option ℝ} {cols tcols dump : List Text} {na : Nat} {boxes : List (Box ℝ)} {fr : List (Frame ℝ)} {runs : List (List (List ℝ))}
    {order : Option (List (Text × Int))} {toInt : ℝ → Int} {junk : ℝ} {fs : LmpFiles} {frames : List Spec.Dcd.Frame} {file : Spec.Dcd.Bytes} {syms : Option (List Text)}
    (hd : IsDump num cols na boxes fr dump) (hf : fs.txt.dump = some dump) (hx : AllIn ["xu", "yu", "zu"] cols ∨ AllIn ["xsu", "ysu", "zsu"] cols)
    (hl : IsLog num tcols runs fs.txt.log) (hs : LmpSymbols junk toInt cols (fr.head?.elim [] Frame.rows) order fs.txt syms) (dt : ℝ)
    (ht : FirstLine (Has "timestep".toList) (LmpTimeLine num) fs.txt.log dt) (hb : fs.dcd = some file) (hdcd : IsDcd na frames file) (m : Fmt ℝ)
    (hm : m.acos = degrees) (hc : List.Forall₂ (SameCell m.f8) boxes frames) (c : Consts ℝ) (hist : List (Kind × UDict ℝ)) (user : UDict ℝ)
    (hu : 0 < (user .length).getD 1) (g : Getters ℝ (Val ℝ)) (hg : ∀ o, g.attr o .cell = getCell o.cc) :
    ∃ tr tr', LmpRead.readLammpsMdTxt c hist user g junk toInt num order fs.txt = .ok tr ∧ readLammpsMdDcd c hist user g m junk toInt num order fs = .ok tr' ∧
      tr.attr .cell = some (.arr (scaled ((user .length).getD 1) (boxes.map Box.cell))) ∧ tr'.attr .cell = tr.attr .cell := by
  obtain ⟨tr, t0, -, -, -, -, -, -, t1, -⟩ := LmpRead.C130_traj_partial hd hf hl hs dt ht c hist user g
  obtain ⟨tr', o, s0, -, -, -, s1, s2, s3, -⟩ := C135_lammps_partial hb hdcd hl (.dump hf hd hs) dt ht c hist user g m
  refine ⟨tr, tr', t0, s0, (t1 hx).2, ?_⟩
  rw [(t1 hx).2, s3, hg, s2, s1]
  show some (Val.arr _) = _
  congr 2
  unfold dcdConst scaled
  rw [List.map_map, List.map_map, hm]
  clear hd hdcd s1 t1
  induction hc with
  | nil => rfl
  | @cons b f bs fr' h _ ih =>
    rw [List.map_cons, List.map_cons, ih]
    congr 1
    have h3 := h.la
    have h4 := h.lb
    have h5 := h.lc
    have h6 := h.alpha
    have h7 := h.beta
    have h8 := h.gamma
    obtain ⟨p1, p2, p3⟩ := h.pos
    obtain ⟨q1, q2, q3⟩ := h.len
    generalize (user .length).getD 1 = u at hu
    have := rowCell_box (m.f8 f.a * u) (m.f8 f.b * u) (m.f8 f.c * u) (m.f8 f.alpha) (m.f8 f.beta) (m.f8 f.gamma) ((b.xhi - b.xlo) * u) (b.xy * u)
      ((b.yhi - b.ylo) * u) (b.xz * u) (b.yz * u) ((b.zhi - b.zlo) * u) (mul_pos (by linarith) hu) (mul_pos (by linarith) hu) (mul_pos (by linarith) hu)
      (mul_pos q1 hu) (mul_pos q2 hu) (mul_pos q3 hu) (by rw [mul_pow, h3, mul_pow]) (by rw [mul_pow, h4]; ring) (by rw [mul_pow, h5]; ring)
      (by linear_combination u ^ 2 * h6) (by linear_combination u ^ 2 * h7) (by linear_combination u ^ 2 * h8)
    simp only [Function.comp_apply, this, Box.cell, List.map_cons, List.map_nil, zero_mul]

end Pwtools.DcdRead
