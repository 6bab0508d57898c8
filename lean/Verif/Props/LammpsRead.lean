import Verif.Spec.LammpsRead
import Verif.Props.ReadMd
import Verif.Props.Lammps
import Verif.Props.PwHead
import Verif.Props.Cp2k
/-!
# C130: `read_lammps_md_txt` returns what is in the files
-/
namespace Pwtools.LmpRead
open Gr Tr Units PwMd ReadMd Spec
variable {K : Type} {num : Text → Option K}

/-! ## time step -/

theorem lastKey_append (key : Text) (p r x : Text) (h : Lmp.lastKey key r = some x) : Lmp.lastKey key (p ++ r) = some x := by
  induction p with
  | nil => exact h
  | cons c p ih => simp only [List.cons_append, Lmp.lastKey, ih]

theorem after_step (p r : Text) (h : ¬ Has "step ".toList r) : Lmp.afterLast "step ".toList (p ++ "timestep ".toList ++ r) = r := by
  have h0 : Lmp.lastKey ['s', 't', 'e', 'p', ' '] r = none := Lmp.lastKey_none _ _ h
  have : Lmp.lastKey "step ".toList (p ++ ("timestep ".toList ++ r)) = some r := by
    apply lastKey_append
    simp [Lmp.lastKey, h0]
  unfold Lmp.afterLast
  rw [List.append_assoc, this]
  rfl

theorem after_ment (p r : Text) (h : ¬ Has "ment ".toList r) : Lmp.afterLast "ment ".toList (p ++ "element ".toList ++ r) = r := by
  have h0 : Lmp.lastKey ['m', 'e', 'n', 't', ' '] r = none := Lmp.lastKey_none _ _ h
  have : Lmp.lastKey "ment ".toList (p ++ ("element ".toList ++ r)) = some r := by
    apply lastKey_append
    simp [Lmp.lastKey, h0]
  unfold Lmp.afterLast
  rw [List.append_assoc, this]
  rfl

theorem timestep_eq (log : List Text) (dt : K) (h : FirstLine (Has "timestep".toList) (LmpTimeLine num) log dt) : timestep num log = .ok (some dt) := by
  obtain ⟨A, l, B, rfl, hA, p, s, w, t, rfl, hs, hw, ht, hk, hx⟩ := h
  unfold timestep
  rw [PwHead.find_first _ A B _ (fun a ha => Lmp.has_false (hA a ha)) ((Lmp.has_iff _ _).2 ⟨p, ' ' :: (s ++ w ++ t), by simp⟩)]
  simp only [after_step p _ hk, PwHead.splitWs_word s w t hs hw ht, hx]

theorem timestep_none (log : List Text) (h : ∀ l ∈ log, ¬ Has "timestep".toList l) : timestep num log = .ok none := by
  unfold timestep
  rw [List.find?_eq_none.2 fun l hl => by rw [Lmp.has_false (h l hl)]; simp]

/-! ## symbols -/

theorem elementLike_iff (l : Text) : hasSeq ["dump_modify".toList, "element".toList] l = true ↔ ElementLike l := Cp2k.hasSeq_two _ _ _

theorem element_order (log names : List Text) (h : FirstLine ElementLike ElementLine log names) :
    elementOrder log = names.zipIdx.map fun p => (p.1, (p.2 : Int) + 1) := by
  obtain ⟨A, l, B, rfl, hA, a, b, c, rfl, hc, hn⟩ := h
  unfold elementOrder
  rw [PwHead.find_first _ A B _ (fun x hx => by rw [← Bool.not_eq_true, elementLike_iff]; exact hA x hx)
    ((elementLike_iff _).2 ⟨a, b, ' ' :: c, by simp⟩)]
  simp only [after_ment _ _ hc, hn]

theorem element_nodup (names : List Text) : ((names.zipIdx.map fun p => (p.1, (p.2 : Int) + 1)).map Prod.snd).Nodup := by
  have : (names.zipIdx.map fun p => (p.1, (p.2 : Int) + 1)).map Prod.snd = (List.range names.length).map fun i : Nat => (i : Int) + 1 := by
    apply List.ext_getElem
    · simp
    · intro i h1 h2
      simp
  rw [this]
  exact List.Nodup.map (fun a b h => by simpa using h) List.nodup_range

theorem element_mem (names : List Text) (i : Nat) (s : Text) (h : names[i]? = some s) :
    (s, (i : Int) + 1) ∈ names.zipIdx.map fun p => (p.1, (p.2 : Int) + 1) :=
  List.mem_map.2 ⟨(s, i), by simpa [List.mem_zipIdx_iff_getElem?] using h, rfl⟩

/-! ## the parser -/

section
variable [Field K] [LinearOrder K] {cols tcols : List Text} {na : Nat} {boxes : List (Box K)} {frames : List (Frame K)} {runs : List (List (List K))}
  {order : Option (List (Text × Int))} {toInt : K → Int} {junk : K} {fs : Files} {dump : List Text} {r : Text} {syms : Option (List Text)}

theorem dump_get (junk : K) (hd : IsDump num cols na boxes frames dump) :
    let arr := fun (x y z : String) => Except.ok (if x.toList ∈ cols ∧ y.toList ∈ cols ∧ z.toList ∈ cols then some (dumped junk cols frames x y z) else none)
    Lmp.cell num dump = .ok (boxes.map Box.cell) ∧ Lmp.natoms dump = .ok na ∧
    Lmp.coords junk num dump = arr "xu" "yu" "zu" ∧ Lmp.coordsFrac junk num dump = arr "xsu" "ysu" "zsu" ∧
    Lmp.forces junk num dump = arr "fx" "fy" "fz" ∧ Lmp.velocity junk num dump = arr "vx" "vy" "vz" := by
  obtain ⟨t, hc, rfl⟩ := hd.text
  refine ⟨Lmp.C89_cell_partial hc frames hd.wf boxes hd.box, ?_, Lmp.C89_arrays junk hc hd.names frames hd.wf hd.ne hd.atoms⟩
  obtain ⟨f, fs', rfl⟩ := List.exists_cons_of_ne_nil hd.ne
  rw [List.flatMap_cons]
  exact Lmp.natoms_eq f _ (hd.wf f (by simp)).step.1

theorem log_get (junk : K) {log : List Text} (hl : IsLog num tcols runs log) :
    let col := fun (name : String) => Except.ok (if name.toList ∈ tcols then some (runs.flatten.map fun x => named junk tcols x name.toList) else none)
    Lmp.etot junk num log = col "PotEng" ∧ Lmp.ekin junk num log = col "KinEng" ∧ Lmp.temperature junk num log = col "Temp" ∧
    Lmp.volume junk num log = col "Volume" ∧
    Lmp.crystConst junk num log = .ok (if AllIn ["Cella", "Cellb", "Cellc", "CellAlpha", "CellBeta", "CellGamma"] tcols then
      some (runs.flatten.map fun x => let v := fun (name : String) => named junk tcols x name.toList
        [v "Cella", v "Cellb", v "Cellc", v "CellAlpha", v "CellBeta", v "CellGamma"]) else none) ∧
    Lmp.stress junk num log = .ok (if AllIn ["Pxx", "Pyy", "Pzz", "Pxy", "Pxz", "Pyz"] tcols then some (runs.flatten.map (pressure junk tcols)) else none) := by
  obtain ⟨pre, rs, rfl, hp, h0, hr, hc, rfl⟩ := hl.text
  have hne : ∃ r ∈ rs, r.rows ≠ [] := by
    have := hl.ne
    simp only [ne_eq, List.flatten_eq_nil_iff, List.mem_map, not_forall] at this
    obtain ⟨x, ⟨r, hm, rfl⟩, hx⟩ := this
    exact ⟨r, hm, by simpa using hx⟩
  have h := Lmp.C89_thermo_partial junk pre hp rs h0 hr hc hl.two hne hl.names
  have e : (rs.flatMap LogRun.rows).map Prod.snd = (rs.map fun r => r.rows.map Prod.snd).flatten := by
    rw [← List.flatMap_def, List.map_flatMap]
  simp only [e] at h
  exact h

theorem symbols_get (hd : IsDump num cols na boxes frames dump) (hf : fs.dump = some dump)
    (hs : LmpSymbols junk toInt cols (frames.head?.elim [] Frame.rows) order fs syms) : symbols junk toInt num order fs = .ok syms := by
  obtain ⟨t, hc, rfl⟩ := hd.text
  obtain ⟨f, fr, rfl⟩ := List.exists_cons_of_ne_nil hd.ne
  unfold symbols
  cases hs with
  | file h => rw [h]
  | order h0 ho hi ht hr =>
    rw [h0, ho]
    simp only [ifDump, hf]
    exact (Lmp.C89_symbols junk toInt hc hd.names fr f hd.wf hd.atoms _ hi).2 _ ht hr
  | element h0 ho ht hl hr =>
    rw [h0, ho]
    simp only [ifDump, hf, Option.getD_none, element_order _ _ hl]
    refine (Lmp.C89_symbols junk toInt hc hd.names fr f hd.wf hd.atoms _ (element_nodup _)).2 _ ht (hr.imp ?_)
    rintro r s ⟨i, e, hi⟩
    rw [e]
    exact element_mem _ _ _ hi
  | noType h0 ht =>
    rw [h0]
    simp only [ifDump, hf]
    cases order with
    | none =>
      unfold Lmp.symbols
      obtain ⟨h1, h2⟩ := Lmp.dumpArr_eq hc (f :: fr) hd.wf (by simp) hd.atoms
      simp only [h1, h2]
      rw [Lmp.column_none cols _ ht]
    | some o =>
      unfold Lmp.symbols
      obtain ⟨h1, h2⟩ := Lmp.dumpArr_eq hc (f :: fr) hd.wf (by simp) hd.atoms
      simp only [h1, h2]
      rw [Lmp.column_none cols _ ht]

theorem parse_eq (hd : IsDump num cols na boxes frames dump) (hf : fs.dump = some dump) (hl : IsLog num tcols runs fs.log)
    (hs : LmpSymbols junk toInt cols (frames.head?.elim [] Frame.rows) order fs syms) (dt : Option K) (ht : timestep num fs.log = .ok dt) :
    let arr := fun (x y z : String) => if x.toList ∈ cols ∧ y.toList ∈ cols ∧ z.toList ∈ cols then some (Val.arr (dumped junk cols frames x y z)) else none
    let col := fun (name : String) => if name.toList ∈ tcols then some (Val.vec (runs.flatten.map fun x => named junk tcols x name.toList)) else none
    ∃ attrs cc, parse junk toInt num order fs = .ok (attrs, cc) ∧ attrs .cell = some (.arr (boxes.map Box.cell)) ∧
      attrs .coords = arr "xu" "yu" "zu" ∧ attrs (.other "coords_frac") = arr "xsu" "ysu" "zsu" ∧ attrs .forces = arr "fx" "fy" "fz" ∧
      attrs .velocity = arr "vx" "vy" "vz" ∧ attrs .etot = col "PotEng" ∧ attrs .ekin = col "KinEng" ∧ attrs .temperature = col "Temp" ∧
      attrs (.other "volume") = col "Volume" ∧ attrs .timestep = dt.map .num ∧ attrs (.other "natoms") = some (.nat na) ∧
      attrs (.other "symbols") = syms.map .words ∧
      attrs .stress = (if AllIn ["Pxx", "Pyy", "Pzz", "Pxy", "Pxz", "Pyz"] tcols then some (.arr (runs.flatten.map (pressure junk tcols))) else none) ∧
      cc = (if AllIn ["Cella", "Cellb", "Cellc", "CellAlpha", "CellBeta", "CellGamma"] tcols then
        some (CC.many (runs.flatten.map fun x => let v := fun (name : String) => named junk tcols x name.toList
          [v "Cella", v "Cellb", v "Cellc", v "CellAlpha", v "CellBeta", v "CellGamma"])) else none) := by
  obtain ⟨d1, d2, d3, d4, d5, d6⟩ := dump_get junk hd
  obtain ⟨l1, l2, l3, l4, l5, l6⟩ := log_get junk hl
  unfold parse
  simp only [ifDump, hf, d1, d2, d3, d4, d5, d6, l1, l2, l3, l4, l5, l6, symbols_get hd hf hs, ht, Except.bind, Except.map]
  refine ⟨_, _, rfl, rfl, ?_, ?_, ?_, ?_, ?_, ?_, ?_, ?_, rfl, ?_, ?_, ?_, ?_⟩
  · simp only; split <;> rfl
  · simp only [String.reduceEq, if_false, if_true]; split <;> rfl
  · simp only; split <;> rfl
  · simp only; split <;> rfl
  · simp only; split <;> rfl
  · simp only; split <;> rfl
  · simp only; split <;> rfl
  · simp only [String.reduceEq, if_false, if_true]; split <;> rfl
  · simp
  · simp
  · simp only; split <;> rfl
  · split <;> rfl

/-- **C130** `read_lammps_md_txt`, whatever parsers have been used before: what the columns of the dump file and of the log file say, frame by frame and row by
row, times the factors of the user, or else in eV, Angstrom, GPa, fs, Angstrom/fs. Partial: the boxes are triclinic (`C89_orthogonal_counterexample`), the
columns of all runs are the same (`C89_thermo_counterexample`), and see the counterexamples below. -/
theorem C130_traj_partial (hd : IsDump num cols na boxes frames dump) (hf : fs.dump = some dump) (hl : IsLog num tcols runs fs.log)
    (hs : LmpSymbols junk toInt cols (frames.head?.elim [] Frame.rows) order fs syms) (dt : K)
    (ht : FirstLine (Has "timestep".toList) (LmpTimeLine num) fs.log dt) (c : Consts K) (hist : List (Kind × UDict K)) (user : UDict K) (g : Getters K (Val K)) :
    ∃ tr, readLammpsMdTxt c hist user g junk toInt num order fs = .ok tr ∧ tr.attr (.other "natoms") = some (.nat na) ∧
      (∀ w, syms = some w → tr.attr (.other "symbols") = some (.words w)) ∧
      (AllIn ["xu", "yu", "zu"] cols → tr.attr .coords = some (.arr (scaled ((user .length).getD 1) (dumped junk cols frames "xu" "yu" "zu")))) ∧
      (AllIn ["xsu", "ysu", "zsu"] cols → tr.attr (.other "coords_frac") = some (.arr (dumped junk cols frames "xsu" "ysu" "zsu"))) ∧
      (AllIn ["fx", "fy", "fz"] cols → tr.attr .forces = some (.arr (scaled ((user .forces).getD 1) (dumped junk cols frames "fx" "fy" "fz")))) ∧
      (AllIn ["vx", "vy", "vz"] cols →
        tr.attr .velocity = some (.arr (scaled ((user .velocity).getD (c.fs / c.ps)) (dumped junk cols frames "vx" "vy" "vz")))) ∧
      (AllIn ["xu", "yu", "zu"] cols ∨ AllIn ["xsu", "ysu", "zsu"] cols → tr.attr (.other "nstep") = some (.nat frames.length) ∧
        tr.attr .cell = some (.arr (scaled ((user .length).getD 1) (boxes.map Box.cell)))) ∧
      ("PotEng".toList ∈ tcols → tr.attr .etot = some (.vec (runs.flatten.map fun r => named junk tcols r "PotEng".toList * (user .energy).getD 1))) ∧
      ("KinEng".toList ∈ tcols → tr.attr .ekin = some (.vec (runs.flatten.map fun r => named junk tcols r "KinEng".toList * (user .energy).getD 1))) ∧
      ("Temp".toList ∈ tcols → tr.attr .temperature = some (.vec (runs.flatten.map fun r => named junk tcols r "Temp".toList * (user .temperature).getD 1))) ∧
      ("Volume".toList ∈ tcols → tr.attr (.other "volume") = some (.vec (runs.flatten.map fun r => named junk tcols r "Volume".toList))) ∧
      (AllIn ["Pxx", "Pyy", "Pzz", "Pxy", "Pxz", "Pyz"] tcols →
        tr.attr .stress = some (.arr (scaled ((user .stress).getD (1 / 10000)) (runs.flatten.map (pressure junk tcols))))) ∧
      (AllIn ["Cella", "Cellb", "Cellc", "CellAlpha", "CellBeta", "CellGamma"] tcols → 2 ≤ runs.flatten.length →
        tr.cc = some (.many (runs.flatten.map fun x => let v := fun (name : String) => named junk tcols x name.toList
          let f := (user .length).getD 1
          [v "Cella" * f, v "Cellb" * f, v "Cellc" * f, v "CellAlpha", v "CellBeta", v "CellGamma"]))) ∧
      tr.attr .timestep = some (.num (dt * (user .time).getD (c.ps / c.fs))) := by
  obtain ⟨attrs, cc, p0, p1, p2, p3, p4, p5, p6, p7, p8, p9, p10, p11, p12, p13, p14⟩ := parse_eq hd hf hl hs (some dt) (timestep_eq _ _ ht)
  beta_reduce at p2 p3 p4 p5 p6 p7 p8 p9 p14
  have hcc : cc ≠ some .bad := by
    rw [p14]
    split <;> simp
  obtain ⟨tr, t0, t1, t2, t3⟩ := toTraj_attr c hist .lammpsTxt user g attrs cc hcc
  have f := fun q => units_of c hist .lammpsTxt user q (by cases q <;> rfl) (by simp)
  have hbl : boxes.length = frames.length := hd.box.length_eq
  simp only [f, factor] at t1 t2 t3
  refine ⟨tr, ?_, ?_, fun w hw => ?_, fun hin => ?_, fun hin => ?_, fun hin => ?_, fun hin => ?_, fun e => ?_, fun hin => ?_, fun hin => ?_, fun hin => ?_, fun hin => ?_,
    fun e => ?_, fun e e2 => ?_, ?_⟩
  · unfold readLammpsMdTxt
    rw [p0]
    simp only [t0]
  · rw [t1 _ _ (by simp) (by simp) p11]
    rfl
  · rw [t1 (.other "symbols") (.words w) (by simp) (by simp) (by rw [p12, hw]; rfl)]
    rfl
  · simp only [AllIn, List.mem_cons, List.not_mem_nil, or_false, forall_eq_or_imp, forall_eq] at hin
    rw [t1 .coords _ (by simp) (by simp) (by rw [p2, if_pos hin])]
    simp only [unitFactor, f, factor]
    rfl
  · simp only [AllIn, List.mem_cons, List.not_mem_nil, or_false, forall_eq_or_imp, forall_eq] at hin
    rw [t1 (.other "coords_frac") _ (by simp) (by simp) (by rw [p3, if_pos hin])]
    simp only [unitFactor, Val.scale, mul_one, List.map_id']
  · simp only [AllIn, List.mem_cons, List.not_mem_nil, or_false, forall_eq_or_imp, forall_eq] at hin
    rw [t1 .forces _ (by simp) (by simp) (by rw [p4, if_pos hin])]
    simp only [unitFactor, f, factor]
    rfl
  · simp only [AllIn, List.mem_cons, List.not_mem_nil, or_false, forall_eq_or_imp, forall_eq] at hin
    rw [t1 .velocity _ (by simp) (by simp) (by rw [p5, if_pos hin])]
    simp only [unitFactor, f, factor]
    rfl
  · simp only [AllIn, List.mem_cons, List.not_mem_nil, or_false, forall_eq_or_imp, forall_eq] at e
    have hn : (∃ p, attrs .coords = some (.arr p) ∧ p.length = frames.length) ∨
        (attrs .coords = none ∧ ∃ p, attrs (.other "coords_frac") = some (.arr p) ∧ p.length = frames.length) := by
      by_cases hx : "xu".toList ∈ cols ∧ "yu".toList ∈ cols ∧ "zu".toList ∈ cols
      · exact .inl ⟨_, by rw [p2, if_pos hx], by simp [dumped]⟩
      · exact .inr ⟨by rw [p2, if_neg hx], _, by rw [p3, if_pos (e.resolve_left hx)], by simp [dumped]⟩
    obtain ⟨n1, n2⟩ := t3 _ hn
    refine ⟨n1, ?_⟩
    rw [n2 _ p1]
    congr 1
    match boxes, hbl with
    | [], _ => rfl
    | [b], hb =>
      simp only [List.length_cons, List.length_nil] at hb
      simp [← hb, Val.scale, extendCell, scaled, is33, Box.cell]
    | _ :: _ :: _, _ => rfl
  · rw [t1 .etot _ (by simp) (by simp) (by rw [p6, if_pos hin])]
    simp only [unitFactor, f, factor, Val.scale, List.map_map]
    rfl
  · rw [t1 .ekin _ (by simp) (by simp) (by rw [p7, if_pos hin])]
    simp only [unitFactor, f, factor, Val.scale, List.map_map]
    rfl
  · rw [t1 .temperature _ (by simp) (by simp) (by rw [p8, if_pos hin])]
    simp only [unitFactor, f, factor, Val.scale, List.map_map]
    rfl
  · rw [t1 (.other "volume") _ (by simp) (by simp) (by rw [p9, if_pos hin])]
    simp only [unitFactor, Val.scale, mul_one, List.map_id']
  · rw [t1 .stress _ (by simp) (by simp) (by rw [p13, if_pos e])]
    simp only [unitFactor, f, factor]
    rfl
  · rw [if_pos e] at p14
    rw [toTraj_cc c hist .lammpsTxt user g attrs cc _ p14 (by rw [List.length_map]; exact e2) tr t0]
    simp only [f, factor, List.map_map, Function.comp_def]
    rfl
  · rw [t1 .timestep _ (by simp) (by simp) p10]
    simp only [unitFactor, f, factor, Val.scale]

/-- **C130** One `run` command which writes log and dump in every step: entry `i` of each attribute belongs to step `i`. -/
theorem C130_steps_partial (steps : List (LmpStep K)) (hd : IsDump num cols na (steps.map LmpStep.box) (steps.map LmpStep.frame) dump) (hf : fs.dump = some dump)
    (hl : IsLog num tcols [steps.map LmpStep.thermo] fs.log)
    (hs : LmpSymbols junk toInt cols ((steps.map LmpStep.frame).head?.elim [] Frame.rows) order fs syms) (dt : K)
    (ht : FirstLine (Has "timestep".toList) (LmpTimeLine num) fs.log dt) (hc : AllIn ["xu", "yu", "zu", "fx", "fy", "fz", "vx", "vy", "vz"] cols)
    (htc : AllIn ["PotEng", "Temp", "Pxx", "Pyy", "Pzz", "Pxy", "Pxz", "Pyz"] tcols) (c : Consts K) (hist : List (Kind × UDict K)) (g : Getters K (Val K)) :
    ∃ tr co ce fo ve st et te, readLammpsMdTxt c hist (fun _ => none) g junk toInt num order fs = .ok tr ∧
      tr.attr (.other "nstep") = some (.nat steps.length) ∧ tr.attr .coords = some (.arr co) ∧ tr.attr .cell = some (.arr ce) ∧
      tr.attr .forces = some (.arr fo) ∧ tr.attr .velocity = some (.arr ve) ∧ tr.attr .stress = some (.arr st) ∧ tr.attr .etot = some (.vec et) ∧
      tr.attr .temperature = some (.vec te) ∧
      (∀ n ∈ [co.length, ce.length, fo.length, ve.length, st.length, et.length, te.length], n = steps.length) ∧
      ∀ (i : Nat) (x : LmpStep K), steps[i]? = some x →
        let at3 := fun (s : K) (a b d : String) => x.frame.rows.map fun r =>
          [named junk cols r.2 a.toList * s, named junk cols r.2 b.toList * s, named junk cols r.2 d.toList * s]
        co[i]? = some (at3 1 "xu" "yu" "zu") ∧ ce[i]? = some x.box.cell ∧ fo[i]? = some (at3 1 "fx" "fy" "fz") ∧
        ve[i]? = some (at3 (c.fs / c.ps) "vx" "vy" "vz") ∧
        st[i]? = some ((pressure junk tcols x.thermo).map fun r => r.map (· * (1 / 10000))) ∧
        et[i]? = some (named junk tcols x.thermo "PotEng".toList) ∧ te[i]? = some (named junk tcols x.thermo "Temp".toList) := by
  have hin : ∀ s : List String, s ⊆ ["xu", "yu", "zu", "fx", "fy", "fz", "vx", "vy", "vz"] → AllIn s cols := fun s h k hk => hc k (h hk)
  have htin : ∀ s : List String, s ⊆ ["PotEng", "Temp", "Pxx", "Pyy", "Pzz", "Pxy", "Pxz", "Pyz"] → AllIn s tcols := fun s h k hk => htc k (h hk)
  obtain ⟨tr, t0, -, -, t1, -, t5, t6, t2, t3, -, t7, -, t4, -, -⟩ := C130_traj_partial hd hf hl hs dt ht c hist (fun _ => none) g
  have hx := hin ["xu", "yu", "zu"] (by decide)
  refine ⟨tr, _, _, _, _, _, _, _, t0, ?_, t1 hx, (t2 (.inl hx)).2, t5 (hin _ (by decide)), t6 (hin _ (by decide)),
    t4 (htin _ (by decide)), t3 (htc "PotEng" (by simp)), t7 (htc "Temp" (by simp)), ?_, fun i x hi => ?_⟩
  · rw [(t2 (.inl hx)).1, List.length_map]
  · simp [scaled, dumped]
  · simp [scaled, dumped, hi]

/-- **C130**, disagreement: the second `run` command prints the last step of the first one again in the log. From there on, temperatures (and energies, stress,
...) belong to the step before: entry `i` is that of step `i - 1`, and there is one entry too many. -/
theorem C130_two_runs_counterexample (s1 s2 : List (LmpStep K)) (last : LmpStep K)
    (hd : IsDump num cols na ((s1 ++ last :: s2).map LmpStep.box) ((s1 ++ last :: s2).map LmpStep.frame) dump) (hf : fs.dump = some dump)
    (hl : IsLog num tcols [(s1 ++ [last]).map LmpStep.thermo, (last :: s2).map LmpStep.thermo] fs.log)
    (hs : LmpSymbols junk toInt cols (((s1 ++ last :: s2).map LmpStep.frame).head?.elim [] Frame.rows) order fs syms) (dt : K)
    (ht : FirstLine (Has "timestep".toList) (LmpTimeLine num) fs.log dt) (hx : AllIn ["xu", "yu", "zu"] cols) (htc : "Temp".toList ∈ tcols)
    (c : Consts K) (hist : List (Kind × UDict K)) (g : Getters K (Val K)) :
    ∃ tr n co te, readLammpsMdTxt c hist (fun _ => none) g junk toInt num order fs = .ok tr ∧ tr.attr (.other "nstep") = some (.nat n) ∧
      tr.attr .coords = some (.arr co) ∧ tr.attr .temperature = some (.vec te) ∧ co.length = n ∧ te.length = n + 1 ∧
      ∀ (i : Nat) (x : LmpStep K), (s1 ++ last :: s2)[i]? = some x →
        co[i]? = some (x.frame.rows.map fun r => [named junk cols r.2 "xu".toList, named junk cols r.2 "yu".toList, named junk cols r.2 "zu".toList]) ∧
        te[if i ≤ s1.length then i else i + 1]? = some (named junk tcols x.thermo "Temp".toList) := by
  obtain ⟨tr, t0, -, -, t1, -, -, -, t2, -, -, t3, -⟩ := C130_traj_partial hd hf hl hs dt ht c hist (fun _ => none) g
  refine ⟨tr, _, _, _, t0, (t2 (.inl hx)).1, t1 hx, t3 htc, ?_, ?_, fun i x hi => ⟨?_, ?_⟩⟩
  · simp [scaled, dumped]
  · simp
    omega
  · simp [scaled, dumped, ← List.map_append, ← List.map_cons, hi]
  · have e : [(s1 ++ [last]).map LmpStep.thermo, (last :: s2).map LmpStep.thermo].flatten = (s1 ++ last :: last :: s2).map LmpStep.thermo := by simp
    rw [e, List.map_map, List.getElem?_map]
    have : (s1 ++ last :: last :: s2)[if i ≤ s1.length then i else i + 1]? = some x := by
      rw [← hi]
      split
      · rename_i h
        rcases Nat.lt_or_eq_of_le h with h | h
        · rw [List.getElem?_append_left h, List.getElem?_append_left h]
        · rw [h, List.getElem?_append_right (by omega), List.getElem?_append_right (by omega)]
          simp
      · rename_i h
        obtain ⟨k, rfl⟩ : ∃ k, i = s1.length + 1 + k := ⟨i - (s1.length + 1), by omega⟩
        rw [List.getElem?_append_right (by omega), List.getElem?_append_right (by omega)]
        rw [show s1.length + 1 + k + 1 - s1.length = k + 2 by omega, show s1.length + 1 + k - s1.length = k + 1 by omega]
        rfl
    rw [this]
    simp

/-- What `parse()` does with a log whose time step cannot be read. -/
theorem parse_time_error (hd : IsDump num cols na boxes frames dump) (hf : fs.dump = some dump) (hl : IsLog num tcols runs fs.log)
    (hs : LmpSymbols junk toInt cols (frames.head?.elim [] Frame.rows) order fs syms) (ht : timestep num fs.log = .error .value) :
    parse junk toInt num order fs = .error .value := by
  obtain ⟨d1, d2, d3, d4, d5, d6⟩ := dump_get junk hd
  obtain ⟨l1, l2, l3, l4, l5, l6⟩ := log_get junk hl
  unfold parse
  simp only [ifDump, hf, d1, d2, d3, d4, d5, d6, l1, l2, l3, l4, l5, l6, symbols_get hd hf hs, ht, Except.bind, Except.map]

/-- **C130**, disagreement: a run with the default time step, i.e. without a `timestep` command. The first line with `timestep` is then that of the summary,
`Performance: ... timesteps/s`, and the run cannot be read. -/
theorem C130_default_timestep_counterexample (hd : IsDump num cols na boxes frames dump) (hf : fs.dump = some dump) (hl : IsLog num tcols runs fs.log)
    (hs : LmpSymbols junk toInt cols (frames.head?.elim [] Frame.rows) order fs syms)
    (ht : ∃ A l B, fs.log = A ++ l :: B ∧ (∀ a ∈ A, ¬ Has "timestep".toList a) ∧ Has "timestep".toList l ∧ ¬ Has "step ".toList l ∧ 2 ≤ (splitWs l).length)
    (c : Consts K) (hist : List (Kind × UDict K)) (user : UDict K) (g : Getters K (Val K)) :
    readLammpsMdTxt c hist user g junk toInt num order fs = .error (.inl .value) := by
  unfold readLammpsMdTxt
  rw [parse_time_error hd hf hl hs]
  obtain ⟨A, l, B, e, hA, h1, h2, h3⟩ := ht
  rw [e]
  unfold timestep
  rw [PwHead.find_first _ A B _ (fun a ha => Lmp.has_false (hA a ha)) ((Lmp.has_iff _ _).2 h1)]
  simp only [Lmp.afterLast, Lmp.lastKey_none _ _ h2, Option.getD_none]
  match hsp : splitWs l, h3 with
  | _ :: _ :: _, _ => rfl

/-- **C130**, disagreement: `timestep 0.001 # a comment`; anything but one number behind `timestep`, and the run cannot be read. -/
theorem C130_comment_counterexample (hd : IsDump num cols na boxes frames dump) (hf : fs.dump = some dump) (hl : IsLog num tcols runs fs.log)
    (hs : LmpSymbols junk toInt cols (frames.head?.elim [] Frame.rows) order fs syms)
    (ht : FirstLine (Has "timestep".toList) (fun l r => ∃ p, l = p ++ "timestep ".toList ++ r) fs.log r) (hr : ¬ Has "step ".toList r) (h2 : 2 ≤ (splitWs r).length)
    (c : Consts K) (hist : List (Kind × UDict K)) (user : UDict K) (g : Getters K (Val K)) :
    readLammpsMdTxt c hist user g junk toInt num order fs = .error (.inl .value) := by
  unfold readLammpsMdTxt
  rw [parse_time_error hd hf hl hs]
  obtain ⟨A, l, B, e, hA, p, rfl⟩ := ht
  rw [e]
  unfold timestep
  rw [PwHead.find_first _ A B _ (fun a ha => Lmp.has_false (hA a ha)) ((Lmp.has_iff _ _).2 ⟨p, ' ' :: r, by simp⟩)]
  simp only [after_step p _ hr]
  match hsp : splitWs r, h2 with
  | _ :: _ :: _, _ => rfl

/-- **C130**, disagreement: a dump file with a column `type`, no file of symbols, no keyword `order` and no line `dump_modify ... element`: a `KeyError`
instead of a trajectory without symbols. -/
theorem C130_no_symbols_counterexample (hd : IsDump num cols na boxes frames dump) (hf : fs.dump = some dump) (hl : IsLog num tcols runs fs.log)
    (h0 : fs.symbols = none) (hty : "type".toList ∈ cols) (he : ∀ l ∈ fs.log, ¬ ElementLike l) (c : Consts K) (hist : List (Kind × UDict K)) (user : UDict K)
    (g : Getters K (Val K)) : readLammpsMdTxt c hist user g junk toInt num none fs = .error (.inl .index) := by
  obtain ⟨d1, d2, d3, d4, d5, d6⟩ := dump_get junk hd
  obtain ⟨l1, l2, l3, l4, l5, l6⟩ := log_get junk hl
  have heo : elementOrder fs.log = [] := by
    unfold elementOrder
    rw [List.find?_eq_none.2 fun l hl => by rw [elementLike_iff]; exact he l hl]
  have hsy : symbols junk toInt num none fs = .error .index := by
    unfold symbols
    rw [h0]
    simp only [ifDump, hf, Option.getD_none, heo]
    obtain ⟨t, hc, rfl⟩ := hd.text
    obtain ⟨h1, h2⟩ := Lmp.dumpArr_eq hc frames hd.wf hd.ne hd.atoms
    unfold Lmp.symbols
    simp only [h1, h2]
    obtain ⟨i, ei, -⟩ := Lmp.column_some cols _ hty
    rw [ei]
    obtain ⟨f, fr, rfl⟩ := List.exists_cons_of_ne_nil hd.ne
    have hna := hd.atoms
    have hr := (hd.wf f (by simp)).nrows
    obtain ⟨r, rs, hr'⟩ := List.exists_cons_of_ne_nil (show f.rows ≠ [] by rintro h; rw [h] at hr; simp at hr; omega)
    obtain ⟨k, rfl⟩ : ∃ k, na = k + 1 := ⟨na - 1, by omega⟩
    simp [List.flatMap_cons, hr', List.mapM_cons]
  unfold readLammpsMdTxt parse
  simp only [ifDump, hf, d1, d2, d3, d4, d5, d6, l1, l2, l3, l4, l5, l6, hsy, Except.bind, Except.map]

/-- **C130**, disagreement: the factor of the user for lengths applies to the cell, but not to the volume from the log. -/
theorem C130_volume_counterexample (hd : IsDump num cols na boxes frames dump) (hf : fs.dump = some dump) (hl : IsLog num tcols runs fs.log)
    (hs : LmpSymbols junk toInt cols (frames.head?.elim [] Frame.rows) order fs syms) (dt : K)
    (ht : FirstLine (Has "timestep".toList) (LmpTimeLine num) fs.log dt) (hx : AllIn ["xu", "yu", "zu"] cols) (hv : "Volume".toList ∈ tcols)
    (c : Consts K) (hist : List (Kind × UDict K)) (user : UDict K) (f : K) (hu : user .length = some f) (g : Getters K (Val K)) :
    ∃ tr, readLammpsMdTxt c hist user g junk toInt num order fs = .ok tr ∧ tr.attr .cell = some (.arr (scaled f (boxes.map Box.cell))) ∧
      tr.attr (.other "volume") = some (.vec (runs.flatten.map fun r => named junk tcols r "Volume".toList)) := by
  obtain ⟨tr, t0, -, -, -, -, -, -, t2, -, -, -, t3, -⟩ := C130_traj_partial hd hf hl hs dt ht c hist user g
  refine ⟨tr, t0, ?_, t3 hv⟩
  rw [(t2 (.inl hx)).2, hu]
  rfl

/-- **C130** Without dump file: what the log says, and no number of atoms. -/
theorem C130_no_dump (hf : fs.dump = none) (hl : IsLog num tcols runs fs.log) (dt : K) (ht : FirstLine (Has "timestep".toList) (LmpTimeLine num) fs.log dt)
    (hT : "Temp".toList ∈ tcols) (c : Consts K) (hist : List (Kind × UDict K)) (user : UDict K) (g : Getters K (Val K)) :
    ∃ tr, readLammpsMdTxt c hist user g junk toInt num order fs = .ok tr ∧
      tr.attr .temperature = some (.vec (runs.flatten.map fun r => named junk tcols r "Temp".toList * (user .temperature).getD 1)) ∧
      tr.attr .timestep = some (.num (dt * (user .time).getD (c.ps / c.fs))) := by
  obtain ⟨l1, l2, l3, l4, l5, l6⟩ := log_get junk hl
  beta_reduce at l3
  rw [if_pos hT] at l3
  have hsy : ∃ sy, symbols junk toInt num order fs = .ok sy := by
    unfold symbols
    cases fs.symbols with
    | none => exact ⟨none, by simp only [ifDump, hf]⟩
    | some t => exact ⟨_, rfl⟩
  obtain ⟨sy, hsy⟩ := hsy
  obtain ⟨attrs, cc, p0, p1, p2, hcc⟩ : ∃ attrs cc, parse junk toInt num order fs = .ok (attrs, cc) ∧
      attrs .temperature = some (.vec (runs.flatten.map fun r => named junk tcols r "Temp".toList)) ∧ attrs .timestep = some (.num dt) ∧ cc ≠ some .bad := by
    unfold parse
    simp only [ifDump, hf, l1, l2, l3, l4, l5, l6, hsy, timestep_eq _ _ ht, Except.bind]
    exact ⟨_, _, rfl, rfl, rfl, by split <;> simp⟩
  obtain ⟨tr, t0, t1, -, -⟩ := toTraj_attr c hist .lammpsTxt user g attrs cc hcc
  have f := fun q => units_of c hist .lammpsTxt user q (by cases q <;> rfl) (by simp)
  refine ⟨tr, ?_, ?_, ?_⟩
  · unfold readLammpsMdTxt
    rw [p0]
    simp only [t0]
  · rw [t1 .temperature _ (by simp) (by simp) p1]
    simp only [unitFactor, f, factor, Val.scale, List.map_map]
    rfl
  · rw [t1 .timestep _ (by simp) (by simp) p2]
    simp only [unitFactor, f, factor, Val.scale]

/-- **C130** A run which was killed while it wrote a frame of the dump file (at any line, the last one perhaps incomplete): an exception. -/
theorem C130_killed {t : Text} (hc : ColsText t cols) (f : Frame K) (hw : ∀ x ∈ frames ++ [f], x.Wf num na cols.length 3) (h0 : frames ≠ []) (hna : 0 < na)
    (k : Nat) (hk : 0 < k) (hk' : k < (f.lines na t).length) (cut : List Text) (hc1 : cut.length ≤ 1) (hcw : ∀ l ∈ cut, (splitWs l).length < cols.length)
    (hf : fs.dump = some (frames.flatMap (Frame.lines na t) ++ ((f.lines na t).take k ++ cut)))
    (c : Consts K) (hist : List (Kind × UDict K)) (user : UDict K) (g : Getters K (Val K)) :
    ∃ e, readLammpsMdTxt c hist user g junk toInt num order fs = .error (.inl e) := by
  have h := Lmp.C89_truncated junk toInt hc frames f hw h0 hna k hk hk' cut hc1 hcw []
  unfold readLammpsMdTxt parse
  simp only [ifDump, hf, h.2.1]
  cases Lmp.cell num (frames.flatMap (Frame.lines na t) ++ ((f.lines na t).take k ++ cut)) with
  | error e => exact ⟨e, rfl⟩
  | ok v => exact ⟨.value, rfl⟩

/-- **C130**, disagreement: the header of the table does not start in the first column (`   Step   Temp ...`, as newer versions of LAMMPS print it). No
row is found, and the run cannot be read. -/
theorem C130_indented_counterexample (hd : IsDump num cols na boxes frames dump) (hf : fs.dump = some dump)
    (h1 : ∃ A l B, fs.log = A ++ l :: B ∧ (∀ a ∈ A, ¬ Has "Step".toList a) ∧ Has "Step".toList l ∧ splitWs l ≠ [])
    (h2 : ∀ l ∈ fs.log, ∀ t, l ≠ "Step".toList ++ t) (c : Consts K) (hist : List (Kind × UDict K)) (user : UDict K) (g : Getters K (Val K)) :
    readLammpsMdTxt c hist user g junk toInt num order fs = .error (.inl .type) := by
  obtain ⟨d1, d2, d3, d4, d5, d6⟩ := dump_get junk hd
  have hsed : Lmp.sedRange false fs.log = [] := by
    have := Lmp.sedRange_noise fs.log [] h2
    rwa [List.append_nil] at this
  have hthermo : Lmp.thermo num fs.log = .error .type := by
    obtain ⟨A, l, B, e, hA, hl, hne⟩ := h1
    unfold Lmp.thermo
    rw [hsed, e, PwHead.find_first _ A B _ (fun a ha => Lmp.has_false (hA a ha)) ((Lmp.has_iff _ _).2 hl)]
    simp [arr2d, hne]
  unfold readLammpsMdTxt parse
  simp only [ifDump, hf, d1, d3, d4, Lmp.crystConst, hthermo, Except.bind, Except.map]

end

/-! ## examples -/

open Lmp (exNum exCols exFrame1 exFrame2 exBox exColsText exFrame_wf notHas_of run_wf)

def exT : Text := "type zu xu yu ".toList

theorem exDump : IsDump exNum exCols 2 [exBox, exBox] [exFrame1, exFrame2] ([exFrame1, exFrame2].flatMap (Frame.lines 2 exT)) where
  text := ⟨exT, exColsText, rfl⟩
  names := by decide +kernel
  ne := by simp
  atoms := by omega
  wf := exFrame_wf
  box := .cons ⟨-1, 2, 0, 1, by unfold Extremes; decide +kernel, by unfold Extremes; decide +kernel, by decide +kernel⟩
    (.cons ⟨-1, 2, 0, 1, by unfold Extremes; decide +kernel, by unfold Extremes; decide +kernel, by decide +kernel⟩ .nil)

def exTcols : List Text := ["Step".toList, "Temp".toList, "Volume".toList]

/-- Two steps in one run, or the second one in a second run. -/
def exPre : List Text := ["LAMMPS".toList, "dump_modify d element Al N".toList, "timestep 2".toList]
def exRun : LogRun Rat := ⟨" Temp Volume".toList, [("0 300 10".toList, [0, 300, 10]), ("1 310 11".toList, [1, 310, 11])], ["Loop time of 1".toList,
  "Performance: 3 ns/day, 9 timesteps/s".toList]⟩
def exFirst : LogRun Rat := ⟨" Temp Volume".toList, [("0 300 10".toList, [0, 300, 10])], ["Loop time of 1".toList]⟩

theorem exLog_of (pre : List Text) (hp : ∀ l ∈ pre, isInfix "Step".toList l = false) (rs : List (LogRun Rat)) (h : rs = [exRun] ∨ rs = [exFirst, exRun]) :
    IsLog exNum exTcols (rs.map fun r => r.rows.map Prod.snd) (pre ++ rs.flatMap LogRun.lines) where
  text := by
    refine ⟨pre, rs, rfl, fun l hl => notHas_of _ _ (hp l hl), by rcases h with rfl | rfl <;> simp, ?_, ?_, rfl⟩
    · have e1 : exRun.Wf exNum 3 := run_wf 3 _ (by decide +kernel) (by decide +kernel) (by decide +kernel)
      have e2 : exFirst.Wf exNum 3 := run_wf 3 _ (by decide +kernel) (by decide +kernel) (by decide +kernel)
      intro r hr
      rcases h with rfl | rfl <;> simp only [List.mem_cons, List.not_mem_nil, or_false] at hr
      · rw [hr]
        exact e1
      · rcases hr with hr | hr <;> rw [hr] <;> assumption
    · intro r hr
      rcases h with rfl | rfl <;> simp only [List.mem_cons, List.not_mem_nil, or_false] at hr
      · rw [hr]
        decide +kernel
      · rcases hr with hr | hr <;> rw [hr] <;> decide +kernel
  names := by decide +kernel
  two := by decide
  ne := by rcases h with rfl | rfl <;> decide +kernel

def exFiles (rs : List (LogRun Rat)) : Files := ⟨exPre ++ rs.flatMap LogRun.lines, some ([exFrame1, exFrame2].flatMap (Frame.lines 2 exT)), none⟩

theorem exTime (rs : List (LogRun Rat)) : FirstLine (Has "timestep".toList) (LmpTimeLine exNum) (exFiles rs).log 2 :=
  ⟨exPre.take 2, "timestep 2".toList, rs.flatMap LogRun.lines, by simp [exFiles, exPre], by
    have : ∀ a ∈ exPre.take 2, isInfix "timestep".toList a = false := by decide +kernel
    exact fun a ha => notHas_of _ _ (this a ha), [], [], ['2'], [], by decide +kernel, by simp [BlankText], by unfold WordText; decide +kernel, by simp [BlankText],
    notHas_of _ _ (by decide +kernel), by decide +kernel⟩

theorem exElement (rs : List (LogRun Rat)) : FirstLine ElementLike ElementLine (exFiles rs).log ["Al".toList, "N".toList] :=
  ⟨exPre.take 1, "dump_modify d element Al N".toList, "timestep 2".toList :: rs.flatMap LogRun.lines, by simp [exFiles, exPre], by
    have : ∀ a ∈ exPre.take 1, hasSeq ["dump_modify".toList, "element".toList] a = false := by decide +kernel
    intro a ha
    rw [← elementLike_iff, this a ha]
    simp, [], " d ".toList, "Al N".toList, by decide +kernel, notHas_of _ _ (by decide +kernel), by decide +kernel⟩

theorem exSymbols (rs : List (LogRun Rat)) : LmpSymbols (-7) Rat.floor exCols exFrame1.rows none (exFiles rs) (some ["N".toList, "Al".toList]) :=
  .element rfl rfl (by decide +kernel) (exElement rs) (.cons ⟨1, by decide +kernel, rfl⟩ (.cons ⟨0, by decide +kernel, rfl⟩ .nil))

/-- The hypotheses of `C130_traj_partial` are met; the atoms are N and Al, the time step of 2 ps is given in fs. -/
example (c : Consts Rat) (g : Getters Rat (Val Rat)) :
    ∃ tr, readLammpsMdTxt c [(.cpmdMd, fun _ => none)] (fun q => if q = .length then some 10 else none) g (-7) Rat.floor exNum none (exFiles [exRun]) = .ok tr ∧
      tr.attr (.other "symbols") = some (.words ["N".toList, "Al".toList]) ∧
      tr.attr .coords = some (.arr [[[10, 20, 30], [40, 50, 60]], [[110, 120, 130], [140, 150, 160]]]) ∧
      tr.attr .temperature = some (.vec [300, 310]) ∧ tr.attr .timestep = some (.num (2 * (c.ps / c.fs))) := by
  obtain ⟨tr, h0, -, h1, h2, -, -, -, -, -, -, h3, -, -, -, h4⟩ := C130_traj_partial (syms := some ["N".toList, "Al".toList]) exDump rfl
    (exLog_of exPre (by decide +kernel) [exRun] (.inl rfl)) (exSymbols [exRun]) 2 (exTime [exRun])
    c [(.cpmdMd, fun _ => none)] (fun q => if q = .length then some 10 else none) g
  refine ⟨tr, h0, h1 _ rfl, ?_, ?_, h4⟩
  · rw [h2 (by decide +kernel)]
    congr 2
    decide +kernel
  · rw [h3 (by decide +kernel)]
    congr 2
    decide +kernel

/-- Two `run` commands: two steps, three temperatures. -/
example (c : Consts Rat) (g : Getters Rat (Val Rat)) :
    ∃ tr n co te, readLammpsMdTxt c [] (fun _ => none) g (-7) Rat.floor exNum none (exFiles [exFirst, exRun]) = .ok tr ∧ tr.attr (.other "nstep") = some (.nat n) ∧
      tr.attr .coords = some (.arr co) ∧ tr.attr .temperature = some (.vec te) ∧ co.length = n ∧ te.length = n + 1 ∧ te[2]? = some 310 := by
  obtain ⟨tr, n, co, te, h0, h1, h2, h3, h4, h5, h6⟩ := C130_two_runs_counterexample (fs := exFiles [exFirst, exRun]) (s1 := []) (s2 := [⟨[1, 310, 11], exBox, exFrame2⟩])
    (last := ⟨[0, 300, 10], exBox, exFrame1⟩) (syms := some ["N".toList, "Al".toList]) exDump rfl
    (exLog_of exPre (by decide +kernel) [exFirst, exRun] (.inr rfl)) (exSymbols [exFirst, exRun]) 2 (exTime [exFirst, exRun]) (by decide +kernel)
    (by decide +kernel) c [] g
  refine ⟨tr, n, co, te, h0, h1, h2, h3, h4, h5, ?_⟩
  have := (h6 1 _ rfl).2
  rw [if_neg (by decide)] at this
  rw [this]
  congr 1

/-- No `timestep` command. -/
example (c : Consts Rat) (g : Getters Rat (Val Rat)) :
    readLammpsMdTxt c [] (fun _ => none) g (-7) Rat.floor exNum (some [("Al".toList, 1), ("N".toList, 2)])
      ⟨["LAMMPS".toList] ++ [exRun].flatMap LogRun.lines, (exFiles []).dump, none⟩ = .error (.inl .value) := by
  refine C130_default_timestep_counterexample (syms := some ["N".toList, "Al".toList]) exDump rfl (exLog_of _ (by decide +kernel) [exRun] (.inl rfl))
    (.order rfl rfl (by decide +kernel) (by decide +kernel) (.cons (by decide +kernel) (.cons (by decide +kernel) .nil))) ?_ c [] _ g
  refine ⟨(["LAMMPS".toList] ++ [exRun].flatMap LogRun.lines).take 5, "Performance: 3 ns/day, 9 timesteps/s".toList, [], by decide +kernel, ?_, ?_, ?_, by decide +kernel⟩
  · have : ∀ a ∈ (["LAMMPS".toList] ++ [exRun].flatMap LogRun.lines).take 5, isInfix "timestep".toList a = false := by decide +kernel
    exact fun a ha => notHas_of _ _ (this a ha)
  · exact ⟨"Performance: 3 ns/day, 9 ".toList, "s/s".toList, by decide +kernel⟩
  · exact notHas_of _ _ (by decide +kernel)

/-- A comment behind the time step. -/
example (c : Consts Rat) (g : Getters Rat (Val Rat)) :
    readLammpsMdTxt c [] (fun _ => none) g (-7) Rat.floor exNum none
      ⟨["timestep 2 # ps".toList] ++ [exRun].flatMap LogRun.lines, (exFiles []).dump, some "N Al".toList⟩ = .error (.inl .value) :=
  C130_comment_counterexample (syms := some (splitWs "N Al".toList)) (r := "2 # ps".toList) exDump rfl (exLog_of _ (by decide +kernel) [exRun] (.inl rfl))
    (.file rfl) ⟨[], "timestep 2 # ps".toList, _, rfl, by simp, [], by decide +kernel⟩ (notHas_of _ _ (by decide +kernel)) (by decide +kernel) c [] _ g

/-- No symbols. -/
example (c : Consts Rat) (g : Getters Rat (Val Rat)) :
    readLammpsMdTxt c [] (fun _ => none) g (-7) Rat.floor exNum none
      ⟨["timestep 2".toList] ++ [exRun].flatMap LogRun.lines, (exFiles []).dump, none⟩ = .error (.inl .index) := by
  refine C130_no_symbols_counterexample exDump rfl (exLog_of _ (by decide +kernel) [exRun] (.inl rfl)) rfl (by decide +kernel) ?_ c [] _ g
  have : ∀ a ∈ ["timestep 2".toList] ++ [exRun].flatMap LogRun.lines, hasSeq ["dump_modify".toList, "element".toList] a = false := by decide +kernel
  intro a ha
  rw [← elementLike_iff, this a ha]
  simp

/-- A killed run. -/
example (c : Consts Rat) (g : Getters Rat (Val Rat)) : ∃ e, readLammpsMdTxt c [] (fun _ => none) g (-7) Rat.floor exNum none
    ⟨["timestep 2".toList] ++ [exRun].flatMap LogRun.lines, some ([exFrame1].flatMap (Frame.lines 2 exT) ++ ((exFrame2.lines 2 exT).take 10 ++ ["1 16".toList])),
      none⟩ = .error (.inl e) :=
  C130_killed (frames := [exFrame1]) exColsText exFrame2 exFrame_wf (by simp) (by omega) 10 (by omega) (by decide +kernel) ["1 16".toList] (by simp)
    (by decide +kernel) rfl c [] _ g

/-- A log of a newer version. -/
example (c : Consts Rat) (g : Getters Rat (Val Rat)) : readLammpsMdTxt c [] (fun _ => none) g (-7) Rat.floor exNum none
    ⟨["   Step  Temp".toList, "      0   300".toList, "Loop".toList], (exFiles []).dump, none⟩ = .error (.inl .type) := by
  refine C130_indented_counterexample exDump rfl ⟨[], _, _, rfl, by simp, ⟨"   ".toList, "  Temp".toList, by decide +kernel⟩, by decide +kernel⟩ ?_ c [] _ g
  have : ∀ a ∈ ["   Step  Temp".toList, "      0   300".toList, "Loop".toList], "Step".toList.isPrefixOf a = false := by decide +kernel
  intro l hl t e
  have h := this l hl
  rw [e, List.isPrefixOf_iff_prefix.2 ⟨t, rfl⟩] at h
  exact absurd h (by simp)

end Pwtools.LmpRead
