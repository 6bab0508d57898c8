import Verif.Props.DcdRead
/-!
# C135: disagreements and examples
-/
namespace Pwtools.DcdRead
open Gr Tr Units PwMd ReadMd Spec
variable {K : Type} {num : Text → Option K}

section
variable [Field K] [DecidableEq K]

/-- **C135**, disagreement: a table of energies with one row (a run of one step), and the run cannot be read. -/
theorem C135_single_row_counterexample {fs : Cp2kFiles} {frames : List Spec.Dcd.Frame} {file : Spec.Dcd.Bytes} {na : Nat} (hd : fs.dcd = some file)
    (hdcd : IsDcd na frames file) (f : List Text) (r : EnerRow K) (hf : fs.txt.ener = some f) (ht : IsTable num f [r.row])
    (c : Consts K) (hist : List (Kind × UDict K)) (user : UDict K) (g : Getters K (Val K)) (m : Fmt K) (junk : K) :
    readCp2kMdDcd c hist user g m junk num fs = .error (.inl (.parser .index)) := by
  unfold readCp2kMdDcd parseCp2k
  rw [hd, dcd_data m false na frames file hdcd, hf]
  simp only [Except.bind, Cp2kRead.ifExists, (Cp2k.C90_single_step_counterexample junk f r ht).2.2.2, Except.map, lift]

end

section
variable [Field K] [LinearOrder K] {fs : LmpFiles} {na : Nat} {frames : List Spec.Dcd.Frame} {file : Spec.Dcd.Bytes} {tcols : List Text}
  {order : Option (List (Text × Int))} {toInt : K → Int} {junk : K} {syms : Option (List Text)}

/-- **C135**, disagreement: as in C130, a second `run` command prints the last step of the first one again in the log, but not in the dcd file. From there on,
temperatures belong to the step before, and there is one too many. -/
theorem C135_two_runs_counterexample (s1 s2 : List (List K × Spec.Dcd.Frame)) (last : List K × Spec.Dcd.Frame) (hd : fs.dcd = some file)
    (hdcd : IsDcd na ((s1 ++ last :: s2).map Prod.snd) file)
    (hl : IsLog num tcols [(s1 ++ [last]).map Prod.fst, (last :: s2).map Prod.fst] fs.txt.log) (hs : DcdSymbols num junk toInt na order fs.txt syms) (dt : K)
    (ht : FirstLine (Has "timestep".toList) (LmpTimeLine num) fs.txt.log dt) (htc : "Temp".toList ∈ tcols)
    (c : Consts K) (hist : List (Kind × UDict K)) (g : Getters K (Val K)) (m : Fmt K) :
    ∃ tr n co te, readLammpsMdDcd c hist (fun _ => none) g m junk toInt num order fs = .ok tr ∧ tr.attr (.other "nstep") = some (.nat n) ∧
      tr.attr .coords = some (.arr co) ∧ tr.attr .temperature = some (.vec te) ∧ co.length = n ∧ te.length = n + 1 ∧
      ∀ (i : Nat) (x : List K × Spec.Dcd.Frame), (s1 ++ last :: s2)[i]? = some x →
        co[i]? = some (x.2.atoms.map fun p => [m.f4 p.1, m.f4 p.2.1, m.f4 p.2.2]) ∧
        te[if i ≤ s1.length then i else i + 1]? = some (named junk tcols x.1 "Temp".toList) := by
  obtain ⟨tr, -, t0, -, t1, t2, -, -, -, -, -, -, -, t3, -⟩ := C135_lammps_partial hd hdcd hl hs dt ht c hist (fun _ => none) g m
  refine ⟨tr, _, _, _, t0, t1, t2, t3 htc, ?_, ?_, fun i x hi => ⟨?_, ?_⟩⟩
  · simp [dcdCoords]
  · simp
    omega
  · simp [dcdCoords, ← List.map_append, ← List.map_cons, hi]
  · have e : [(s1 ++ [last]).map Prod.fst, (last :: s2).map Prod.fst].flatten = (s1 ++ last :: last :: s2).map Prod.fst := by simp
    rw [e, List.map_map, List.getElem?_map]
    have : (s1 ++ last :: last :: s2)[if i ≤ s1.length then i else i + 1]? = some x := by
      rw [← hi]
      split
      · rename_i h
        rcases Nat.lt_or_eq_of_le h with h | h
        · rw [List.getElem?_append_left h, List.getElem?_append_left h]
        · rw [h, List.getElem?_append_right (by omega), List.getElem?_append_right (by omega)]
          simp
      · rename_i h
        obtain ⟨k, rfl⟩ : ∃ k, i = s1.length + 1 + k := ⟨i - (s1.length + 1), by omega⟩
        rw [List.getElem?_append_right (by omega), List.getElem?_append_right (by omega)]
        rw [show s1.length + 1 + k + 1 - s1.length = k + 2 by omega, show s1.length + 1 + k - s1.length = k + 1 by omega]
        rfl
    rw [this]
    simp

end

/-! ## examples -/

open Pwtools.Dcd (exFrame exFrame_wf le)

def exFile (frames : List Spec.Dcd.Frame) : Spec.Dcd.Bytes := Spec.Dcd.file (List.replicate 4 0) 0 (List.replicate 76 0) (List.replicate 164 0) 2 frames

theorem exDcd (n : Nat) : IsDcd 2 (List.replicate n exFrame) (exFile (List.replicate n exFrame)) :=
  ⟨_, _, _, _, rfl, rfl, rfl, by omega, fun f hf => by rw [List.eq_of_mem_replicate hf]; exact exFrame_wf, rfl⟩

/-- Numbers which are read from the first byte only. -/
def exFmt : Fmt Rat := ⟨fun b => (le (b.take 1) : Rat), fun b => (le b : Rat), fun x => 10 * x⟩

/-- A CP2K run: two energies, two frames in the dcd file; the file of cells is not readable. The hypotheses of `C135_cp2k_partial` are met. -/
example (c : Consts Rat) (hist : List (Kind × UDict Rat)) (g : Getters Rat (Val Rat)) :
    ∃ tr, readCp2kMdDcd c hist (fun q => if q = .length then some 10 else none) g exFmt (-1) Cp2k.exNum
        ⟨{ Cp2kRead.exFiles 1 with cell := some ["garbage".toList] }, some (exFile (List.replicate 2 exFrame))⟩ = .ok tr ∧
      tr.attr (.other "symbols") = some (.words ["H".toList, "O".toList]) ∧ tr.attr (.other "nstep") = some (.nat 2) ∧
      tr.attr .coords = some (.arr [[[10, 20, 30], [40, 50, 60]], [[10, 20, 30], [40, 50, 60]]]) ∧
      tr.cc = some (.many [[10, 20, 30, 4, 5, 6], [10, 20, 30, 4, 5, 6]]) := by
  have hr := Cp2kRead.exRun 1 (by omega)
  obtain ⟨tr, t0, -, t1, t2, t3, -, t4, -⟩ := C135_cp2k_partial (d := Cp2kRead.exData 1)
    (fs := ⟨{ Cp2kRead.exFiles 1 with cell := some ["garbage".toList] }, some (exFile (List.replicate 2 exFrame))⟩) hr.tables (Cp2kRead.exTwo 1) rfl (exDcd 2) hr.time c hist
    (fun q => if q = .length then some 10 else none) g exFmt (-1)
  refine ⟨tr, t0, t4 (.inl (by simp [Cp2kRead.exFiles])), t1, ?_, ?_⟩
  · rw [t2]
    exact congrArg (fun x => some (Val.arr x)) (by decide +kernel)
  · rw [t3]
    exact congrArg (fun x => some (CC.many x)) (by decide +kernel)

open Lmp (exNum exCols exFrame1 exFrame2 exBox exColsText notHas_of run_wf)

/-- A LAMMPS run with two `run` commands: two frames in the dcd file, three temperatures. The hypotheses of `C135_lammps_partial` and of
`C135_two_runs_counterexample` are met; the angles are found from the numbers in the file. -/
example (c : Consts Rat) (hist : List (Kind × UDict Rat)) (g : Getters Rat (Val Rat)) :
    ∃ tr, readLammpsMdDcd c hist (fun _ => none) g exFmt (-7) Rat.floor exNum none
        ⟨LmpRead.exFiles [LmpRead.exFirst, LmpRead.exRun], some (exFile (List.replicate 2 exFrame))⟩ = .ok tr ∧
      tr.attr (.other "symbols") = some (.words ["N".toList, "Al".toList]) ∧ tr.attr .temperature = some (.vec [300, 300, 310]) ∧
      tr.cc = some (.many [[1, 2, 3, 40, 50, 60], [1, 2, 3, 40, 50, 60]]) := by
  obtain ⟨tr, o, t0, -, -, -, t1, -, -, -, t2, -, -, t3, -⟩ := C135_lammps_partial
    (fs := ⟨LmpRead.exFiles [LmpRead.exFirst, LmpRead.exRun], some (exFile (List.replicate 2 exFrame))⟩) rfl (exDcd 2)
    (LmpRead.exLog_of LmpRead.exPre (by decide +kernel) [LmpRead.exFirst, LmpRead.exRun] (.inr rfl))
    (.dump rfl LmpRead.exDump (LmpRead.exSymbols [LmpRead.exFirst, LmpRead.exRun])) 2 (LmpRead.exTime _) c hist (fun _ => none) g exFmt
  refine ⟨tr, t0, t2 _ rfl, ?_, ?_⟩
  · rw [t3 (by decide +kernel)]
    exact congrArg (fun x => some (Val.vec x)) (by decide +kernel)
  · rw [t1]
    exact congrArg (fun x => some (CC.many x)) (by decide +kernel)

/-- A killed run. -/
example (c : Consts Rat) (g : Getters Rat (Val Rat)) :
    readLammpsMdDcd c [] (fun _ => none) g exFmt (-7) Rat.floor exNum none ⟨LmpRead.exFiles [], some (exFile (List.replicate 2 exFrame) ++ [1, 2, 3])⟩ =
      .error (.inl (.dcd .assertion)) :=
  (C135_killed (num := exNum) 2 _ _ [1, 2, 3] (exDcd 2) (by simp) (by simp) c [] _ g exFmt (-7) Rat.floor none (Cp2kRead.exFiles 1) _).2

/-! ### real numbers -/

/-- The numbers of the examples as real numbers. -/
noncomputable def realNum (w : Text) : Option ℝ := (exNum w).map fun q : Rat => (q : ℝ)

def realRow (r : Text × List Rat) : Text × List ℝ := (r.1, r.2.map fun q : Rat => (q : ℝ))
def realFrame (f : Frame Rat) : Frame ℝ := ⟨f.step, f.boxText, f.box.map realRow, f.rows.map realRow⟩
def realRun (f : LogRun Rat) : LogRun ℝ := ⟨f.header, f.rows.map realRow, f.after⟩

theorem real_words (l : Text) (v : List Rat) (h : (splitWs l).map exNum = v.map some) :
    (splitWs l).map realNum = (v.map fun q : Rat => (q : ℝ)).map some := by
  have := congrArg (List.map (Option.map fun q : Rat => (q : ℝ))) h
  rw [List.map_map, List.map_map] at this
  rw [List.map_map]
  exact this

theorem real_lines (na : Nat) (t : Text) (f : Frame Rat) : (realFrame f).lines na t = f.lines na t := by
  simp [Frame.lines, realFrame, realRow, Function.comp_def]

theorem real_wf (na nc nb : Nat) (f : Frame Rat) (h : f.Wf exNum na nc nb) : (realFrame f).Wf realNum na nc nb where
  step := h.step
  boxText := h.boxText
  nbox := by simpa [realFrame] using h.nbox
  nrows := by simpa [realFrame] using h.nrows
  box := by
    intro r hr
    simp only [realFrame, List.mem_map] at hr
    obtain ⟨x, hx, rfl⟩ := hr
    obtain ⟨h1, h2, h3⟩ := h.box x hx
    exact ⟨h1, by simpa [realRow] using h2, real_words _ _ h3⟩
  rows := by
    intro r hr
    simp only [realFrame, List.mem_map] at hr
    obtain ⟨x, hx, rfl⟩ := hr
    obtain ⟨h1, h2, h3⟩ := h.rows x hx
    exact ⟨h1, by simpa [realRow] using h2, real_words _ _ h3⟩

def realBox : Box ℝ := ⟨0, 10, 0, 10, 0, 10, -1, 2, 1⟩

theorem real_rows (f : Frame Rat) (h : f.box.map Prod.snd = exFrame1.box.map Prod.snd) : realBox.Rows ((realFrame f).box.map Prod.snd) := by
  refine ⟨-1, 2, 0, 1, ⟨by simp [realBox], by simp [realBox], ?_⟩, ⟨by simp, by simp [realBox], ?_⟩, ?_⟩
  · intro x hx
    simp only [realBox, List.mem_cons, List.not_mem_nil, or_false] at hx
    rcases hx with rfl | rfl | rfl | rfl <;> norm_num
  · intro x hx
    simp only [realBox, List.mem_cons, List.not_mem_nil, or_false] at hx
    rcases hx with rfl | rfl <;> norm_num
  · have : (realFrame f).box.map Prod.snd = (f.box.map Prod.snd).map (List.map fun q : Rat => (q : ℝ)) := by
      simp [realFrame, realRow, Function.comp_def]
    rw [this, h]
    norm_num [exFrame1, realBox]

theorem realDump : IsDump realNum exCols 2 [realBox, realBox] [realFrame exFrame1, realFrame exFrame2]
    ([exFrame1, exFrame2].flatMap (Frame.lines 2 LmpRead.exT)) where
  text := ⟨LmpRead.exT, exColsText, by simp [List.flatMap_cons, real_lines]⟩
  names := by decide +kernel
  ne := by simp
  atoms := by omega
  wf := by
    intro f hf
    simp only [List.mem_cons, List.not_mem_nil, or_false] at hf
    rcases hf with rfl | rfl <;> exact real_wf _ _ _ _ (Lmp.exFrame_wf _ (by simp))
  box := .cons (real_rows _ rfl) (.cons (real_rows _ rfl) .nil)

theorem realLog : IsLog realNum LmpRead.exTcols [[[0, 300, 10], [1, 310, 11]]] (LmpRead.exFiles [LmpRead.exRun]).log where
  text := by
    refine ⟨LmpRead.exPre, [realRun LmpRead.exRun], ?_, fun l hl => notHas_of _ _ ((by decide +kernel : ∀ l ∈ LmpRead.exPre, isInfix "Step".toList l = false) l hl), by simp, ?_,
      ?_, ?_⟩
    · simp [LmpRead.exFiles, realRun, LogRun.lines, realRow, Function.comp_def]
    · intro r hr
      simp only [List.mem_singleton] at hr
      rw [hr]
      have hw : LmpRead.exRun.Wf exNum 3 := run_wf 3 _ (by decide +kernel) (by decide +kernel) (by decide +kernel)
      refine ⟨fun x hx => ?_, hw.after⟩
      simp only [realRun, List.mem_map] at hx
      obtain ⟨y, hy, rfl⟩ := hx
      obtain ⟨h1, h2, h3, h4⟩ := hw.rows y hy
      exact ⟨h1, h2, by simpa [realRow, show LmpRead.exTcols.length = 3 by decide +kernel] using h3, real_words _ _ h4⟩
    · intro r hr
      simp only [List.mem_singleton] at hr
      rw [hr]
      show splitWs ("Step".toList ++ LmpRead.exRun.header) = _
      decide +kernel
    · have : (realRun LmpRead.exRun).rows.map Prod.snd = (LmpRead.exRun.rows.map Prod.snd).map (List.map fun q : Rat => (q : ℝ)) := by
        simp only [realRun, realRow, List.map_map, Function.comp_def]
      rw [List.map_singleton, this, show LmpRead.exRun.rows.map Prod.snd = [[0, 300, 10], [1, 310, 11]] from rfl]
      norm_num
  names := by decide +kernel
  two := by decide +kernel
  ne := by simp

/-- How the lengths and cosines are stored does not matter; here the bytes of the frame stand for those of the box. -/
noncomputable def realFmt : Fmt ℝ where
  f8 := fun b => match b.headD 0 with
    | 1 => 10
    | 2 => Real.sqrt 101
    | 3 => Real.sqrt 105
    | 4 => 8 / (Real.sqrt 101 * Real.sqrt 105)
    | 5 => 2 / Real.sqrt 105
    | _ => -1 / Real.sqrt 101
  f4 := fun b => (le b : ℝ)
  acos := degrees

theorem realSame : SameCell realFmt.f8 realBox exFrame := by
  have e1 : (0 : ℝ) < Real.sqrt 101 := by positivity
  have e2 : (0 : ℝ) < Real.sqrt 105 := by positivity
  have q1 : Real.sqrt 101 ^ 2 = (101 : ℝ) := Real.sq_sqrt (by norm_num)
  have q2 : Real.sqrt 105 ^ 2 = (105 : ℝ) := Real.sq_sqrt (by norm_num)
  have va : realFmt.f8 exFrame.a = 10 := rfl
  have vb : realFmt.f8 exFrame.b = Real.sqrt 101 := rfl
  have vc : realFmt.f8 exFrame.c = Real.sqrt 105 := rfl
  have v1 : realFmt.f8 exFrame.alpha = 8 / (Real.sqrt 101 * Real.sqrt 105) := rfl
  have v2 : realFmt.f8 exFrame.beta = 2 / Real.sqrt 105 := rfl
  have v3 : realFmt.f8 exFrame.gamma = -1 / Real.sqrt 101 := rfl
  constructor <;> simp only [va, vb, vc, v1, v2, v3, realBox]
  · norm_num
  · exact ⟨by norm_num, e1, e2⟩
  · norm_num
  · rw [q1]; norm_num
  · rw [q2]; norm_num
  · field_simp; norm_num
  · field_simp; norm_num
  · field_simp; norm_num

/-- The hypotheses of `C135_same_cell` are met, for a tilted box and lengths in a tenth of an Angstrom. -/
example (c : Consts ℝ) (hist : List (Kind × UDict ℝ)) : ∃ g, ∃ tr tr' : UObj ℝ (Val ℝ),
    LmpRead.readLammpsMdTxt c hist (fun q => if q = .length then some 10 else none) g (-7) (fun x => ⌊x⌋) realNum none
      { LmpRead.exFiles [LmpRead.exRun] with symbols := some "N Al".toList } = .ok tr ∧
    readLammpsMdDcd c hist (fun q => if q = .length then some 10 else none) g realFmt (-7) (fun x => ⌊x⌋) realNum none
      ⟨{ LmpRead.exFiles [LmpRead.exRun] with symbols := some "N Al".toList }, some (exFile (List.replicate 2 exFrame))⟩ = .ok tr' ∧
    tr.attr .cell = some (.arr [[[100, 0, 0], [-10, 100, 0], [20, 10, 100]], [[100, 0, 0], [-10, 100, 0], [20, 10, 100]]]) ∧ tr'.attr .cell = tr.attr .cell := by
  have ht : FirstLine (Has "timestep".toList) (LmpTimeLine realNum) (LmpRead.exFiles [LmpRead.exRun]).log 2 := by
    obtain ⟨A, l, B, e, hA, p, s, w, t, h1, h2, h3, h4, h5, h6⟩ := LmpRead.exTime [LmpRead.exRun]
    exact ⟨A, l, B, e, hA, p, s, w, t, h1, h2, h3, h4, h5, by rw [realNum, h6]; simp⟩
  obtain ⟨tr, tr', t0, t1, t2, t3⟩ := C135_same_cell (syms := some (splitWs "N Al".toList))
    (fs := ⟨{ LmpRead.exFiles [LmpRead.exRun] with symbols := some "N Al".toList }, some (exFile (List.replicate 2 exFrame))⟩) realDump rfl (.inl (by decide +kernel)) realLog
    (.file rfl) 2 ht rfl (exDcd 2) realFmt rfl (.cons realSame (.cons realSame .nil)) c hist (fun q => if q = .length then some 10 else none) (by simp)
    ⟨fun o a => if a = .cell then getCell o.cc else none, fun _ => none⟩ (fun o => by simp) (order := none) (toInt := fun x => ⌊x⌋) (junk := -7)
  refine ⟨_, tr, tr', t0, t1, ?_, t3⟩
  rw [t2]
  norm_num [scaled, Box.cell, realBox]

end Pwtools.DcdRead
