import Verif.Model.CutDir
import Verif.Spec.CutDir
import Verif.Props.CutScripts
/-!
# C150: runs of the cut scripts, crashes and second runs
-/
namespace Pwtools.Cut
open Pwtools.Gr Spec

section
variable {F : Type} [DecidableEq F]

/-- Effect of a complete `sed -i.s`. -/
def blk (f : F) (s : Sfx) (g : List Text → List Text) (d : Dir F) : Dir F :=
  match d f .main with
  | none => d
  | some c => ((d.set f s (some c)).set f .main none).set f .main (some (g c))

/-- Effect of `sed -i`. -/
def inp (f : F) (g : List Text → List Text) (d : Dir F) : Dir F :=
  match d f .main with
  | none => d
  | some c => d.set f .main (some (g c))

theorem fold_blk (f : F) (s : Sfx) (g : List Text → List Text) (d : Dir F) (ops : List (Op F)) :
    (Op.toBak f s g :: Op.put f :: ops).foldl Op.exec ⟨d, none⟩ = ops.foldl Op.exec ⟨blk f s g d, none⟩ := by
  simp only [List.foldl_cons]
  congr 1
  unfold blk
  cases h : d f .main with
  | none => simp [Op.exec, h]
  | some c => simp [Op.exec, h]

theorem fold_inp (f : F) (g : List Text → List Text) (d : Dir F) (ops : List (Op F)) :
    (Op.inPlace f g :: ops).foldl Op.exec ⟨d, none⟩ = ops.foldl Op.exec ⟨inp f g d, none⟩ := by
  simp only [List.foldl_cons]
  congr 1
  unfold inp
  cases h : d f .main with
  | none => simp [Op.exec, h]
  | some c => simp [Op.exec, h]

theorem blk_main (f : F) (s : Sfx) (g : List Text → List Text) (d : Dir F) : blk f s g d f .main = (d f .main).map g := by
  unfold blk
  cases h : d f .main <;> simp [Dir.set, h]

theorem blk_sfx (f : F) (s : Sfx) (hs : s ≠ .main) (g : List Text → List Text) (d : Dir F) : blk f s g d f s = (d f .main).or (d f s) := by
  unfold blk
  cases h : d f .main <;> simp [Dir.set, hs]

theorem blk_other (f f' : F) (s s' : Sfx) (h : f' ≠ f) (g : List Text → List Text) (d : Dir F) : blk f s g d f' s' = d f' s' := by
  unfold blk
  cases d f .main <;> simp [Dir.set, h]

theorem blk_keep (f : F) (s s' : Sfx) (h : s' ≠ s) (h' : s' ≠ .main) (g : List Text → List Text) (d : Dir F) : blk f s g d f s' = d f s' := by
  unfold blk
  cases d f .main <;> simp [Dir.set, h, h']

theorem inp_main (f : F) (g : List Text → List Text) (d : Dir F) : inp f g d f .main = (d f .main).map g := by
  unfold inp
  cases h : d f .main <;> simp [Dir.set, h]

theorem inp_other (f f' : F) (s' : Sfx) (h : f' ≠ f ∨ s' ≠ .main) (g : List Text → List Text) (d : Dir F) : inp f g d f' s' = d f' s' := by
  unfold inp
  cases d f .main with
  | none => rfl
  | some c => rcases h with h | h <;> simp [Dir.set, h]

theorem ex_bak_keep (st : St F) (f f' : F) (s s' : Sfx) (g : List Text → List Text) (h : f' ≠ f ∨ (s' ≠ s ∧ s' ≠ .main)) :
    (Op.exec st (.toBak f s g)).dir f' s' = st.dir f' s' := by
  simp only [Op.exec]
  cases st.dir f .main with
  | none => rfl
  | some c => rcases h with h | ⟨h, h'⟩ <;> simp_all [Dir.set]

theorem ex_bak_sfx (st : St F) (f : F) (s : Sfx) (hs : s ≠ .main) (g : List Text → List Text) (c : List Text) (h : st.dir f .main = some c) :
    (Op.exec st (.toBak f s g)).dir f s = some c ∧ (Op.exec st (.toBak f s g)).tmp = some (f, g c) := by
  simp only [Op.exec, h]
  simp [Dir.set, hs]

theorem ex_bak_main (st : St F) (f : F) (s : Sfx) (g : List Text → List Text) : (Op.exec st (.toBak f s g)).dir f .main = none := by
  simp only [Op.exec]
  cases h : st.dir f .main with
  | none => exact h
  | some c => simp [Dir.set]

theorem ex_bak_none (st : St F) (f : F) (s : Sfx) (g : List Text → List Text) (h : st.dir f .main = none) : Op.exec st (.toBak f s g) = st := by
  simp only [Op.exec, h]

theorem ex_put_keep (st : St F) (f f' : F) (s' : Sfx) (h : f' ≠ f ∨ s' ≠ .main) : (Op.exec st (.put f)).dir f' s' = st.dir f' s' := by
  simp only [Op.exec]
  rcases st.tmp with _ | ⟨f'', c⟩
  · rfl
  · simp only
    split
    · rcases h with h | h <;> simp [Dir.set, h]
    · rfl

theorem ex_put (st : St F) (f : F) : (Op.exec st (.put f)) = st ∨ ∃ c, st.tmp = some (f, c) ∧
    (Op.exec st (.put f)).dir f .main = some c ∧ (Op.exec st (.put f)).tmp = none := by
  simp only [Op.exec]
  rcases ht : st.tmp with _ | ⟨f'', c⟩
  · exact Or.inl rfl
  · by_cases he : f'' = f
    · subst he
      exact Or.inr ⟨c, rfl, by simp [Dir.set], by simp⟩
    · simp [he]

theorem ex_in_keep (st : St F) (f f' : F) (s' : Sfx) (g : List Text → List Text) (h : f' ≠ f ∨ s' ≠ .main) :
    (Op.exec st (.inPlace f g)).dir f' s' = st.dir f' s' := by
  simp only [Op.exec]
  cases st.dir f .main with
  | none => rfl
  | some c => rcases h with h | h <;> simp [Dir.set, h]

theorem ex_in (st : St F) (f : F) (g : List Text → List Text) :
    (Op.exec st (.inPlace f g)).dir f .main = (st.dir f .main).map g ∧ (Op.exec st (.inPlace f g)).tmp = st.tmp := by
  simp only [Op.exec]
  cases h : st.dir f .main with
  | none => simp [h]
  | some c => simp [Dir.set]

/-! ### originals at every crash point -/

/-- Each file is first renamed to its `.bak`, only once, and changed only after that. -/
def wf : List (Op F) → List F → Prop
  | [], _ => True
  | .toBak f .bak _ :: r, D => f ∉ D ∧ wf r (f :: D)
  | .toBak f .bak2 _ :: r, D => f ∈ D ∧ wf r D
  | .toBak _ .main _ :: _, _ => False
  | .put f :: r, D => f ∈ D ∧ wf r D
  | .inPlace f _ :: r, D => f ∈ D ∧ wf r D

theorem wf_take : ∀ (ops : List (Op F)) (D : List F) (k : Nat), wf ops D → wf (ops.take k) D
  | [], _, k, _ => by simp [wf]
  | _, _, 0, _ => by simp [wf]
  | .toBak f .bak g :: r, D, k + 1, h => ⟨h.1, wf_take r (f :: D) k h.2⟩
  | .toBak f .bak2 g :: r, D, k + 1, h => ⟨h.1, wf_take r D k h.2⟩
  | .toBak f .main g :: r, D, k + 1, h => h.elim
  | .put f :: r, D, k + 1, h => ⟨h.1, wf_take r D k h.2⟩
  | .inPlace f g :: r, D, k + 1, h => ⟨h.1, wf_take r D k h.2⟩

theorem kept (d : Dir F) : ∀ (ops : List (Op F)) (D : List F) (st : St F), wf ops D →
    (∀ f, f ∉ D → st.dir f .main = d f .main) → (∀ f, f ∈ D → ∀ c, d f .main = some c → st.dir f .bak = some c) →
    OriginalsKept d (ops.foldl Op.exec st).dir
  | [], D, st, _, h1, h2 => by
    intro f c hc
    by_cases hf : f ∈ D
    · exact Or.inr (h2 f hf c hc)
    · exact Or.inl ((h1 f hf).trans hc)
  | .toBak f .bak g :: r, D, st, h, h1, h2 => by
    rw [List.foldl_cons]
    refine kept d r (f :: D) _ h.2 ?_ ?_
    · intro f' hf'
      have hne : f' ≠ f := fun e => hf' (by simp [e])
      have hnD : f' ∉ D := fun e => hf' (List.mem_cons_of_mem _ e)
      rw [ex_bak_keep st f f' .bak .main g (Or.inl hne)]
      exact h1 f' hnD
    · intro f' hf' c hc
      by_cases hne : f' = f
      · subst hne
        exact (ex_bak_sfx st f' .bak (by simp) g c ((h1 f' h.1).trans hc)).1
      · rw [ex_bak_keep st f f' .bak .bak g (Or.inl hne)]
        exact h2 f' (by simpa [hne] using hf') c hc
  | .toBak f .bak2 g :: r, D, st, h, h1, h2 => by
    rw [List.foldl_cons]
    refine kept d r D _ h.2 ?_ ?_
    · intro f' hf'
      rw [ex_bak_keep st f f' .bak2 .main g (Or.inl fun e => hf' (e ▸ h.1))]
      exact h1 f' hf'
    · intro f' hf' c hc
      rw [ex_bak_keep st f f' .bak2 .bak g (Or.inr (by simp))]
      exact h2 f' hf' c hc
  | .toBak f .main g :: r, D, st, h, _, _ => h.elim
  | .put f :: r, D, st, h, h1, h2 => by
    rw [List.foldl_cons]
    refine kept d r D _ h.2 ?_ ?_
    · intro f' hf'
      rw [ex_put_keep st f f' .main (Or.inl fun e => hf' (e ▸ h.1))]
      exact h1 f' hf'
    · intro f' hf' c hc
      rw [ex_put_keep st f f' .bak (Or.inr (by simp))]
      exact h2 f' hf' c hc
  | .inPlace f g :: r, D, st, h, h1, h2 => by
    rw [List.foldl_cons]
    refine kept d r D _ h.2 ?_ ?_
    · intro f' hf'
      rw [ex_in_keep st f f' .main g (Or.inl fun e => hf' (e ▸ h.1))]
      exact h1 f' hf'
    · intro f' hf' c hc
      rw [ex_in_keep st f f' .bak g (Or.inr (by simp))]
      exact h2 f' hf' c hc

/-! ### versions of the files at a crash -/

/-- An invariant of the contents, kept by all changes of the file. -/
theorem versions (d : Dir F) (P : F → List Text → List Text → Prop) (hrefl : ∀ f c, P f c c) (ops : List (Op F))
    (hop : ∀ o ∈ ops, match o with
      | .toBak f s g => s ≠ .main ∧ ∀ c v, d f .main = some c → P f c v → P f c (g v)
      | .put _ => True
      | .inPlace f g => ∀ c v, d f .main = some c → P f c v → P f c (g v)) :
    ∀ f v, (runOps ops d).dir f .main = some v → ∃ c, d f .main = some c ∧ P f c v := by
  suffices h : ∀ (ops : List (Op F)) (st : St F), (∀ o ∈ ops, match o with
      | .toBak f s g => s ≠ .main ∧ ∀ c v, d f .main = some c → P f c v → P f c (g v)
      | .put _ => True
      | .inPlace f g => ∀ c v, d f .main = some c → P f c v → P f c (g v)) →
      (∀ f v, st.dir f .main = some v → ∃ c, d f .main = some c ∧ P f c v) →
      (∀ f v, st.tmp = some (f, v) → ∃ c, d f .main = some c ∧ P f c v) →
      ∀ f v, (ops.foldl Op.exec st).dir f .main = some v → ∃ c, d f .main = some c ∧ P f c v from
    h ops ⟨d, none⟩ hop (fun f v hv => ⟨v, hv, hrefl f v⟩) (by simp)
  intro ops
  induction ops with
  | nil => intro st _ h1 _; exact h1
  | cons o ops ih =>
    intro st hop h1 h2
    rw [List.foldl_cons]
    have ho := hop o (List.mem_cons_self ..)
    refine ih _ (fun o ho => hop o (List.mem_cons_of_mem _ ho)) ?_ ?_
    · intro f v hv
      cases o with
      | toBak f' s g =>
        by_cases hf : f = f'
        · subst hf; rw [ex_bak_main] at hv; exact absurd hv (by simp)
        · rw [ex_bak_keep st f' f s .main g (Or.inl hf)] at hv; exact h1 f v hv
      | put f' =>
        by_cases hf : f = f'
        · subst hf
          rcases ex_put st f with e | ⟨c, ht, hd, -⟩
          · rw [e] at hv; exact h1 f v hv
          · rw [hd] at hv; rw [Option.some.inj hv] at ht; exact h2 f v ht
        · rw [ex_put_keep st f' f .main (Or.inl hf)] at hv; exact h1 f v hv
      | inPlace f' g =>
        by_cases hf : f = f'
        · subst hf
          rw [(ex_in st f g).1] at hv
          obtain ⟨c, hm, rfl⟩ := Option.map_eq_some_iff.1 hv
          obtain ⟨c0, hc0, hP⟩ := h1 f c hm
          exact ⟨c0, hc0, ho c0 c hc0 hP⟩
        · rw [ex_in_keep st f' f .main g (Or.inl hf)] at hv; exact h1 f v hv
    · intro f v hv
      cases o with
      | toBak f' s g =>
        cases hm : st.dir f' .main with
        | none => rw [ex_bak_none st f' s g hm] at hv; exact h2 f v hv
        | some c =>
          rw [(ex_bak_sfx st f' s ho.1 g c hm).2] at hv
          simp only [Option.some.injEq, Prod.mk.injEq] at hv
          obtain ⟨rfl, rfl⟩ := hv
          obtain ⟨c0, hc0, hP⟩ := h1 f' c hm
          exact ⟨c0, hc0, ho.2 c0 c hc0 hP⟩
      | put f' =>
        rcases ex_put st f' with e | ⟨c, -, -, ht⟩
        · rw [e] at hv; exact h2 f v hv
        · rw [ht] at hv; exact absurd hv (by simp)
      | inPlace f' g =>
        rw [(ex_in st f' g).2] at hv; exact h2 f v hv

theorem crash_eq (ops : List (Op F)) (k : Nat) (d : Dir F) : crash ops k d = (runOps (ops.take k) d).dir := rfl

end

/-! ### text -/

theorem sedCut_clean (p : Text → Bool) (l : List Text) : ∀ x ∈ sedCut p l, p x = false := by
  induction l with
  | nil => simp [sedCut]
  | cons a l ih =>
    intro x hx
    unfold sedCut at hx ih
    by_cases ha : p a = true
    · rw [List.takeWhile_cons_of_neg (by simp [ha])] at hx
      exact absurd hx (by simp)
    · rw [List.takeWhile_cons_of_pos (by simpa using ha)] at hx
      rcases List.mem_cons.1 hx with rfl | hx
      · simpa using ha
      · exact ih x hx

theorem sedCut_idem (p : Text → Bool) (l : List Text) : sedCut p (sedCut p l) = sedCut p l := cut_absent p _ (sedCut_clean p l)

theorem sedCut_prefix (p : Text → Bool) (l : List Text) : sedCut p l <+: l := List.takeWhile_prefix _

theorem dropCount_prefix (n : Text) (l : List Text) : dropCount n l <+: l := by
  unfold dropCount
  cases l.getLast? with
  | none => exact List.prefix_refl _
  | some x => simp only; split; exact List.dropLast_prefix _; exact List.prefix_refl _

theorem cp2kXyz_eq (n : Text) (s : Nat) (l : List Text) : cp2kXyz n s l = dropCount n (sedCut (xyzRe s) l) := rfl

/-- The complete run on one `xyz` file, for any pattern. -/
def xyzCut (px : Text → Bool) (n : Text) (l : List Text) : List Text := dropCount n (sedCut px l)

/-! ### complete runs -/

theorem cp2k_run (pl px : Text → Bool) (n : Text) (d : Dir Cp2kFile) :
    (∀ f, f = .cell ∨ f = .ener ∨ f = .stress → (runOps (cp2kOps pl px n) d).dir f .main = (d f .main).map (sedCut pl)) ∧
    (∀ f, f = .frc ∨ f = .pos ∨ f = .vel → (runOps (cp2kOps pl px n) d).dir f .main = (d f .main).map (xyzCut px n)) ∧
    ∀ f, (runOps (cp2kOps pl px n) d).dir f .bak = (d f .main).or (d f .bak) := by
  have e : (runOps (cp2kOps pl px n) d).dir = inp .vel (dropCount n) (blk .vel .bak (sedCut px) (inp .pos (dropCount n) (blk .pos .bak (sedCut px)
      (inp .frc (dropCount n) (blk .frc .bak (sedCut px) (blk .stress .bak (sedCut pl) (blk .ener .bak (sedCut pl)
      (blk .cell .bak (sedCut pl) d)))))))) := by
    unfold runOps cp2kOps
    simp only [List.flatMap_cons, List.flatMap_nil, List.append_nil, List.cons_append, List.nil_append]
    rw [fold_blk, fold_blk, fold_blk, fold_blk, fold_inp, fold_blk, fold_inp, fold_blk, fold_inp]
    rfl
  rw [e]
  refine ⟨?_, ?_, ?_⟩
  · rintro f (rfl | rfl | rfl) <;> simp [inp_other, blk_other, blk_main]
  · rintro f (rfl | rfl | rfl) <;> simp only [inp_other, blk_other, blk_main, inp_main, ne_eq, reduceCtorEq, not_false_eq_true, true_or, or_true,
      Option.map_map] <;> rfl
  · intro f
    cases f <;> simp [inp_other, blk_other, blk_main, blk_sfx]

/-- **C150** (`cut-cp2k.sh <dir> <step>`, complete run): every file with one line per step and every `xyz` file is cut at the step (what this
means is C100), with the number of atoms of the position file; a file which does not exist is not made; the files before the run are in
`.bak`. -/
theorem C150_cp2k (step : Nat) (restart : Option (List Text)) (d : Dir Cp2kFile) :
    let after := (runOps (cp2kScript false (some step) restart d) d).dir
    (∀ f, f = .cell ∨ f = .ener ∨ f = .stress → after f .main = (d f .main).map (cp2kLines step)) ∧
    (∀ f, f = .frc ∨ f = .pos ∨ f = .vel → after f .main = (d f .main).map (cp2kXyz (natomsText ((d .pos .main).getD [])) step)) ∧
    ∀ f c, d f .main = some c → after f .bak = some c := by
  obtain ⟨h1, h2, h3⟩ := cp2k_run (lineRe step) (xyzRe step) (natomsText ((d .pos .main).getD [])) d
  exact ⟨h1, h2, fun f c hc => (h3 f).trans (by rw [hc]; rfl)⟩

theorem cpmd_run (step : Nat) (d : Dir CpmdFile) :
    (runOps (cpmdOps step) d).dir = blk .xyz .bak2 List.dropLast (blk .xyz .bak (sedCut (stepRe step)) (blk .ftrajectory .bak (cpmdLines step)
      (blk .trajectory .bak (cpmdLines step) (blk .stress .bak (cpmdHeader "TOTAL STRESS".toList step)
      (blk .energies .bak (cpmdLines step) (blk .cell .bak (cpmdHeader "CELL PARAMETERS".toList step) d)))))) := by
  unfold runOps cpmdOps
  rw [fold_blk, fold_blk, fold_blk, fold_blk, fold_blk, fold_blk, fold_blk]
  rfl

/-- What the CPMD script makes of each file. -/
def cpmdCut (step : Nat) : CpmdFile → List Text → List Text
  | .cell => cpmdHeader "CELL PARAMETERS".toList step
  | .stress => cpmdHeader "TOTAL STRESS".toList step
  | .xyz => cpmdXyz step
  | _ => cpmdLines step

/-- **C150** (`cut-cpmd.sh <dir> <step>`, complete run): the same for the files of CPMD. -/
theorem C150_cpmd (step : Nat) (d : Dir CpmdFile) :
    let after := (runOps (cpmdScript false false step) d).dir
    after .cell .main = (d .cell .main).map (cpmdHeader "CELL PARAMETERS".toList step) ∧
    after .stress .main = (d .stress .main).map (cpmdHeader "TOTAL STRESS".toList step) ∧
    after .xyz .main = (d .xyz .main).map (cpmdXyz step) ∧
    (∀ f, f = .energies ∨ f = .trajectory ∨ f = .ftrajectory → after f .main = (d f .main).map (cpmdLines step)) ∧
    ∀ f c, d f .main = some c → after f .bak = some c := by
  have e : (runOps (cpmdScript false false step) d).dir = _ := cpmd_run step d
  simp only [e]
  refine ⟨?_, ?_, ?_, ?_, ?_⟩
  · simp [blk_other, blk_main]
  · simp [blk_other, blk_main]
  · simp only [blk_other, blk_main, ne_eq, reduceCtorEq, not_false_eq_true, Option.map_map]
    rfl
  · rintro f (rfl | rfl | rfl) <;> simp [blk_other, blk_main]
  · intro f c hc
    cases f <;> simp [blk_other, blk_sfx, blk_keep, hc]

/-- **C150** (`-s`, `--not-inplace`): nothing is changed. -/
theorem C150_simulate (arg : Option Nat) (restart : Option (List Text)) (step : Nat) (d : Dir Cp2kFile) (d' : Dir CpmdFile) (ni : Bool) :
    (runOps (cp2kScript true arg restart d) d).dir = d ∧ (runOps (cpmdScript true ni step) d').dir = d' ∧
    (runOps (cpmdScript ni true step) d').dir = d' := by
  refine ⟨rfl, rfl, ?_⟩
  cases ni <;> rfl

/-! ### crashes -/

theorem cp2k_wf (pl px : Text → Bool) (n : Text) : wf (cp2kOps pl px n) [] := by
  simp [cp2kOps, wf]

/-- **C150** (crash): wherever one of the scripts is killed, the content of every file from before is still in the directory, under its own name
or in `.bak`; also for a step from the restart file. -/
theorem C150_kept (arg : Option Nat) (restart : Option (List Text)) (simulate ni : Bool) (step k : Nat) (d : Dir Cp2kFile) (d' : Dir CpmdFile) :
    OriginalsKept d (crash (cp2kScript simulate arg restart d) k d) ∧ OriginalsKept d' (crash (cpmdScript simulate ni step) k d') := by
  constructor
  · refine kept d _ [] ⟨d, none⟩ (wf_take _ _ _ ?_) (fun _ _ => rfl) (by simp)
    unfold cp2kScript
    split
    · trivial
    · cases stepOf arg restart
      · trivial
      · exact cp2k_wf ..
      · exact cp2k_wf ..
      · trivial
  · refine kept d' _ [] ⟨d', none⟩ (wf_take _ _ _ ?_) (fun _ _ => rfl) (by simp)
    unfold cpmdScript
    split
    · trivial
    · simp [cpmdOps, wf]

theorem xyz_same (px : Text → Bool) (n : Text) (c : List Text) (hlast : ∀ l, (xyzCut px n c).getLast? = some l → countRe n l = false) :
    dropCount n (xyzCut px n c) = xyzCut px n c := by
  unfold dropCount
  cases h : (xyzCut px n c).getLast? with
  | none => rfl
  | some l => simp [hlast l h]

theorem sed_prefix (p : Text → Bool) (c v : List Text) (h : v <+: c) (hv : ∀ x ∈ v, p x = false) : v <+: sedCut p c := by
  obtain ⟨w, rfl⟩ := h
  unfold sedCut
  rw [List.takeWhile_append_of_pos (fun x hx => by simp [hv x hx])]
  exact List.prefix_append _ _

/-- The changes of an `xyz` file do not change what a complete run makes of it. -/
theorem xyz_inv (px : Text → Bool) (n : Text) (c v : List Text) (hlast : ∀ l, (xyzCut px n c).getLast? = some l → countRe n l = false)
    (h : xyzCut px n v = xyzCut px n c) : xyzCut px n (sedCut px v) = xyzCut px n c ∧ xyzCut px n (dropCount n v) = xyzCut px n c := by
  constructor
  · unfold xyzCut
    rw [sedCut_idem]
    exact h
  · by_cases hd : dropCount n v = v
    · rw [hd]; exact h
    have hv : ∃ w l, v = w ++ [l] ∧ countRe n l = true ∧ dropCount n v = w := by
      unfold dropCount at hd ⊢
      rcases List.eq_nil_or_concat v with rfl | ⟨w, l, rfl⟩
      · simp at hd
      · rw [List.concat_eq_append] at hd ⊢
        refine ⟨w, l, rfl, ?_, ?_⟩
        · by_contra hc
          simp [hc] at hd
        · by_cases hc : countRe n l = true
          · simp [hc]
          · simp [hc] at hd
    obtain ⟨w, l, rfl, hc, e⟩ := hv
    rw [e]
    by_cases hw : ∀ x ∈ w, px x = false
    · by_cases hl : px l = true
      · rw [← h]
        unfold xyzCut
        rw [show sedCut px (w ++ [l]) = sedCut px w by
          rw [cut_absent px w hw]; unfold sedCut
          rw [List.takeWhile_append_of_pos (fun x hx => by simp [hw x hx]), List.takeWhile_cons_of_neg (by simp [hl]), List.append_nil]]
      · have e1 : sedCut px (w ++ [l]) = w ++ [l] := cut_absent px _ (by
          intro x hx
          rcases List.mem_append.1 hx with hx | hx
          · exact hw x hx
          · rw [List.mem_singleton.1 hx]; simpa using hl)
        have e2 : xyzCut px n (w ++ [l]) = w := by
          unfold xyzCut
          rw [e1, e]
        have e3 : xyzCut px n w = dropCount n w := by unfold xyzCut; rw [cut_absent px w hw]
        rw [e3, ← h, e2]
        have := xyz_same px n c hlast
        rw [← h, e2] at this
        exact this
    · rw [← h]
      unfold xyzCut
      congr 1
      push Not at hw
      obtain ⟨x, hx, hpx⟩ := hw
      unfold sedCut
      rw [List.takeWhile_append, if_neg]
      intro hlen
      have := (List.takeWhile_prefix (l := w) fun l => !px l).eq_of_length hlen
      rw [← this] at hx
      exact hpx (sedCut_clean px w x hx)

theorem head_prefix (v c : List Text) (h : v <+: c) (hv : v ≠ []) : v.head? = c.head? := by
  obtain ⟨w, rfl⟩ := h
  cases v with
  | nil => exact absurd rfl hv
  | cons a v => rfl

theorem natoms_head (v c : List Text) (h : v.head? = c.head?) : natomsText v = natomsText c := by
  unfold natomsText
  cases v <;> cases c <;> simp_all

/-- **C150** (crash and second run, `cut-cp2k.sh`): if no file is missing after the crash, running the script again gives all files as one
complete run does. Missing: crashes between the two renames of sed (`C150_rename_counterexample`), and runs after which no step is left in the
position file, as the number of atoms is then unknown (`C150_first_step_counterexample`). (A file must not end with a line which looks like the
number of atoms after the cut; for files in the format of CP2K this is so.) -/
theorem C150_rerun_partial (step : Nat) (restart : Option (List Text)) (d : Dir Cp2kFile) (k : Nat)
    (hmiss : NoneMissing d (crash (cp2kScript false (some step) restart d) k d))
    (hpos : ∀ c, d .pos .main = some c → cp2kXyz (natomsText c) step c ≠ [])
    (hlast : ∀ f c l, f = .frc ∨ f = .pos ∨ f = .vel → d f .main = some c →
      (cp2kXyz (natomsText ((d .pos .main).getD [])) step c).getLast? = some l → countRe (natomsText ((d .pos .main).getD [])) l = false)
    (f : Cp2kFile) :
    (runOps (cp2kScript false (some step) restart (crash (cp2kScript false (some step) restart d) k d))
      (crash (cp2kScript false (some step) restart d) k d)).dir f .main = (runOps (cp2kScript false (some step) restart d) d).dir f .main := by
  set n := natomsText ((d .pos .main).getD []) with hn
  set pl := lineRe step with hpl
  set px := xyzRe step with hpx
  have hs : ∀ d : Dir Cp2kFile, cp2kScript false (some step) restart d = cp2kOps pl px (natomsText ((d .pos .main).getD [])) := fun _ => rfl
  set dk := crash (cp2kScript false (some step) restart d) k d with hdk
  let P : Cp2kFile → List Text → List Text → Prop := fun f c v =>
    (f = .cell ∨ f = .ener ∨ f = .stress → sedCut pl v = sedCut pl c) ∧
    (f = .frc ∨ f = .pos ∨ f = .vel → xyzCut px n v = xyzCut px n c) ∧ (f = .pos → v.head? = c.head?)
  have hne : ∀ c v, d .pos .main = some c → xyzCut px n v = xyzCut px n c → xyzCut px n v ≠ [] := by
    intro c v hc hv
    rw [hv]
    have := hpos c hc
    rw [show natomsText c = n by rw [hn, hc]; rfl] at this
    exact this
  have hxyz : ∀ f c v, f = .frc ∨ f = .pos ∨ f = .vel → d f .main = some c → P f c v → P f c (sedCut px v) ∧ P f c (dropCount n v) := by
    intro f c v hf hc hP
    obtain ⟨e1, e2⟩ := xyz_inv px n c v (fun l => hlast f c l hf hc) (hP.2.1 hf)
    have hl : ¬ (f = .cell ∨ f = .ener ∨ f = .stress) := by rcases hf with rfl | rfl | rfl <;> simp
    refine ⟨⟨fun h => absurd h hl, fun _ => e1, ?_⟩, ⟨fun h => absurd h hl, fun _ => e2, ?_⟩⟩
    · rintro rfl
      rw [← hP.2.2 rfl]
      refine head_prefix _ _ (sedCut_prefix px v) fun h0 => hne c v hc (hP.2.1 hf) ?_
      unfold xyzCut
      rw [h0]
      rfl
    · rintro rfl
      rw [← hP.2.2 rfl]
      refine head_prefix _ _ (dropCount_prefix n v) fun h0 => hne c _ hc e2 ?_
      rw [h0]
      rfl
  have hline : ∀ f c v, f = .cell ∨ f = .ener ∨ f = .stress → P f c v → P f c (sedCut pl v) := by
    intro f c v hf hP
    refine ⟨fun _ => (sedCut_idem pl v).trans (hP.1 hf), fun h => ?_, fun h => ?_⟩
    · rcases hf with rfl | rfl | rfl <;> simp at h
    · rcases hf with rfl | rfl | rfl <;> simp at h
  have hver := versions d P (fun f c => ⟨fun _ => rfl, fun _ => rfl, fun _ => rfl⟩) ((cp2kOps pl px n).take k) (by
    intro o ho
    have ho := List.mem_of_mem_take ho
    simp only [cp2kOps, List.flatMap_cons, List.flatMap_nil, List.append_nil, List.cons_append, List.nil_append, List.mem_cons, List.not_mem_nil,
      or_false] at ho
    rcases ho with rfl | rfl | rfl | rfl | rfl | rfl | rfl | rfl | rfl | rfl | rfl | rfl | rfl | rfl | rfl
    · exact ⟨by simp, fun c v _ hP => hline _ c v (by simp) hP⟩
    · trivial
    · exact ⟨by simp, fun c v _ hP => hline _ c v (by simp) hP⟩
    · trivial
    · exact ⟨by simp, fun c v _ hP => hline _ c v (by simp) hP⟩
    · trivial
    · exact ⟨by simp, fun c v hc hP => (hxyz _ c v (by simp) hc hP).1⟩
    · trivial
    · exact fun c v hc hP => (hxyz _ c v (by simp) hc hP).2
    · exact ⟨by simp, fun c v hc hP => (hxyz _ c v (by simp) hc hP).1⟩
    · trivial
    · exact fun c v hc hP => (hxyz _ c v (by simp) hc hP).2
    · exact ⟨by simp, fun c v hc hP => (hxyz _ c v (by simp) hc hP).1⟩
    · trivial
    · exact fun c v hc hP => (hxyz _ c v (by simp) hc hP).2)
  have hcase : ∀ f, (d f .main = none ∧ dk f .main = none) ∨ ∃ c v, d f .main = some c ∧ dk f .main = some v ∧ P f c v := by
    intro f
    cases hv : dk f .main with
    | none =>
      refine Or.inl ⟨?_, rfl⟩
      by_contra h
      exact hmiss f h hv
    | some v =>
      obtain ⟨c, hc, hP⟩ := hver f v hv
      exact Or.inr ⟨c, v, hc, rfl, hP⟩
  have hnk : natomsText ((dk .pos .main).getD []) = n := by
    rcases hcase .pos with ⟨h1, h2⟩ | ⟨c, v, h1, h2, hP⟩
    · rw [h2, hn, h1]
    · rw [h2, hn, h1]
      exact natoms_head v c (hP.2.2 rfl)
  rw [hs dk, hs d, hnk, ← hn]
  obtain ⟨a1, a2, -⟩ := cp2k_run pl px n dk
  obtain ⟨b1, b2, -⟩ := cp2k_run pl px n d
  by_cases hf : f = .cell ∨ f = .ener ∨ f = .stress
  · rw [a1 f hf, b1 f hf]
    rcases hcase f with ⟨h1, h2⟩ | ⟨c, v, h1, h2, hP⟩
    · rw [h1, h2]
    · rw [h1, h2]; exact congrArg some (hP.1 hf)
  · have hf : f = .frc ∨ f = .pos ∨ f = .vel := by cases f <;> simp_all
    rw [a2 f hf, b2 f hf]
    rcases hcase f with ⟨h1, h2⟩ | ⟨c, v, h1, h2, hP⟩
    · rw [h1, h2]
    · rw [h1, h2]; exact congrArg some (hP.2.1 hf)

/-- If sed is killed between its two renames, the file is there only as `.bak`, and running the script again does not bring it back: it is
skipped as a file which does not exist. -/
theorem C150_rename_counterexample (step : Nat) (restart : Option (List Text)) (d : Dir Cp2kFile) (c : List Text) (hc : d .cell .main = some c) :
    let dk := crash (cp2kScript false (some step) restart d) 1 d
    dk .cell .main = none ∧ dk .cell .bak = some c ∧ (runOps (cp2kScript false (some step) restart dk) dk).dir .cell .main = none := by
  have h1 : crash (cp2kScript false (some step) restart d) 1 d = (Op.exec ⟨d, none⟩ (.toBak .cell .bak (sedCut (lineRe step)))).dir := rfl
  intro dk
  have h2 : dk .cell .main = none := by rw [show dk = _ from h1]; exact ex_bak_main ..
  refine ⟨h2, ?_, ?_⟩
  · rw [show dk = _ from h1]
    exact (ex_bak_sfx ⟨d, none⟩ .cell .bak (by simp) _ c hc).1
  · rw [(C150_cp2k step restart dk).1 .cell (by simp), h2]
    rfl

/-- A second run replaces the backup copies by the files which are cut already: what was cut is then lost. -/
theorem C150_second_run_counterexample (step : Nat) (restart : Option (List Text)) (d : Dir Cp2kFile) (f : Cp2kFile)
    (hf : f = .cell ∨ f = .ener ∨ f = .stress) (c : List Text) (hc : d f .main = some c) (hcut : cp2kLines step c ≠ c) :
    let d1 := (runOps (cp2kScript false (some step) restart d) d).dir
    let d2 := (runOps (cp2kScript false (some step) restart d1) d1).dir
    d2 f .main = some (cp2kLines step c) ∧ d2 f .bak = some (cp2kLines step c) ∧ ¬ OriginalsKept d d2 := by
  intro d1 d2
  have h1 : d1 f .main = some (cp2kLines step c) := by
    have h := (C150_cp2k step restart d).1 f hf
    rw [hc] at h
    exact h
  have h2 : d2 f .main = some (cp2kLines step c) := by
    have h := (C150_cp2k step restart d1).1 f hf
    rw [h1] at h
    exact h.trans (congrArg some (sedCut_idem _ c))
  have h3 : d2 f .bak = some (cp2kLines step c) := (C150_cp2k step restart d1).2.2 f _ h1
  refine ⟨h2, h3, fun h => ?_⟩
  rcases h f c hc with h | h
  · rw [h2] at h; exact hcut (Option.some.inj h)
  · rw [h3] at h; exact hcut (Option.some.inj h)

/-! ### CPMD: crash and second run -/

/-- **C150** (crash and second run, `cut-cpmd.sh`): if no file is missing after the crash, running the script again gives all files but
`TRAJEC.xyz` as one complete run does, and `TRAJEC.xyz` too if the crash was before its second command. Missing: later crashes, see
`C150_cpmd_again_counterexample`. -/
theorem C150_cpmd_rerun_partial (step : Nat) (d : Dir CpmdFile) (k : Nat) (hmiss : NoneMissing d (crash (cpmdScript false false step) k d))
    (f : CpmdFile) (hf : f ≠ .xyz ∨ k ≤ 12) :
    (runOps (cpmdScript false false step) (crash (cpmdScript false false step) k d)).dir f .main =
      (runOps (cpmdScript false false step) d).dir f .main := by
  set dk := crash (cpmdScript false false step) k d with hdk
  let P : CpmdFile → List Text → List Text → Prop := fun f c v => (f ≠ .xyz ∨ k ≤ 12) → cpmdCut step f v = cpmdCut step f c
  have hidem : ∀ f c v, f ≠ .xyz → P f c v → P f c (cpmdCut step f v) := by
    intro f c v hf hP h
    rw [← hP h]
    cases f
    · exact sedCut_idem _ _
    · exact sedCut_idem _ _
    · exact sedCut_idem _ _
    · exact sedCut_idem _ _
    · exact sedCut_idem _ _
    · exact absurd rfl hf
  have hver := versions d P (fun f c _ => rfl) ((cpmdOps step).take k) (by
    intro o ho
    by_cases hk : k ≤ 12
    · have ho : o ∈ (cpmdOps step).take 12 := by
        rw [show (cpmdOps step).take k = ((cpmdOps step).take 12).take k by rw [List.take_take, Nat.min_eq_left hk]] at ho
        exact List.mem_of_mem_take ho
      simp only [cpmdOps, List.take_succ_cons, List.take_zero, List.mem_cons, List.not_mem_nil, or_false] at ho
      rcases ho with rfl | rfl | rfl | rfl | rfl | rfl | rfl | rfl | rfl | rfl | rfl | rfl
      · exact ⟨by simp, fun c v _ hP => hidem .cell c v (by simp) hP⟩
      · trivial
      · exact ⟨by simp, fun c v _ hP => hidem .energies c v (by simp) hP⟩
      · trivial
      · exact ⟨by simp, fun c v _ hP => hidem .stress c v (by simp) hP⟩
      · trivial
      · exact ⟨by simp, fun c v _ hP => hidem .trajectory c v (by simp) hP⟩
      · trivial
      · exact ⟨by simp, fun c v _ hP => hidem .ftrajectory c v (by simp) hP⟩
      · trivial
      · refine ⟨by simp, fun c v _ hP h => ?_⟩
        rw [← hP h]
        exact congrArg List.dropLast (sedCut_idem _ _)
      · trivial
    · have ho := List.mem_of_mem_take ho
      simp only [cpmdOps, List.mem_cons, List.not_mem_nil, or_false] at ho
      have hx : ∀ c v, P .xyz c v := fun c v h => absurd h (by simp [hk])
      rcases ho with rfl | rfl | rfl | rfl | rfl | rfl | rfl | rfl | rfl | rfl | rfl | rfl | rfl | rfl
      · exact ⟨by simp, fun c v _ hP => hidem .cell c v (by simp) hP⟩
      · trivial
      · exact ⟨by simp, fun c v _ hP => hidem .energies c v (by simp) hP⟩
      · trivial
      · exact ⟨by simp, fun c v _ hP => hidem .stress c v (by simp) hP⟩
      · trivial
      · exact ⟨by simp, fun c v _ hP => hidem .trajectory c v (by simp) hP⟩
      · trivial
      · exact ⟨by simp, fun c v _ hP => hidem .ftrajectory c v (by simp) hP⟩
      · trivial
      · exact ⟨by simp, fun c v _ _ => hx c _⟩
      · trivial
      · exact ⟨by simp, fun c v _ _ => hx c _⟩
      · trivial)
  have hres : ∀ d : Dir CpmdFile, (runOps (cpmdScript false false step) d).dir f .main = (d f .main).map (cpmdCut step f) := by
    intro d
    obtain ⟨h1, h2, h3, h4, -⟩ := C150_cpmd step d
    cases f
    · exact h1
    · exact h4 _ (by simp)
    · exact h2
    · exact h4 _ (by simp)
    · exact h4 _ (by simp)
    · exact h3
  rw [hres, hres]
  cases hv : dk f .main with
  | none =>
    have : d f .main = none := by
      by_contra h
      exact hmiss f h hv
    rw [this]
  | some v =>
    obtain ⟨c, hc, hP⟩ := hver f v hv
    rw [hc]
    exact congrArg some (hP hf)

/-- Every further run of `cut-cpmd.sh` deletes one more line of `TRAJEC.xyz`. -/
theorem C150_cpmd_again_counterexample (step : Nat) (d : Dir CpmdFile) :
    let d1 := (runOps (cpmdScript false false step) d).dir
    (runOps (cpmdScript false false step) d1).dir .xyz .main = (d1 .xyz .main).map List.dropLast := by
  intro d1
  have h : ∀ c, d1 .xyz .main = some c → sedCut (stepRe step) c = c := by
    intro c hc
    have hc := (C150_cpmd step d).2.2.1.symm.trans hc
    obtain ⟨c0, -, rfl⟩ := Option.map_eq_some_iff.1 hc
    exact cut_absent _ _ fun x hx => sedCut_clean _ c0 x (List.mem_of_mem_dropLast hx)
  rw [(C150_cpmd step d1).2.2.1]
  cases hc : d1 .xyz .main with
  | none => rfl
  | some c =>
    simp only [Option.map_some, Option.some.injEq]
    unfold cpmdXyz
    rw [h c hc]

/-! ### the step from the restart file -/

/-- **C150** (`cut-cp2k.sh <dir>`): the step is one more than the value of `STEP_START_VAL`, if exactly one line of the restart file contains this
word, followed by a number. Without a restart file the script stops before it changes anything. -/
theorem C150_lookup (a b : List Text) (ws ws' : Text) (n : Nat) (hws : ∀ c ∈ ws, isPySpace c = true) (hne : ws' ≠ [])
    (hws' : ∀ c ∈ ws', isPySpace c = true)
    (ha : ∀ l ∈ a ++ b, isInfix "STEP_START_VAL".toList l = false) (d : Dir Cp2kFile) :
    cp2kScript false none (some (a ++ (ws ++ "STEP_START_VAL".toList ++ ws' ++ strNat n) :: b)) d = cp2kScript false (some (n + 1)) none d ∧
    (runOps (cp2kScript false none none d) d).dir = d := by
  refine ⟨?_, rfl⟩
  have hi : isInfix "STEP_START_VAL".toList (ws ++ "STEP_START_VAL".toList ++ ws' ++ strNat n) = true :=
    (isInfix_iff_append _ _).2 ⟨ws, ws' ++ strNat n, by simp⟩
  have hfil : ∀ l : List Text, (∀ x ∈ l, isInfix "STEP_START_VAL".toList x = false) → l.filter (isInfix "STEP_START_VAL".toList) = [] := by
    intro l h
    rw [List.filter_eq_nil_iff]
    intro x hx hx'
    rw [h x hx] at hx'
    exact Bool.false_ne_true hx'
  have hsplit : splitWs (ws ++ "STEP_START_VAL".toList ++ ws' ++ strNat n) = ["STEP_START_VAL".toList, strNat n] := by
    unfold splitWs
    rw [List.append_assoc, List.append_assoc, splitWsAux_sep ws hws]
    have := splitWs_join ws' hne hws' ["STEP_START_VAL".toList, strNat n] (by
      intro t ht
      rcases List.mem_cons.1 ht with rfl | ht
      · exact ⟨by decide, by decide⟩
      · rw [List.mem_singleton] at ht
        subst ht
        exact ⟨strNat_ne_nil n, fun c hc => isPySpace_digit c (strNat_digits n c hc)⟩)
    simpa only [splitWs, joinSep, List.append_assoc] using this
  unfold cp2kScript
  have : stepOf none (some (a ++ (ws ++ "STEP_START_VAL".toList ++ ws' ++ strNat n) :: b)) = .num (n + 1) := by
    have h0 : ((a ++ (ws ++ "STEP_START_VAL".toList ++ ws' ++ strNat n) :: b).filter (isInfix "STEP_START_VAL".toList)).map
        (fun l => ((splitWs l)[1]?).getD []) = [strNat n] := by
      rw [List.filter_append, List.filter_cons_of_pos hi, hfil a (fun l hl => ha l (by simp [hl])), hfil b (fun l hl => ha l (by simp [hl]))]
      simp only [List.nil_append, List.map_cons, List.map_nil, hsplit]
      rfl
    simp only [stepOf]
    rw [h0]
    have hd : (strNat n).all Char.isDigit = true := List.all_eq_true.2 (strNat_digits n)
    have hv : Nat.ofDigitChars 10 (strNat n) 0 = n := by simp [strNat]
    cases hc : strNat n with
    | nil => exact absurd hc (strNat_ne_nil n)
    | cons x xs =>
      rw [hc] at hd hv
      simp only [hd, hv, if_true]
  rw [this]
  rfl

/-- If the restart file has no line with `STEP_START_VAL`, the step is the empty text, the script goes on, and of the files with one line per
step everything from the first line with two blanks at its beginning is deleted. -/
theorem C150_no_value_counterexample (restart : List Text) (hr : ∀ l ∈ restart, isInfix "STEP_START_VAL".toList l = false) (d : Dir Cp2kFile)
    (f : Cp2kFile) (hf : f = .cell ∨ f = .ener ∨ f = .stress) (a b : List Text) (t : Text) (ha : ∀ l ∈ a, ∀ t, l ≠ ' ' :: ' ' :: t)
    (hws : ∀ l ∈ a, ∀ c ∈ l, isPySpace c = true → c = ' ') (hc : d f .main = some (a ++ (' ' :: ' ' :: t) :: b)) :
    (runOps (cp2kScript false none (some restart) d) d).dir f .main = some a := by
  have hfil : restart.filter (isInfix "STEP_START_VAL".toList) = [] := by
    rw [List.filter_eq_nil_iff]
    intro x hx hx'
    rw [hr x hx] at hx'
    exact Bool.false_ne_true hx'
  have hstep : stepOf none (some restart) = .empty := by
    simp only [stepOf]
    rw [hfil]
    rfl
  have hs : cp2kScript false none (some restart) d = cp2kOps lineReEmpty xyzReEmpty (natomsText ((d .pos .main).getD [])) := by
    unfold cp2kScript
    rw [hstep]
    rfl
  rw [hs, (cp2k_run lineReEmpty xyzReEmpty _ d).1 f hf, hc]
  simp only [Option.map_some, Option.some.injEq]
  unfold sedCut
  rw [List.takeWhile_append_of_pos, List.takeWhile_cons_of_neg, List.append_nil]
  · simp [lineReEmpty, isPySpace]
  · intro l hl
    rw [Bool.not_eq_true', Bool.eq_false_iff]
    intro h
    unfold lineReEmpty at h
    rw [decide_eq_true_eq] at h
    match l, hl, h with
    | x :: y :: r, hl, h =>
      have hx : isPySpace x = true := by
        by_contra hx
        rw [List.takeWhile_cons_of_neg hx] at h
        simp at h
      have hy : isPySpace y = true := by
        by_contra hy
        rw [List.takeWhile_cons_of_pos hx, List.takeWhile_cons_of_neg hy] at h
        simp at h
      have h1 := hws _ hl x (by simp) hx
      have h2 := hws _ hl y (by simp) hy
      subst h1 h2
      exact ha _ hl r rfl
    | [x], _, h => exact absurd (h.trans (List.takeWhile_sublist _).length_le) (by simp)
    | [], _, h => simp at h

/-- If the position file is missing, the number of atoms is the empty text, and the other `xyz` files keep the line with the number of atoms of
the first deleted step. -/
theorem C150_no_pos_counterexample (na : Nat) (steps : List (Nat × List Text)) (s : Nat) (hasc : Ascending steps)
    (hs : s ∈ steps.map Prod.fst) (hblk : ∀ b ∈ steps, Cp2kBlock na b.1 b.2)
    (hcount : ∀ b ∈ steps, ∃ j, b.2.head? = some (List.replicate (j + 1) ' ' ++ strNat na)) (restart : Option (List Text))
    (d : Dir Cp2kFile) (hpos : d .pos .main = none) (f : Cp2kFile) (hf : f = .frc ∨ f = .vel) (hc : d f .main = some (stepFile [] steps)) :
    ∃ l, CountLine na l ∧
      (runOps (cp2kScript false (some s) restart d) d).dir f .main = some (stepFileBefore s [] steps ++ [l]) := by
  obtain ⟨ls, hls, h⟩ := cut_present (xyzRe s) [] steps s hasc hs (by simp)
    (fun b hb hlt => cp2kBlock_other na b.1 s b.2 (hblk b hb) hlt.ne') (fun ls => ls.take 1) (by
      intro ls hls
      obtain ⟨c, m, rest, e, hc, hm, -⟩ := hblk _ hls
      simp only at e
      subst e
      refine ⟨m, rest, rfl, ?_, (xyzRe_comment s s m hm).2 rfl⟩
      intro l hl
      simp only [List.take_succ_cons, List.take_zero, List.mem_singleton] at hl
      rw [hl]
      exact xyzRe_infix s c (count_noI na c hc))
  obtain ⟨c, m, rest, e, hcl, -⟩ := hblk _ hls
  simp only at e
  subst e
  refine ⟨c, hcl, ?_⟩
  obtain ⟨j, hj⟩ := hcount _ hls
  simp only [List.head?_cons, Option.some.injEq] at hj
  rw [(C150_cp2k s restart d).2.1 f (by rcases hf with rfl | rfl <;> simp), hc, hpos]
  simp only [Option.map_some, Option.some.injEq, Option.getD_none]
  unfold cp2kXyz
  simp only
  rw [h]
  simp only [List.take_succ_cons, List.take_zero, List.getLast?_append, List.getLast?_singleton, Option.some_or]
  rw [if_neg]
  rw [Bool.not_eq_true, Bool.eq_false_iff]
  intro hre
  unfold countRe at hre
  rw [List.any_eq_true] at hre
  obtain ⟨t, ht, hre⟩ := hre
  rw [List.mem_tails] at ht
  simp only [Bool.and_eq_true, natomsText, List.headD_nil, List.filter_nil, List.length_nil, List.drop_zero, decide_eq_true_eq] at hre
  obtain ⟨⟨h1, -⟩, h2⟩ := hre
  -- the last character of the line is a digit
  have hlast : ∃ x, t.getLast? = some x ∧ x.isDigit = true := by
    obtain ⟨u, hu⟩ := ht
    rw [hj] at hu
    have hne : t ≠ [] := by rintro rfl; simp at h1
    refine ⟨(strNat na).getLast (strNat_ne_nil na), ?_, strNat_digits na _ (List.getLast_mem _)⟩
    have := congrArg List.getLast? hu
    rw [List.getLast?_append_of_ne_nil _ hne, List.getLast?_append_of_ne_nil _ (strNat_ne_nil na)] at this
    rw [this, List.getLast?_eq_some_getLast (strNat_ne_nil na)]
  obtain ⟨x, hx, hxd⟩ := hlast
  have hxs : x ≠ ' ' := by rintro rfl; revert hxd; decide
  have hmem : x ∈ t.dropWhile (fun y => decide (y = ' ')) := by
    have hsplit := List.takeWhile_append_dropWhile (p := fun y => decide (y = ' ')) (l := t)
    have hxt : x ∈ t := List.mem_of_getLast? hx
    rw [← hsplit, List.mem_append] at hxt
    rcases hxt with hxt | hxt
    · exact absurd (by simpa using List.all_eq_true.1 List.all_takeWhile x hxt) hxs
    · exact hxt
  exact hxs (by simpa using List.all_eq_true.1 h2 x hmem)

/-- A directory with two steps and one atom. -/
def exDir : Dir Cp2kFile := fun f s =>
  match f, s with
  | .cell, .main => some ["# step".toList, "  1  a".toList, "  2  b".toList]
  | .pos, .main => some ["  1".toList, " i = 1, p".toList, "H 0".toList, "  1".toList, " i = 2, p".toList, "H 1".toList]
  | .vel, .main => some ["  1".toList, " i = 1, p".toList, "H 5".toList, "  1".toList, " i = 2, p".toList, "H 6".toList]
  | _, _ => none

/-- Cut at the first step of the file: after a crash between the position file and the velocity file the second run does not know the number of
atoms any more, and leaves a line in the velocity file. -/
theorem C150_first_step_counterexample :
    let dk := crash (cp2kScript false (some 1) none exDir) 12 exDir
    NoneMissing exDir dk ∧ (runOps (cp2kScript false (some 1) none exDir) exDir).dir .vel .main = some [] ∧
    (runOps (cp2kScript false (some 1) none dk) dk).dir .vel .main = some ["  1".toList] := by
  refine ⟨?_, by decide +kernel, by decide +kernel⟩
  intro f
  cases f <;> decide +kernel

/-- A crash after the position file is cut at the second step, and a second run. -/
example : let dk := crash (cp2kScript false (some 2) none exDir) 12 exDir
    (∀ f, exDir f .main ≠ none → dk f .main ≠ none) ∧ dk .pos .main = some ["  1".toList, " i = 1, p".toList, "H 0".toList] ∧
    dk .vel .main = exDir .vel .main ∧
    (runOps (cp2kScript false (some 2) none dk) dk).dir .vel .main = some ["  1".toList, " i = 1, p".toList, "H 5".toList] := by
  refine ⟨?_, by decide +kernel, by decide +kernel, by decide +kernel⟩
  intro f
  cases f <;> decide +kernel
/-- The hypotheses of `C150_rerun_partial` hold for it. -/
example : (∀ c, exDir .pos .main = some c → cp2kXyz (natomsText c) 2 c ≠ []) ∧
    ∀ f c l, f = .frc ∨ f = .pos ∨ f = .vel → exDir f .main = some c →
      (cp2kXyz (natomsText ((exDir .pos .main).getD [])) 2 c).getLast? = some l → countRe (natomsText ((exDir .pos .main).getD [])) l = false := by
  refine ⟨?_, ?_⟩
  · rintro c h
    cases h
    decide +kernel
  · rintro f c l (rfl | rfl | rfl) hc hl
    · cases hc
    · cases hc
      rw [show cp2kXyz (natomsText ((exDir .pos .main).getD [])) 2 _ = ["  1".toList, " i = 1, p".toList, "H 0".toList] by decide +kernel] at hl
      cases hl
      decide +kernel
    · cases hc
      rw [show cp2kXyz (natomsText ((exDir .pos .main).getD [])) 2 _ = ["  1".toList, " i = 1, p".toList, "H 5".toList] by decide +kernel] at hl
      cases hl
      decide +kernel
/-- A restart file. -/
example : ∀ l ∈ ["&MOTION".toList, "  &MD".toList, "&END".toList], isInfix "STEP_START_VAL".toList l = false := by decide
/-- An uninterrupted run keeps the original. -/
example : (runOps (cp2kScript false (some 2) none exDir) exDir).dir .cell .main = some ["# step".toList, "  1  a".toList] ∧
    (runOps (cp2kScript false (some 2) none exDir) exDir).dir .cell .bak = exDir .cell .main := by
  constructor <;> decide +kernel
/-- A directory of CPMD, killed during the first command for `ENERGIES`. -/
def exCpmd : Dir CpmdFile := fun f s =>
  match f, s with
  | .energies, .main => some ["  1  a".toList, "  2  b".toList]
  | .xyz, .main => some ["1".toList, "  STEP:  1".toList, "H 0".toList, "1".toList, "  STEP:  2".toList, "H 1".toList]
  | _, _ => none
example : crash (cpmdScript false false 2) 3 exCpmd .energies .main = none ∧
    crash (cpmdScript false false 2) 4 exCpmd .energies .main = some ["  1  a".toList] ∧
    (runOps (cpmdScript false false 2) exCpmd).dir .xyz .main = some ["1".toList, "  STEP:  1".toList, "H 0".toList] ∧
    (runOps (cpmdScript false false 2) (runOps (cpmdScript false false 2) exCpmd).dir).dir .xyz .main =
      some ["1".toList, "  STEP:  1".toList] := by
  refine ⟨?_, ?_, ?_, ?_⟩ <;> decide +kernel

end Pwtools.Cut
