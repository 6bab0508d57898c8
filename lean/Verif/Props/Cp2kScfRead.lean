import Verif.Spec.Cp2kScfRead
import Verif.Props.ScfOut
import Verif.Props.PwRead
import Verif.Props.ReadMd
import Verif.Props.CpmdRead
/-!
# C134: `read_cp2k_scf` returns what is in the output
-/
namespace Pwtools.Cp2kScfRead
open Gr Tr Units PwRead Spec
variable {K : Type} {num : Text → Option K} {symbols : List Text} {forces : List (List K)} {etot : K} {stress : List (List K)} {out : List Text}

theorem forces_run (h : IsCp2kScf num symbols forces etot stress out) : Scf.cp2kForces num out = .ok (some (symbols.length, symbols, forces)) := by
  obtain ⟨x, pre, title, g, gap, head, b1, rows, b2, sum, post, e, h1, h2, h3, h4, h5, h6, h7, h8, h9, h10, h11⟩ := h.forces
  rw [e, Scf.C110_forces num x pre title g gap head b1 rows b2 sum post symbols forces h1 h2 h3 h4 h5 h6 h7 h8 (by
    intro e0
    rw [e0] at h9
    exact h.atoms0 (List.eq_nil_of_length_eq_zero h9.symm)) h9 h10 h11, h9]

theorem etot_run (h : IsCp2kScf num symbols forces etot stress out) : Scf.cp2kEtot num out = .ok (some etot) := by
  obtain ⟨A, p, w, n, B, e, h1, h2, h3, h4, h5⟩ := h.etot
  rw [e]
  exact (Scf.C110_etot_partial num A B p w etot (fun l hl => h1 l (by simp [hl])) (fun l hl => h1 l (by simp [hl])) h2 h3 n h4 h5).1

theorem stress_run (h : IsCp2kScf num symbols forces etot stress out) : Scf.cp2kStress num out = .ok stress := by
  obtain ⟨A, title, other, head, rx, ry, rz, vx, vy, vz, B, e, rfl, h1, h2, h3, h4, h5, h6, h7, h8, h9, h10, h11, h12⟩ := h.stress
  rw [e]
  exact Scf.C110_stress_partial num A B title other head rx ry rz vx vy vz (fun l hl => h1 l (by simp [hl])) (fun l hl => h1 l (by simp [hl]))
    h2 h3 h4 h5 h6 h7 h8 h9 h10 h11 h12

section
variable [Field K]

/-- The factor for the stress in a dict of the CP2K parsers. -/
theorem stress_dict (c : Consts K) (hist : List (Kind × UDict K)) :
    ((∀ x ∈ hist, ¬ Cp2kSteps x.1) → after c hist .cp2k .stress = none) ∧ ((∃ x ∈ hist, Cp2kSteps x.1) → after c hist .cp2k .stress = some (1 / 10000)) := by
  induction hist using List.reverseRecOn with
  | nil => exact ⟨fun _ => rfl, fun ⟨x, hx, _⟩ => by simp at hx⟩
  | append_singleton h x ih =>
    have e : after c (h ++ [x]) = (create c (after c h) x.1 x.2).1 := by simp [after, List.foldl_append]
    obtain ⟨k, u⟩ := x
    rw [e, create_fst]
    constructor
    · intro hn
      have h1 := ih.1 fun y hy => hn y (by simp [hy])
      have h2 : ¬ Cp2kSteps k := hn (k, u) (by simp)
      rw [h1]
      cases k <;> simp [dictOf, initUpdate] <;> exact h2 (by simp [Cp2kSteps])
    · rintro ⟨y, hy, hs⟩
      rw [List.mem_append, List.mem_singleton] at hy
      rcases hy with hy | rfl
      · rw [ih.2 ⟨y, hy, hs⟩]
        cases k <;> simp [dictOf, initUpdate]
      · rcases hs with rfl | rfl | rfl <;> simp [dictOf, initUpdate]

/-- The factor of the stress: 1 at first, `1e-4` as soon as a parser for a run with several steps was created. -/
theorem stress_factor (c : Consts K) (hist : List (Kind × UDict K)) (user : UDict K) :
    ((∀ x ∈ hist, ¬ Cp2kSteps x.1) → (create c (after c hist) .cp2kScf user).2 .stress = (user .stress).getD 1) ∧
    ((∃ x ∈ hist, Cp2kSteps x.1) → (create c (after c hist) .cp2kScf user).2 .stress = (user .stress).getD (1 / 10000)) := by
  constructor
  · intro h
    have := (stress_dict c hist).1 h
    cases hu : user .stress <;> simp [create, dictOf, dictUpdate, initUpdate, this, hu]
  · intro h
    have := (stress_dict c hist).2 h
    cases hu : user .stress <;> simp [create, dictOf, dictUpdate, initUpdate, this, hu]

variable [DecidableEq K]

/-- What is returned, with the stress factor of the parser. -/
theorem struct_eq (h : IsCp2kScf num symbols forces etot stress out) (c : Consts K) (hist : List (Kind × UDict K)) (user : UDict K) (g : Getters K (Val K)) :
    ∃ st, readCp2kScf c hist user g num out = .ok st ∧
      st.attr (.other "symbols") = some (.words symbols) ∧ st.attr (.other "natoms") = some (.nat symbols.length) ∧
      st.attr .etot = some (.num (etot * (user .energy).getD (c.Ha / c.eV))) ∧
      st.attr .forces = some (.mat (forces.map fun r => r.map (· * (user .forces).getD (c.Ha / c.eV * c.Ang / c.Bohr)))) ∧
      st.attr .stress = some (.mat (stress.map fun r => r.map (· * (create c (after c hist) .cp2kScf user).2 .stress))) := by
  obtain ⟨attrs, hp, h1, h2, h3, h4, h5⟩ : ∃ attrs, parse num out = .ok attrs ∧ attrs (.other "symbols") = some (.words symbols) ∧
      attrs (.other "natoms") = some (.nat symbols.length) ∧ attrs .etot = some (.num etot) ∧ attrs .forces = some (.mat forces) ∧
      attrs .stress = some (.mat stress) := by
    unfold parse
    simp only [forces_run h, etot_run h, stress_run h, Except.bind]
    exact ⟨_, rfl, rfl, rfl, rfl, rfl, rfl⟩
  obtain ⟨st, p, hg, hst⟩ := getCont_attr attrs (create c (after c hist) .cp2kScf user).2 g
  have u : ∀ q, q = .energy ∨ q = .forces → (create c (after c hist) .cp2kScf user).2 q = (user q).getD (factor c .cp2kScf q) := by
    intro q hq
    cases hu : user q with
    | some x => rw [C86_user_units c hist .cp2kScf user q x hu]; rfl
    | none =>
      rw [Option.getD_none, ← C86_units_partial c hist .cp2kScf q (by rcases hq with rfl | rfl <;> rfl) (by rcases hq with rfl | rfl <;> simp)]
      simp [create, hu]
  refine ⟨st, ?_, hst _ _ h1, hst _ _ h2, ?_, ?_, ?_⟩
  · unfold readCp2kScf
    rw [hp]
    simp only [hg]
  · rw [hst _ _ h3]
    simp only [unitFactor, Val.scale, u .energy (by simp), factor]
  · rw [hst _ _ h4]
    simp only [unitFactor, Val.scale, u .forces (by simp), factor]
  · rw [hst _ _ h5]
    simp only [unitFactor, Val.scale]

/-- **C134** `read_cp2k_scf`: the atoms, forces, energy and stress tensor of the output, in the order of the file, times the factors of the user, or else
in eV, eV/Angstrom and GPa. Partial: no parser for a CP2K run with several steps was created before in the same process (the other parsers do not matter),
see `C134_history_counterexample`; the output has a stress tensor and one energy, see `C134_no_stress_counterexample`, `C134_second_energy_counterexample`. -/
theorem C134_struct_partial (h : IsCp2kScf num symbols forces etot stress out) (c : Consts K) (hist : List (Kind × UDict K))
    (hh : ∀ x ∈ hist, ¬ Cp2kSteps x.1) (user : UDict K) (g : Getters K (Val K)) :
    ∃ st, readCp2kScf c hist user g num out = .ok st ∧
      st.attr (.other "symbols") = some (.words symbols) ∧ st.attr (.other "natoms") = some (.nat symbols.length) ∧
      st.attr .etot = some (.num (etot * (user .energy).getD (c.Ha / c.eV))) ∧
      st.attr .forces = some (.mat (forces.map fun r => r.map (· * (user .forces).getD (c.Ha / c.eV * c.Ang / c.Bohr)))) ∧
      st.attr .stress = some (.mat (stress.map fun r => r.map (· * (user .stress).getD 1))) := by
  obtain ⟨st, h1, h2, h3, h4, h5, h6⟩ := struct_eq h c hist user g
  exact ⟨st, h1, h2, h3, h4, h5, by rw [h6, (stress_factor c hist user).1 hh]⟩

/-- **C134**, disagreement: after a parser for a CP2K run with several steps was created, the same call on the same file returns a stress tensor which is
`1e-4` of the one printed; energy and forces do not change. -/
theorem C134_history_counterexample (h : IsCp2kScf num symbols forces etot stress out) (c : Consts K) (hist : List (Kind × UDict K))
    (hh : ∃ x ∈ hist, Cp2kSteps x.1) (g : Getters K (Val K)) :
    ∃ st, readCp2kScf c hist (fun _ => none) g num out = .ok st ∧
      st.attr .stress = some (.mat (stress.map fun r => r.map (· * (1 / 10000)))) ∧ st.attr .etot = some (.num (etot * (c.Ha / c.eV))) ∧
      st.attr .forces = some (.mat (forces.map fun r => r.map (· * (c.Ha / c.eV * c.Ang / c.Bohr)))) := by
  obtain ⟨st, h1, -, -, h4, h5, h6⟩ := struct_eq h c hist (fun _ => none) g
  exact ⟨st, h1, by rw [h6, (stress_factor c hist _).2 hh]; rfl, h4, h5⟩

/-- **C134** A factor for the stress given by the user is used in every history. -/
theorem C134_user_stress (h : IsCp2kScf num symbols forces etot stress out) (c : Consts K) (hist : List (Kind × UDict K)) (user : UDict K) (x : K)
    (hu : user .stress = some x) (g : Getters K (Val K)) :
    ∃ st, readCp2kScf c hist user g num out = .ok st ∧ st.attr .stress = some (.mat (stress.map fun r => r.map (· * x))) := by
  obtain ⟨st, h1, -, -, -, -, h6⟩ := struct_eq h c hist user g
  exact ⟨st, h1, by rw [h6, C86_user_units c hist .cp2kScf user .stress x hu]⟩

/-- **C134**, disagreement: an output without a stress tensor in GPa (a run which did not ask for it) cannot be read at all. -/
theorem C134_no_stress_counterexample (hs : ∀ l ∈ out, ¬ StressTitle l) (t : Option (Nat × List Text × List (List K)))
    (hf : Scf.cp2kForces num out = .ok t) (e : Option K) (he : Scf.cp2kEtot num out = .ok e)
    (c : Consts K) (hist : List (Kind × UDict K)) (user : UDict K) (g : Getters K (Val K)) :
    readCp2kScf c hist user g num out = .error (.inl .index) := by
  unfold readCp2kScf parse
  simp only [hf, he, Scf.C110_no_stress num out hs, Except.bind]

/-- **C134**, disagreement: the output of a second calculation appended to the file makes it unreadable. -/
theorem C134_second_energy_counterexample (h : IsCp2kScf num symbols forces etot stress out) (c : Consts K) (hist : List (Kind × UDict K))
    (user : UDict K) (g : Getters K (Val K)) : readCp2kScf c hist user g num (out ++ out) = .error (.inl .value) := by
  have hf : Scf.cp2kForces num (out ++ out) = .ok (some (symbols.length, symbols, forces)) := by
    obtain ⟨x, pre, title, y, gap, head, b1, rows, b2, sum, post, e, h1, h2, h3, h4, h5, h6, h7, h8, h9, h10, h11⟩ := h.forces
    have e2 : out ++ out = x :: pre ++ title :: (y :: gap ++ head :: (b1 ++ rows ++ b2 ++ sum :: (post ++ out))) := by
      have : ∀ Q : List Text, out ++ Q = x :: pre ++ title :: (y :: gap ++ head :: (b1 ++ rows ++ b2 ++ sum :: (post ++ Q))) := by
        intro Q
        rw [e]
        simp
      exact this out
    rw [e2, Scf.C110_forces num x pre title y gap head b1 rows b2 sum (post ++ out) symbols forces h1 h2 h3 h4 h5 h6 h7 h8 (by
      intro e0
      rw [e0] at h9
      exact h.atoms0 (List.eq_nil_of_length_eq_zero h9.symm)) h9 h10 h11, h9]
  have he : Scf.cp2kEtot num (out ++ out) = .error .value := by
    obtain ⟨A, p, w, n, B, e, h1, h2, h3, h4, h5⟩ := h.etot
    have e2 : out ++ out = A ++ (p ++ ':' :: w) :: ((B ++ A) ++ (p ++ ':' :: w) :: B) := by
      rw [e]
      simp
    rw [e2]
    exact Scf.C110_etot_twice num A (B ++ A) B p w p w h2 h2 h3 h3 (by rw [h4]; simp) (by rw [h4]; simp)
  unfold readCp2kScf parse
  simp only [hf, he, Except.bind]

end

/-! ## a concrete output -/

def exOut : List Text := [" CP2K| version", " ENERGY| Total FORCE_EVAL ( QS ) energy (a.u.):   -12", " ATOMIC FORCES in [a.u.]", "", " # Atom   Kind   Element  X  Y  Z",
  "   1   1   Si   1   2   3", "   2   1   C   4   5   6", " SUM OF ATOMIC FORCES  0 0 0", " STRESS| STRESS TENSOR [GPa]", " STRESS|", "     X    Y    Z", "  X  1 2 3", "  Y  4 5 6",
  "  Z  7 8 9", " END"].map String.toList

theorem no_title (ls : List Text) (h : ∀ l ∈ ls, hasSeq ["STRESS TENSOR".toList, "GPa".toList] l = false) : ∀ l ∈ ls, ¬ StressTitle l := by
  intro l hl hc
  rw [← Scf.title_iff, h l hl] at hc
  cases hc

theorem no_axis (l : Text) (h : Scf.isXYZ l = false) : NoAxis l := by
  intro n c rest e
  by_contra hc
  have hx : c = 'X' ∨ c = 'Y' ∨ c = 'Z' := by tauto
  have : Scf.isXYZ l = true := by
    unfold Scf.isXYZ
    rw [e, Scf.drop_blanks (n + 1) (c :: rest) (by rcases hx with rfl | rfl | rfl <;> simp)]
    rcases hx with rfl | rfl | rfl <;> simp [List.replicate_succ]
  rw [h] at this
  cases this

theorem exOut_is : IsCp2kScf Lmp.exNum ["Si".toList, "C".toList] [[1, 2, 3], [4, 5, 6]] (-12) [[1, 2, 3], [4, 5, 6], [7, 8, 9]] exOut where
  atoms0 := by decide
  forces := by
    refine ⟨_, [" ENERGY| Total FORCE_EVAL ( QS ) energy (a.u.):   -12".toList], " ATOMIC FORCES in [a.u.]".toList, [], [], " # Atom   Kind   Element  X  Y  Z".toList, [],
      ["   1   1   Si   1   2   3".toList, "   2   1   C   4   5   6".toList], [], " SUM OF ATOMIC FORCES  0 0 0".toList, exOut.drop 8, rfl,
      CpmdRead.no_text _ _ (by decide +kernel), ⟨" ".toList, " in [a.u.]".toList, by decide +kernel⟩, by simp, ⟨" # ".toList, 2, 2, "  X  Y  Z".toList, by decide +kernel⟩,
      CpmdRead.no_text _ _ (by decide +kernel), ⟨" ".toList, "  0 0 0".toList, by decide +kernel⟩, by simp, by simp, rfl, rfl, ?_⟩
    intro i l s r h1 h2 h3
    match i with
    | 0 =>
      simp only [List.getElem?_cons_zero, Option.some.injEq] at h1 h2 h3
      rw [← h1, ← h2, ← h3]
      exact ⟨by unfold AtomLine; decide +kernel, rfl⟩
    | 1 =>
      simp only [List.getElem?_cons_zero, List.getElem?_cons_succ, Option.some.injEq] at h1 h2 h3
      rw [← h1, ← h2, ← h3]
      exact ⟨by unfold AtomLine; decide +kernel, rfl⟩
    | i + 2 => simp at h1
  etot := by
    refine ⟨[" CP2K| version".toList], " ENERGY| Total FORCE_EVAL ( QS ) energy (a.u.)".toList, "   -12".toList, "-12".toList, exOut.drop 2, by decide +kernel, ?_,
      (Scf.inOrder_iff _ _).1 (by decide +kernel), by decide +kernel, by decide +kernel, by decide +kernel⟩
    intro l hl hc
    rw [Cp2kEnergyLike, ← Scf.inOrder_iff, (by decide +kernel : ∀ l ∈ [" CP2K| version".toList] ++ exOut.drop 2,
      hasSeq ["ENERGY".toList, "Total".toList, "energy".toList, ":".toList] l = false) l hl] at hc
    cases hc
  stress := by
    refine ⟨exOut.take 8, _, _, _, _, _, _, _, _, _, [" END".toList], rfl, rfl, no_title _ (by decide +kernel), ⟨(Scf.title_iff _).1 (by decide +kernel), no_axis _ (by decide +kernel)⟩,
      ⟨no_title _ (by decide +kernel) _ (List.mem_singleton.2 rfl), no_axis _ (by decide +kernel)⟩,
      ⟨⟨"     ".toList, 3, 3, [], by decide +kernel⟩, no_title _ (by decide +kernel) _ (List.mem_singleton.2 rfl)⟩,
      ⟨1, "  1 2 3".toList, by decide +kernel⟩, ⟨1, "  4 5 6".toList, by decide +kernel⟩, ⟨1, "  7 8 9".toList, by decide +kernel⟩, no_title _ (by decide +kernel),
      ⟨"X".toList, by unfold AtomLine; decide +kernel⟩, ⟨"Y".toList, by unfold AtomLine; decide +kernel⟩, ⟨"Z".toList, by unfold AtomLine; decide +kernel⟩, rfl, rfl, rfl⟩

/-- Non-vacuity of C134 and of its counterexample: the same file before and after a relaxation was read. -/
example (g : Getters Rat (Val Rat)) (c : Consts Rat) :
    (∃ st, readCp2kScf c [(.cpmdMd, fun _ => none)] (fun _ => none) g Lmp.exNum exOut = .ok st ∧
      st.attr .stress = some (.mat [[1, 2, 3], [4, 5, 6], [7, 8, 9]])) ∧
    ∃ st, readCp2kScf c [(.cp2kRelax, fun _ => none)] (fun _ => none) g Lmp.exNum exOut = .ok st ∧
      st.attr .stress = some (.mat [[1 / 10000, 2 / 10000, 3 / 10000], [4 / 10000, 5 / 10000, 6 / 10000], [7 / 10000, 8 / 10000, 9 / 10000]]) := by
  constructor
  · obtain ⟨st, h0, -, -, -, -, h1⟩ := C134_struct_partial exOut_is c [(.cpmdMd, fun _ => none)] (by simp [Cp2kSteps]) (fun _ => none) g
    refine ⟨st, h0, h1.trans ?_⟩
    simp
  · obtain ⟨st, h0, h1, -⟩ := C134_history_counterexample exOut_is c [(.cp2kRelax, fun _ => none)] (by simp [Cp2kSteps]) g
    refine ⟨st, h0, h1.trans ?_⟩
    norm_num

end Pwtools.Cp2kScfRead
