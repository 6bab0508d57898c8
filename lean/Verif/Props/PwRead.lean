import Verif.Model.PwRead
import Verif.Spec.PwRead
import Verif.Props.PwHead
import Verif.Props.PwOut
import Verif.Props.ParserUnits
import Verif.Props.Traj3
/-!
# C122: `read_pw_scf` returns the structure in the file, in eV, Angstrom and GPa
-/
namespace Pwtools.PwRead
open Gr Scf PwHead Tr Units Spec
variable {K : Type}

instance [Field K] : MulAction K (Val K) where
  one_smul v := by
    show Val.scale 1 v = v
    cases v <;> simp [Val.scale]
  mul_smul a b v := by
    show Val.scale (a * b) v = Val.scale a (Val.scale b v)
    cases v <;> simp [Val.scale, mul_comm a b, mul_assoc]

theorem slice0_eq {A : Type} (l : List A) : slice0 (.ok (if l = [] then none else some l)) = .ok l.head? := by
  cases l <;> rfl

section
variable [Field K] {num : Text → Option K} {alat : K} {cell : List (List K)} {atoms : List (Text × List K)} {blocks : List (Block K)} {file : List Text}

/-- The getters on such a file. -/
theorem parse_eq (h : IsPwScf num alat cell atoms blocks file) (m : Nat) (hm : 0 < m)
    (hf : ∀ f ∈ blocks.filterMap Block.forces?, f.length = m * atoms.length) (useAlat : Bool) :
    ∃ attrs, parse num useAlat file = .ok attrs ∧
      attrs .coords = some (.mat (atoms.map fun x => x.2.map (· * if useAlat then alat else 1))) ∧
      attrs .cell = some (.mat (cell.map fun r => r.map (· * if useAlat then alat else 1))) ∧
      attrs .etot = (blocks.filterMap Block.energy?).head?.map .num ∧
      attrs .forces = (blocks.filterMap Block.forces?).head?.map (fun f => .mat (f.take atoms.length)) ∧
      attrs .stress = (blocks.filterMap Block.stress?).head?.map .mat ∧
      attrs (.other "symbols") = some (.words (atoms.map (·.1))) ∧
      attrs (.other "natoms") = some (.nat atoms.length) := by
  have hna : 0 < atoms.length := List.length_pos_of_ne_nil h.atoms0
  have hn := PwOut.natoms_file h.out
  have ha : PwHead.alat num useAlat file = .ok (some (if useAlat then alat else 1)) := by
    cases useAlat
    · rfl
    · obtain ⟨A, l, B, rfl, hA, hl⟩ := h.alatLine
      exact (C119_alat num A B l alat hA hl).1
  have hcell : getCell num useAlat file = .ok (some (cell.map fun r => r.map (· * if useAlat then alat else 1))) := by
    obtain ⟨A, hd, R, B, rfl, hA, hh, hr⟩ := h.cellRows
    exact C119_cell num useAlat A R B hd cell _ hA hh (by rw [hr.length_eq, h.cell3]) hr ha
  have hco : getCoords num useAlat file = .ok (some (atoms.map fun x => x.2.map (· * if useAlat then alat else 1))) ∧
      getSymbols num file = .ok (atoms.map (·.1)) := by
    obtain ⟨A, hd, R, B, rfl, hA, hh, hr⟩ := h.atomRows
    exact C119_coords num useAlat A R B hd atoms _ hA hh h.atoms0 hr h.atoms3 hn ha
  have hpt : ∃ x, nkpoints file = .ok x := by
    rcases h.points with hp | ⟨n, A, l, B, rfl, hA, hl⟩
    · refine ⟨none, ?_⟩
      unfold nkpoints
      rw [find_none _ file fun l hl => infix_false (hp l hl)]
    · exact ⟨_, (C119_nkpoints A B l n hA hl).1⟩
  have hit : ∃ x, nstepScf file = .ok x := by
    obtain ⟨ns, hns⟩ := h.iters
    by_cases h0 : ns = []
    · refine ⟨none, ?_⟩
      have hf := interleaved_filter (isInfix "convergence has been achieved in".toList) hns (fun l x hx => (isInfix_iff_append _ _).2 hx.1)
        fun l hl => infix_false hl
      rw [h0, List.forall₂_nil_right_iff] at hf
      unfold nstepScf nstepScfRaw
      rw [hf]
      rfl
    · exact ⟨_, (C120_nstep_scf file ns h0 hns).2⟩
  obtain ⟨x, hx⟩ := hpt
  obtain ⟨y, hy⟩ := hit
  have he : getEtot num file = .ok (blocks.filterMap Block.energy?).head? := by
    unfold getEtot
    rw [PwOut.C87_energies h.out, slice0_eq]
  have hs : getStress num file = .ok (blocks.filterMap Block.stress?).head? := by
    unfold getStress
    rw [PwOut.C87_stress h.out, slice0_eq]
  have hfo : getForces num file = .ok ((blocks.filterMap Block.forces?).head?.map (·.take atoms.length)) := by
    unfold getForces
    rw [hn, PwOut.C87_forces h.out m hna hm hf, slice0_eq]
  unfold parse
  rw [hco.1, hco.2, hs, he, hfo, hy, hcell, hn, hx]
  refine ⟨_, rfl, rfl, rfl, rfl, Option.map_map .., rfl, ?_, ?_⟩
  · simp
  · simp

/-- As `Tr.scale_all`, without addition. -/
theorem scale_each [DecidableEq K] (units : Qty → K) (attr : UAttr → Option (Val K)) (a : UAttr) :
    scaleUnits units unitsMap attr a = (attr a).map (unitFactor units a • ·) := by
  have hone : ∀ (q : Qty) (o : Option (Val K)), units q = 1 → o = o.map (units q • ·) := by
    intro q o h
    cases o with
    | none => rfl
    | some v => simp [h]
  simp only [unitsMap, scaleUnits]
  cases a <;> simp only [unitFactor]
  all_goals
    by_cases h1 : units .length = 1 <;> by_cases h2 : units .energy = 1 <;>
    by_cases h3 : units .stress = 1 <;> by_cases h4 : units .forces = 1 <;>
    by_cases h5 : units .temperature = 1 <;> by_cases h6 : units .velocity = 1 <;>
    by_cases h7 : units .time = 1 <;>
    simp [h1, h2, h3, h4, h5, h6, h7, scaleAttrs]

/-- What the container holds in the end. -/
theorem getCont_attr [DecidableEq K] (attrs : UAttr → Option (Val K)) (units : Qty → K) (g : Getters K (Val K)) :
    ∃ st p, (Parser.init attrs none units).getCont g = .ok (st, p) ∧
      ∀ a v, attrs a = some v → st.attr a = some (v.scale (unitFactor units a)) := by
  refine ⟨_, _, rfl, fun a v hv => ?_⟩
  show (scaleUnits units unitsMap attrs a).or _ = _
  have e : scaleUnits units unitsMap attrs a = (attrs a).map (Val.scale (unitFactor units a)) := scale_each units attrs a
  rw [e, hv]
  rfl

/-- The unit factors of the parser. -/
theorem pw_units (c : Consts K) (hist : List (Kind × UDict K)) (user : UDict K) (q : Qty)
    (hq : q = .length ∨ q = .energy ∨ q = .forces ∨ q = .stress) :
    (create c (after c hist) .pwScf user).2 q = (user q).getD (factor c .pwScf q) := by
  cases hu : user q with
  | some x => rw [C86_user_units c hist .pwScf user q x hu]; rfl
  | none =>
    rw [Option.getD_none, ← C86_units_partial c hist .pwScf q (by simpa [returns] using hq) (by simp)]
    simp [create, hu]

/-- **C122** `read_pw_scf` of the output of a calculation, whatever parsers have been used before: the atoms with their symbols, positions
and the cell multiplied by `alat` (1 with `use_alat=False`) and the unit of length; the first total energy, the first `natoms` lines of the first block of forces and the first
stress tensor, multiplied by their units. The units are those given by the user, or else Bohr to Angstrom, Ry to eV, Ry/Bohr to eV/Angstrom, kbar to GPa. -/
theorem C122_struct [DecidableEq K] (h : IsPwScf num alat cell atoms blocks file) (m : Nat) (hm : 0 < m)
    (hf : ∀ f ∈ blocks.filterMap Block.forces?, f.length = m * atoms.length) (useAlat : Bool)
    (c : Consts K) (hist : List (Kind × UDict K)) (user : UDict K) (g : Getters K (Val K)) :
    ∃ st, readPwScf c hist user g num useAlat file = .ok st ∧
      st.attr (.other "symbols") = some (.words (atoms.map (·.1))) ∧ st.attr (.other "natoms") = some (.nat atoms.length) ∧
      st.attr .coords = some (.mat (atoms.map fun x => x.2.map fun v => v * (if useAlat then alat else 1) * (user .length).getD (c.Bohr / c.Ang))) ∧
      st.attr .cell = some (.mat (cell.map fun r => r.map fun v => v * (if useAlat then alat else 1) * (user .length).getD (c.Bohr / c.Ang))) ∧
      (∀ e, (blocks.filterMap Block.energy?).head? = some e → st.attr .etot = some (.num (e * (user .energy).getD (c.Ry / c.eV)))) ∧
      (∀ f, (blocks.filterMap Block.forces?).head? = some f → st.attr .forces =
        some (.mat ((f.take atoms.length).map fun r => r.map (· * (user .forces).getD (c.Ry / c.eV * c.Ang / c.Bohr))))) ∧
      ∀ s, (blocks.filterMap Block.stress?).head? = some s → st.attr .stress =
        some (.mat (s.map fun r => r.map (· * (user .stress).getD (1 / 10)))) := by
  obtain ⟨attrs, hp, h1, h2, h3, h4, h5, h6, h7⟩ := parse_eq h m hm hf useAlat
  obtain ⟨st, p, hg, hst⟩ := getCont_attr attrs (create c (after c hist) .pwScf user).2 g
  have u1 := pw_units c hist user .length (by simp)
  have u2 := pw_units c hist user .energy (by simp)
  have u3 := pw_units c hist user .forces (by simp)
  have u4 := pw_units c hist user .stress (by simp)
  simp only [factor] at u1 u2 u3 u4
  refine ⟨st, ?_, hst _ _ h6, hst _ _ h7, ?_, ?_, fun e he => ?_, fun f hff => ?_, fun s hs => ?_⟩
  · unfold readPwScf
    rw [hp]
    simp only [hg]
  · rw [hst _ _ h1]
    simp only [unitFactor, Val.scale, u1, List.map_map]
    simp only [Function.comp_def, List.map_map]
  · rw [hst _ _ h2]
    simp only [unitFactor, Val.scale, u1, List.map_map]
    simp only [Function.comp_def, List.map_map]
  · rw [hst _ _ (h3.trans (by rw [he]; rfl))]
    simp only [unitFactor, Val.scale, u2]
  · rw [hst _ _ (h4.trans (by rw [hff]; rfl))]
    simp only [unitFactor, Val.scale, u3]
  · rw [hst _ _ (h5.trans (by rw [hs]; rfl))]
    simp only [unitFactor, Val.scale, u4]

/-- **C122** The advice in the docstring: `use_alat=False` with the lattice parameter in the unit of length gives the same positions and the
same cell as `use_alat=True`. -/
theorem C122_use_alat [DecidableEq K] (h : IsPwScf num alat cell atoms blocks file) (m : Nat) (hm : 0 < m)
    (hf : ∀ f ∈ blocks.filterMap Block.forces?, f.length = m * atoms.length)
    (c : Consts K) (hist hist' : List (Kind × UDict K)) (user : UDict K) (hu : user .length = some (alat * c.Bohr / c.Ang)) (g : Getters K (Val K)) :
    ∃ st st', readPwScf c hist (fun _ => none) g num true file = .ok st ∧ readPwScf c hist' user g num false file = .ok st' ∧
      st.attr .coords = st'.attr .coords ∧ st.attr .cell = st'.attr .cell := by
  obtain ⟨st, h1, -, -, h2, h3, -⟩ := C122_struct h m hm hf true c hist (fun _ => none) g
  obtain ⟨st', h1', -, -, h2', h3', -⟩ := C122_struct h m hm hf false c hist' user g
  refine ⟨st, st', h1, h1', ?_, ?_⟩
  · rw [h2, h2']
    simp [hu, mul_assoc, mul_div_assoc]
  · rw [h3, h3']
    simp [hu, mul_assoc, mul_div_assoc]

end

/-! ## a concrete file -/

/-- What stands between the number of atoms and the results. -/
def exHead : List Text := ["     lattice parameter (alat)  =       5  a.u.", "     crystal axes: (cart. coord. in units of alat)", "  a(1) = ( 1  0  0 )",
  "  a(2) = ( 0  1  0 )", "  a(3) = ( 0  0  2 )", "   site n.     atom                  positions (alat units)", "    1           Al  tau(   1) = (   0   1   2  )",
  "    number of k points=    21", "     convergence has been achieved in   8 iterations"].map String.toList

def exBlocks : List (Block ℚ) := exHead.map Block.other ++ PwOut.exScf (-14) "-14".toList "2".toList 2

def exFile : List Text := ["     Program PWSCF".toList] ++ "     number of atoms/cell      =            1".toList :: exBlocks.flatMap Block.lines

theorem exFile_eq : exFile = (["     Program PWSCF", "     number of atoms/cell      =            1"].map String.toList) ++ exHead ++
    (["     End of self-consistent calculation", "!    total energy              =    -14 Ry", "     Forces acting on atoms (Ry/au):", "",
      "     atom   1 type  1   force =     2   0    0", "          total   stress  (Ry/bohr**3)                   (kbar)     P=  -89",
      "0 0 0   1  0  0", "0 0 0   0  1  0", "0 0 0   0  0  1"].map String.toList) := by
  decide +kernel

def exIsPwOut : IsPwOut PwOut.exNum 1 exBlocks exFile where
  pre := ["     Program PWSCF".toList]
  natLine := "     number of atoms/cell      =            1".toList
  eq := rfl
  quiet := PwOut.exIsPwOut.quiet
  noNat := PwOut.exIsPwOut.noNat
  quietNat := PwOut.exIsPwOut.quietNat
  isNat := PwOut.exIsPwOut.isNat
  wf := by
    intro b hb
    rw [exBlocks, List.mem_append] at hb
    rcases hb with hb | hb
    · obtain ⟨l, hl, rfl⟩ := List.mem_map.1 hb
      have : ∀ l ∈ exHead, ∀ k, PwOut.test k l = false := by
        intro l hl
        have h6 : ∀ k ∈ [Key.pos, .cell, .stress, .energy, .forceHead, .force], ∀ l ∈ exHead, PwOut.test k l = false := by decide +kernel
        intro k
        exact h6 k (by cases k <;> decide) l hl
      exact PwOut.quiet_of _ (this l hl)
    · exact PwOut.exScf_wf _ _ _ _ (Or.inl rfl) b hb

/-- Lines without a key, and then the line. -/
theorem exFirst {A : Type} (Like : Text → Prop) (test : Text → Bool) (ht : ∀ l, test l = true ↔ Like l) (Says : Text → A → Prop) (n : Nat) (l : Text) (x : A)
    (h0 : (exFile.take n).all (fun l => !test l) = true) (h1 : exFile.drop n = l :: exFile.drop (n + 1)) (h2 : Says l x) : FirstLine Like Says exFile x := by
  refine ⟨exFile.take n, l, exFile.drop (n + 1), ?_, fun a ha hl => ?_, h2⟩
  · rw [← h1, List.take_append_drop]
  · have := List.all_eq_true.1 h0 a ha
    rw [(ht a).2 hl] at this
    cases this

theorem exNo {Like : Text → Prop} (test : Text → Bool) (ht : ∀ l, test l = true ↔ Like l) {ls : List Text} (h0 : ls.all (fun l => !test l) = true) :
    ∀ l ∈ ls, ¬ Like l := by
  intro a ha hl
  have := List.all_eq_true.1 h0 a ha
  rw [(ht a).2 hl] at this
  cases this

/-- Lines without the key in front. -/
theorem exInter (ls : List Text) (h0 : ls.all (fun l => !isInfix "convergence has been achieved in".toList l) = true) (ns : List Nat) (r : List Text)
    (h : Interleaved (fun l n => IterLike l ∧ (splitWs l)[5]? = some (strNat n)) (fun l => ¬ IterLike l) r ns) :
    Interleaved (fun l n => IterLike l ∧ (splitWs l)[5]? = some (strNat n)) (fun l => ¬ IterLike l) (ls ++ r) ns := by
  have hq := exNo (Like := IterLike) _ (fun l => isInfix_iff_append _ l) h0
  clear h0
  induction ls with
  | nil => exact h
  | cons l ls ih => exact .other (hq l (by simp)) (ih fun a ha => hq a (by simp [ha]))

/-- Non-vacuity: this file meets the hypotheses. -/
def exIsPwScf : IsPwScf PwOut.exNum 5 [[1, 0, 0], [0, 1, 0], [0, 0, 2]] [("Al".toList, [0, 1, 2])] exBlocks exFile where
  out := exIsPwOut
  alatLine := exFirst _ _ (fun l => isInfix_iff_append _ l) _ 2 "     lattice parameter (alat)  =       5  a.u.".toList _ (by decide +kernel) (by decide +kernel)
    ⟨⟨"     ".toList, " (alat)  =       5  a.u.".toList, by decide +kernel⟩, "     lattice parameter (alat)  ".toList, "       ".toList, "5".toList, "  ".toList, [],
      by unfold BlankText WordText; decide +kernel⟩
  cellRows := by
    refine ⟨exFile.take 3, "     crystal axes: (cart. coord. in units of alat)".toList, (exFile.drop 4).take 3, exFile.drop 7, by decide +kernel,
      exNo _ isAxes_iff (by decide +kernel), (isAxes_iff _).1 (by decide +kernel), ?_⟩
    have : (exFile.drop 4).take 3 = ["  a(1) = ( 1  0  0 )", "  a(2) = ( 0  1  0 )", "  a(3) = ( 0  0  2 )"].map String.toList := by decide +kernel
    rw [this]
    refine .cons ?_ (.cons ?_ (.cons ?_ .nil)) <;> unfold Row <;> decide +kernel
  cell3 := rfl
  atomRows := by
    refine ⟨exFile.take 7, "   site n.     atom                  positions (alat units)".toList, (exFile.drop 8).take 1, exFile.drop 9, by decide +kernel,
      exNo _ isSite_iff (by decide +kernel), (isSite_iff _).1 (by decide +kernel), ?_⟩
    have : (exFile.drop 8).take 1 = ["    1           Al  tau(   1) = (   0   1   2  )"].map String.toList := by decide +kernel
    rw [this]
    refine .cons ⟨by decide +kernel, "    1           Al  tau(   1) = ".toList, "   0   1   2  ".toList, [], ?_⟩ .nil
    unfold BlankText NumLine
    decide +kernel
  atoms0 := by simp
  atoms3 := by simp
  points := Or.inr ⟨21, exFirst _ _ (fun l => isInfix_iff_append _ l) _ 9 "    number of k points=    21".toList _ (by decide +kernel) (by decide +kernel)
    ⟨"    ".toList, "    ".toList, [], by decide +kernel, by unfold BlankText; decide +kernel, by simp, by simp⟩⟩
  iters := by
    refine ⟨[8], ?_⟩
    have : exFile = exFile.take 10 ++ ("     convergence has been achieved in   8 iterations".toList :: (exFile.drop 11 ++ [])) := by decide +kernel
    rw [this]
    exact exInter _ (by decide +kernel) _ _ (.hit ⟨⟨"     ".toList, "   8 iterations".toList, by decide +kernel⟩, by decide +kernel⟩
      (exInter _ (by decide +kernel) _ _ .nil))

/-- The structure in the file. -/
example (c : Consts ℚ) (hist : List (Kind × UDict ℚ)) (g : Getters ℚ (Val ℚ)) :
    ∃ st, readPwScf c hist (fun _ => none) g PwOut.exNum true exFile = .ok st ∧ st.attr .etot = some (.num (-14 * (c.Ry / c.eV))) := by
  obtain ⟨st, h, -, -, -, -, he, -⟩ := C122_struct exIsPwScf 1 (by omega) (by decide +kernel) true c hist (fun _ => none) g
  exact ⟨st, h, he (-14) (by decide +kernel)⟩

end Pwtools.PwRead
