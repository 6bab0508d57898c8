import Verif.Props.PwText
import Verif.Model.Convert
import Verif.Spec.Convert
import Verif.Props.Cif
import Verif.Props.Sgroup
import Verif.Props.Pdb
import Verif.Props.Derived
import Verif.Props.Cif2any
/-!
# C138: the conversion scripts keep the crystal
-/
namespace Pwtools.Conv
open Spec Cry Tr Units PwRead Cif

theorem value_read {R : Type} (num : Text → Option R) (t : Text) (x : R) (h : CifValue num t x) : str2float num t = .ok x := by
  obtain ⟨n, h1, h2⟩ := h
  exact C103_number num n t x h1 h2

theorem columns_of {R : Type} (num : Text → Option R) (words : List (Text × Text × Text)) (rows : List (List R))
    (h : List.Forall₂ (fun w r => ∃ x y z, r = [x, y, z] ∧ CifValue num w.1 x ∧ CifValue num w.2.1 y ∧ CifValue num w.2.2 z) words rows) :
    Columns num (words.map fun w => w.1) (words.map fun w => w.2.1) (words.map fun w => w.2.2) rows := by
  induction h with
  | nil => exact .nil
  | cons h _ ih =>
    obtain ⟨x, y, z, rfl, hx, hy, hz⟩ := h
    exact .cons (value_read _ _ _ hx) (value_read _ _ _ hy) (value_read _ _ _ hz) ih

theorem positions_read {R : Type} (num : Text → Option R) (b : Block) (pre : String) (rows : List (List R)) (h : CifPositions num b pre rows) : coordsOf num pre b = .ok (some rows) := by
  obtain ⟨words, hx, hy, hz, h⟩ := h
  exact C103_coords_partial num pre b _ _ _ rows hx hy hz (columns_of num words rows h)

theorem cell_read {R : Type} (num : Text → Option R) (b : Block) (cc : List R) (syms : List Text) (h : CifCrystal num b cc syms) : crystConst num b = .ok cc := by
  replace h := h.cell
  cases h with | cons h1 h =>
  cases h with | cons h2 h =>
  cases h with | cons h3 h =>
  cases h with | cons h4 h =>
  cases h with | cons h5 h =>
  cases h with | cons h6 h =>
  cases h
  obtain ⟨t1, g1, v1⟩ := h1
  obtain ⟨t2, g2, v2⟩ := h2
  obtain ⟨t3, g3, v3⟩ := h3
  obtain ⟨t4, g4, v4⟩ := h4
  obtain ⟨t5, g5, v5⟩ := h5
  obtain ⟨t6, g6, v6⟩ := h6
  exact C103_cell num b _ _ _ _ _ _ _ _ _ _ _ _ ⟨g1, value_read _ _ _ v1⟩ ⟨g2, value_read _ _ _ v2⟩ ⟨g3, value_read _ _ _ v3⟩ ⟨g4, value_read _ _ _ v4⟩ ⟨g5, value_read _ _ _ v5⟩
    ⟨g6, value_read _ _ _ v6⟩

theorem symbols_read {R : Type} (num : Text → Option R) (b : Block) (cc : List R) (syms : List Text) (h : CifCrystal num b cc syms) : Cif.symbols b = .ok (some syms) := by
  obtain ⟨ts, h1, h2⟩ := h.symbols
  exact C103_symbols b ts syms h1 h2

/-- The units and the container, for any parsed attributes. -/
theorem read_cont {K : Type} [Field K] [DecidableEq K] (c : Consts K) (hist : List (Kind × UDict K)) (user : UDict K) (g : Getters K (Val K)) (num : Text → Option K) (b : Block)
    (frac coords : Option (List (List K))) (syms : List Text) (x y z al be ga : K)
    (h1 : coordsOf num "_atom_site_fract_" b = .ok frac) (h2 : coordsOf num "_atom_site_Cartn_" b = .ok coords)
    (h3 : Cif.symbols b = .ok (some syms)) (h4 : crystConst num b = .ok [x, y, z, al, be, ga]) :
    ∃ st, readCif c hist user g num b = .ok st ∧ st.attr (.other "symbols") = some (.words syms) ∧
      (∀ m, frac = some m → st.attr (.other "coords_frac") = some (.mat m)) ∧
      (∀ m, coords = some m → st.attr .coords = some (.mat (m.map fun r => r.map fun x => x * (user .length).getD 1))) ∧
      (coords = none → (∀ o, g.attr o .coords = none) → st.attr .coords = none) ∧
      (frac = none → (∀ o, g.attr o (.other "coords_frac") = none) → st.attr (.other "coords_frac") = none) ∧
      st.cc = some (.one [x * (user .length).getD 1, y * (user .length).getD 1, z * (user .length).getD 1, al, be, ga]) := by
  have f := ReadMd.units_of c hist .cif user .length rfl (by simp)
  unfold readCif cifParse
  rw [h1, h2, h3, h4]
  generalize (create c (after c hist) .cif user).2 = units at f
  refine ⟨_, rfl, ?_, ?_, ?_, ?_, ?_, ?_⟩
  · show (scaleUnits units unitsMap _ _).or _ = _
    rw [scale_each]
    rfl
  · rintro m rfl
    show (scaleUnits units unitsMap _ _).or _ = _
    rw [scale_each]
    show some (Val.mat (m.map fun r => r.map fun x => x * 1)) = _
    simp
  · rintro m rfl
    show (scaleUnits units unitsMap _ _).or _ = _
    rw [scale_each]
    show some (Val.scale (units .length) _) = _
    rw [f]
    rfl
  · rintro rfl hg
    show (scaleUnits units unitsMap _ _).or _ = _
    rw [scale_each]
    exact hg _
  · rintro rfl hg
    show (scaleUnits units unitsMap _ _).or _ = _
    rw [scale_each]
    exact hg _
  · show some (CC.one (scaleRow (units .length) _)) = _
    rw [f]
    rfl

/-- **C138** `read_cif` returns what is in the file: symbols and fractional coordinates in order, the lattice constants with the lengths in the unit of the user, whichever parsers have been used before. -/
theorem C138_read_cif {K : Type} [Field K] [DecidableEq K] (c : Consts K) (hist : List (Kind × UDict K)) (user : UDict K) (g : Getters K (Val K)) (num : Text → Option K) (b : Block)
    (x y z al be ga : K) (syms : List Text) (hb : CifCrystal num b [x, y, z, al, be, ga] syms) (frac : List (List K)) (hf : CifPositions num b "_atom_site_fract_" frac)
    (hc : get b "_atom_site_Cartn_x" = none ∨ ∃ m, CifPositions num b "_atom_site_Cartn_" m) :
    ∃ st, readCif c hist user g num b = .ok st ∧ st.attr (.other "symbols") = some (.words syms) ∧ st.attr (.other "coords_frac") = some (.mat frac) ∧
      st.cc = some (.one [x * (user .length).getD 1, y * (user .length).getD 1, z * (user .length).getD 1, al, be, ga]) := by
  have h2 : ∃ m, coordsOf num "_atom_site_Cartn_" b = .ok m := by
    rcases hc with h | ⟨m, h⟩
    · exact ⟨none, C103_no_coords num _ b h⟩
    · exact ⟨_, positions_read num b _ m h⟩
  obtain ⟨m, h2⟩ := h2
  obtain ⟨st, e1, e2, e3, -, -, -, e4⟩ := read_cont c hist user g num b (some frac) m syms x y z al be ga (positions_read _ _ _ _ hf) h2 (symbols_read _ _ _ _ hb) (cell_read _ _ _ _ hb)
  exact ⟨st, e1, e2, e3 _ rfl, e4⟩

/-- **C138** A file with Cartesian instead of fractional coordinates: they are scaled like the lattice constants. -/
theorem C138_read_cif_cartesian {K : Type} [Field K] [DecidableEq K] (c : Consts K) (hist : List (Kind × UDict K)) (user : UDict K) (g : Getters K (Val K)) (num : Text → Option K) (b : Block)
    (x y z al be ga : K) (syms : List Text) (hb : CifCrystal num b [x, y, z, al, be, ga] syms) (pos : List (List K)) (hf : CifPositions num b "_atom_site_Cartn_" pos)
    (hc : get b "_atom_site_fract_x" = none) :
    ∃ st, readCif c hist user g num b = .ok st ∧ st.attr (.other "symbols") = some (.words syms) ∧
      st.attr .coords = some (.mat (pos.map fun r => r.map fun x => x * (user .length).getD 1)) ∧
      st.cc = some (.one [x * (user .length).getD 1, y * (user .length).getD 1, z * (user .length).getD 1, al, be, ga]) := by
  obtain ⟨st, e1, e2, -, e3, -, -, e4⟩ := read_cont c hist user g num b none (some pos) syms x y z al be ga (C103_no_coords num _ b hc) (positions_read _ _ _ _ hf) (symbols_read _ _ _ _ hb)
    (cell_read _ _ _ _ hb)
  exact ⟨st, e1, e2, e3 _ rfl, e4⟩

/-! ## the structure -/

theorem v3_rows (rows : List (List ℝ)) (h : ∀ r ∈ rows, r.length = 3) : ∃ vs : List V3, rowsOf (.mat rows) = some vs ∧ vs.map v3List = rows := by
  induction rows with
  | nil => exact ⟨[], rfl, rfl⟩
  | cons r rows ih =>
    obtain ⟨vs, h1, h2⟩ := ih fun q hq => h q (List.mem_cons_of_mem _ hq)
    match r, h r List.mem_cons_self with
    | [x, y, z], _ =>
      refine ⟨![x, y, z] :: vs, ?_, ?_⟩
      · show List.mapM v3Of _ = _
        rw [List.mapM_cons]
        show (some _).bind (fun a => (List.mapM v3Of rows).bind fun b => some (a :: b)) = _
        rw [show List.mapM v3Of rows = some vs from h1]
        rfl
      · rw [List.map_cons, h2]
        rfl

theorem rows3 {num : Text → Option ℝ} {b : Block} {pre : String} {rows : List (List ℝ)} (h : CifPositions num b pre rows) : ∀ r ∈ rows, r.length = 3 := by
  obtain ⟨words, -, -, -, h⟩ := h
  induction h with
  | nil => simp
  | cons h _ ih =>
    obtain ⟨x, y, z, rfl, -⟩ := h
    intro r hr
    rcases List.mem_cons.1 hr with rfl | hr
    · rfl
    · exact ih r hr

/-- The structure of a file with fractional coordinates. -/
theorem struct_frac (o : UObj ℝ (Val ℝ)) (x y z al be ga : ℝ) (syms : List Text) (frac : List (List ℝ)) (h3 : ∀ r ∈ frac, r.length = 3)
    (h1 : o.attr (.other "symbols") = some (.words syms)) (h2 : o.attr (.other "coords_frac") = some (.mat frac)) (h4 : o.cc = some (.one [x, y, z, al, be, ga])) :
    symbolsOf o = some syms ∧ (structOf o).cc = some ⟨x, y, z, al, be, ga⟩ ∧ (structOf o).cell = some (cc2cell ⟨x, y, z, al, be, ga⟩) ∧ (structOf o).natoms = some syms.length ∧
      ∃ vs, (structOf o).coordsFrac = some vs ∧ vs.map v3List = frac := by
  obtain ⟨vs, hv1, hv2⟩ := v3_rows frac h3
  have hs : symbolsOf o = some syms := by unfold symbolsOf; rw [h1]
  refine ⟨hs, ?_, ?_, ?_, vs, ?_, hv2⟩
  all_goals
    unfold structOf
    rw [Drv.setAll_eq, hs, h2, h4]
    simp [ccOf, hv1]

/-- The structure of a file with Cartesian coordinates. -/
theorem struct_cart (o : UObj ℝ (Val ℝ)) (x y z al be ga : ℝ) (syms : List Text) (pos : List (List ℝ)) (h3 : ∀ r ∈ pos, r.length = 3)
    (h1 : o.attr (.other "symbols") = some (.words syms)) (h2 : o.attr .coords = some (.mat pos)) (h2' : o.attr (.other "coords_frac") = none) (h4 : o.cc = some (.one [x, y, z, al, be, ga])) :
    symbolsOf o = some syms ∧ (structOf o).cc = some ⟨x, y, z, al, be, ga⟩ ∧
      ∃ vs : List V3, (structOf o).coordsFrac = some (vs.map (cart2frac (cc2cell ⟨x, y, z, al, be, ga⟩))) ∧ vs.map v3List = pos := by
  obtain ⟨vs, hv1, hv2⟩ := v3_rows pos h3
  have hs : symbolsOf o = some syms := by unfold symbolsOf; rw [h1]
  refine ⟨hs, ?_, vs, ?_, hv2⟩
  all_goals
    unfold structOf
    rw [Drv.setAll_eq, hs, h2, h2', h4]
    simp [ccOf, hv1]

/-! ## cif2sgroup.py -/

theorem label_sg (syms ts : List Text) (h : List.Forall₂ CifLabel syms ts) : ∀ s ∈ syms, SgWord s := by
  induction h with
  | nil => simp
  | cons h _ ih =>
    intro s hs
    rcases List.mem_cons.1 hs with rfl | hs
    · refine ⟨⟨h.1, fun c hc => Pdb.letter_space c (h.2.1 c hc)⟩, fun hc => ?_⟩
      have := h.2.1 _ hc
      revert this
      decide
    · exact ih s hs

/-- **C138** What `cif2sgroup.py` prints is read by `sgroup` as the crystal of the CIF file: lattice symbol P, the six constants and all atoms in order, each number as it is read from the printed text
(`rnd`). -/
theorem C138_cif2sgroup {S : Type} (c : Consts ℝ) (num : Text → Option ℝ) (b : Block) (x y z al be ga : ℝ) (syms : List Text) (hb : CifCrystal num b [x, y, z, al, be, ga] syms)
    (frac : List (List ℝ)) (hf : CifPositions num b "_atom_site_fract_" frac) (hc : get b "_atom_site_Cartn_x" = none ∨ ∃ m, CifPositions num b "_atom_site_Cartn_" m)
    (hl : syms.length = frac.length) (fmt : ℝ → Text) (num' : Text → Option S) (rnd : ℝ → S) (hw : ∀ x, SgWord (fmt x)) (hn : ∀ x, num' (fmt x) = some (rnd x)) :
    ∃ txt, cif2sgroup c num fmt b = .ok (some txt) ∧
      sgRead num' txt = some ("P".toList, [x, y, z, al, be, ga].map rnd, (syms.zip frac).map fun a => (a.1, a.2.map rnd)) := by
  obtain ⟨o, e1, e2, e3, e4⟩ := C138_read_cif c [] (fun _ => none) noGetters num b x y z al be ga syms hb frac hf hc
  simp only [Option.getD_none, mul_one] at e4
  obtain ⟨s1, s2, -, s4, vs, s5, s6⟩ := struct_frac o x y z al be ga syms frac (rows3 hf) e2 e3 e4
  refine ⟨Sg.sgroupInput fmt "P".toList ⟨[x, y, z, al, be, ga], (syms.zip frac).length, (syms.zip frac).map (·.1), (syms.zip frac).map (·.2)⟩, ?_, ?_⟩
  rotate_left
  · have h := Sg.C124_sgroup_rounded num' fmt rnd hw hn "P".toList (by unfold SgWord WordText; decide) [x, y, z, al, be, ga] rfl (syms.zip frac) fun a ha => by
      obtain ⟨ts, h1, -⟩ := hb.symbols
      exact ⟨label_sg _ _ h1 _ (List.of_mem_zip ha).1, rows3 hf _ (List.of_mem_zip ha).2⟩
    exact h
  · unfold cif2sgroup
    rw [e1]
    show Except.ok (match (structOf o).cc, (structOf o).coordsFrac, symbolsOf o, (structOf o).natoms with
      | some cc, some f, some syms, some n => some (Sg.sgroupInput fmt "P".toList ⟨ccList cc, n, syms, f.map v3List⟩)
      | _, _, _, _ => none) = _
    rw [s1, s2, s4, s5]
    show Except.ok (some (Sg.sgroupInput fmt "P".toList ⟨_, _, _, vs.map v3List⟩)) = _
    rw [s6, List.map_fst_zip hl.le, List.map_snd_zip hl.ge, List.length_zip, hl, min_self]
    rfl

/-! ## cif2any.py -/

/-- **C138** The structure from which `cif2any.py` makes its sections is the crystal of the CIF file in atomic units, of which `C137_abinit`, … say what the programs read. -/
theorem C138_cif2any (c : Consts ℝ) (bohr ang : ℝ) (num : Text → Option ℝ) (b : Block) (x y z al be ga : ℝ) (syms : List Text) (hb : CifCrystal num b [x, y, z, al, be, ga] syms)
    (frac : List (List ℝ)) (hf : CifPositions num b "_atom_site_fract_" frac) (hc : get b "_atom_site_Cartn_x" = none ∨ ∃ m, CifPositions num b "_atom_site_Cartn_" m) :
    cif2anyStruct c bohr ang num b = .ok (some (Cif2any.crystal bohr ang ⟨x, y, z, al, be, ga⟩ syms frac)) := by
  obtain ⟨o, e1, e2, e3, e4⟩ := C138_read_cif c [] (fun q => if q = .length then some (ang / bohr) else none) noGetters num b x y z al be ga syms hb frac hf hc
  simp only [if_true, Option.getD_some] at e4
  obtain ⟨s1, s2, s3, -, vs, s5, s6⟩ := struct_frac o _ _ _ al be ga syms frac (rows3 hf) e2 e3 e4
  unfold cif2anyStruct
  rw [e1]
  show Except.ok (match (structOf o).cc, (structOf o).coordsFrac, symbolsOf o, (structOf o).cell with
    | some cc, some f, some syms, some cell => some (⟨syms, f.map v3List, ccList cc, Cif2any.cellRows cell⟩ : Cif2any.Crystal ℝ)
    | _, _, _, _ => none) = _
  rw [s1, s2, s3, s5]
  show Except.ok (some (⟨syms, vs.map v3List, _, _⟩ : Cif2any.Crystal ℝ)) = _
  rw [s6]
  rfl

/-! ## pdb2cif.py -/

theorem pdb_no_frac (c : Consts ℝ) (num : Text → Option ℝ) (txt : Text) (o : UObj ℝ (Val ℝ)) (h : Pdb.readPdb c [] (fun _ => none) noGetters num txt = .ok o) :
    o.attr (.other "coords_frac") = none := by
  unfold Pdb.readPdb Pdb.parse at h
  cases h1 : Pdb.getCoords num txt with
  | error e => rw [h1] at h; cases h
  | ok m =>
    cases h2 : Pdb.getSymbols txt with
    | error e => rw [h1, h2] at h; cases h
    | ok w =>
      cases h3 : Pdb.getCrystConst num txt with
      | error e => rw [h1, h2, h3] at h; cases h
      | ok cc =>
        rw [h1, h2, h3] at h
        simp only [Except.bind] at h
        cases h
        show (scaleUnits _ unitsMap _ _).or none = _
        rw [scale_each]
        rfl

/-- **C138** `read_cif` of the file which `pdb2cif.py` writes for a PDB file with a cell: the atoms in order; the lattice constants; and fractional coordinates which, up to the error `δ` of printing
them, are those of the positions in the PDB file in the cell with the vector a along x and b in the plane of x and y. -/
theorem C138_pdb2cif (num : Text → Option ℝ) (atoms : List PdbAtom) (txt : Text) (h : IsPdb atoms txt) (hne : atoms ≠ [])
    (pos : List (List ℝ)) (hp : (atoms.map fun a => [num a.x, num a.y, num a.z]) = pos.map fun r => r.map some)
    (cell : PdbCell) (hcell : cell.Wf) (hc : HasPdbCell cell txt) (a b c' al be ga : ℝ)
    (hv : (cell.words.map fun w => num w.1) = [some a, some b, some c', some al, some be, some ga]) (hcc : PossibleCC ⟨a, b, c', al, be, ga⟩)
    (syms : List Text) (hs : List.Forall₂ CifLabel syms (atoms.map fun a => pdbSymbol a.name))
    (fmt : ℝ → Text) (hw : ∀ x, '(' ∉ fmt x) (rnd : ℝ → ℝ) (hn : ∀ x, num (fmt x) = some (rnd x)) (δ : ℝ) (hδ : ∀ x, |rnd x - x| ≤ δ)
    (c : Consts ℝ) (hist : List (Kind × UDict ℝ)) (g : Getters ℝ (Val ℝ)) :
    ∃ blk st frac, pdb2cif c num fmt txt = .ok (some blk) ∧ readCif c hist (fun _ => none) g num blk = .ok st ∧
      st.attr (.other "symbols") = some (.words syms) ∧ st.cc = some (.one ([a, b, c', al, be, ga].map rnd)) ∧ st.attr (.other "coords_frac") = some (.mat frac) ∧
      ∃ m : Cell, LatticeConst m ⟨a, b, c', al, be, ga⟩ ∧ (m 0 1 = 0 ∧ m 0 2 = 0 ∧ m 1 2 = 0 ∧ 0 < m 0 0 ∧ 0 < m 1 1 ∧ 0 ≤ m 2 2) ∧
        List.Forall₂ (fun f r => ∃ s x : V3, r = [x 0, x 1, x 2] ∧ CartOf m s x ∧ ∃ s0 s1 s2, f = [s0, s1, s2] ∧ |s0 - s 0| ≤ δ ∧ |s1 - s 1| ≤ δ ∧ |s2 - s 2| ≤ δ) frac pos := by
  obtain ⟨o, e1, e2, e3, e4⟩ := Pdb.C136_struct_partial num atoms txt h hne pos hp cell hcell hc a b c' al be ga hv c [] (fun _ => none) noGetters
  simp only [Option.getD_none, mul_one, List.map_id'] at e3 e4
  have h3 : ∀ r ∈ pos, r.length = 3 := by
    intro r hr
    have : r.map some ∈ pos.map fun r => r.map some := List.mem_map_of_mem hr
    rw [← hp] at this
    obtain ⟨q, -, hq⟩ := List.mem_map.1 this
    have := congrArg List.length hq
    simpa using this.symm
  have e5 := pdb_no_frac c num txt o e1
  obtain ⟨s1, s2, vs, s3, s4⟩ := struct_cart o a b c' al be ga _ pos h3 e2 e3 e5 e4
  have hb : pdb2cif c num fmt txt = .ok (some (writeBlock fmt [a, b, c', al, be, ga] (atoms.map fun a => pdbSymbol a.name)
      ((vs.map (cart2frac (cc2cell ⟨a, b, c', al, be, ga⟩))).map v3List) 0)) := by
    unfold pdb2cif
    rw [e1]
    show Except.ok (match (structOf o).cc, (structOf o).coordsFrac, symbolsOf o with
      | some cc, some f, some syms => some (writeBlock fmt (ccList cc) syms (f.map v3List) 0)
      | _, _, _ => none) = _
    rw [s1, s2, s3]
    rfl
  obtain ⟨r1, r2, r3, r4⟩ := C103_roundtrip_rounded num fmt rnd 0 hn hw [a, b, c', al, be, ga] rfl syms _ hs
    ((vs.map (cart2frac (cc2cell ⟨a, b, c', al, be, ga⟩))).map v3List) (by
      intro r hr
      obtain ⟨v, -, rfl⟩ := List.mem_map.1 hr
      rfl)
  obtain ⟨st, t1, t2, t3, -, -, -, t4⟩ := read_cont c hist (fun _ => none) g num _ _ _ syms _ _ _ _ _ _ r2 r4 r3 r1
  simp only [Option.getD_none, mul_one] at t4
  refine ⟨_, st, _, hb, t1, t2, t4, t3 _ rfl, cc2cell ⟨a, b, c', al, be, ga⟩, Drv.lattice_of_cc _ hcc, ?_, ?_⟩
  · have hg := hcc.2.2.2.2.2.1
    refine ⟨rfl, rfl, rfl, hcc.1, mul_pos hcc.2.1 (Real.sin_pos_of_pos_of_lt_pi ?_ ?_), Real.sqrt_nonneg _⟩
    · have := Real.pi_pos
      have := hg.1
      dsimp only at *
      positivity
    · have := Real.pi_pos
      have h180 := hg.2
      dsimp only at *
      nlinarith
  · rw [← s4, List.map_map, List.map_map, List.forall₂_map_left_iff, List.forall₂_map_right_iff, List.forall₂_same]
    intro v hv
    refine ⟨cart2frac (cc2cell ⟨a, b, c', al, be, ga⟩) v, v, rfl, ?_, _, _, _, rfl, hδ _, hδ _, hδ _⟩
    have := Drv.cartOf_frac2cart (cc2cell ⟨a, b, c', al, be, ga⟩) (cart2frac (cc2cell ⟨a, b, c', al, be, ga⟩) v)
    rwa [(C39_frac_cart _ (Drv.cc2cell_det _ hcc) 0 v).2.1] at this

/-! ## examples -/

/-- The numbers of the files. -/
def exQ (t : Text) : Option ℚ := ((parseInt t).map fun i => (i : ℚ)).or (Pdb.exNum t)

noncomputable def exR (t : Text) : Option ℝ := (exQ t).map fun q => (q : ℝ)

theorem exR_of {t : Text} {q : ℚ} (h : exQ t = some q) : exR t = some (q : ℝ) := by unfold exR; rw [h]; rfl

/-- Numbers are printed without decimals. -/
noncomputable def exFmt (x : ℝ) : Text := strInt ⌊x⌋

theorem exR_fmt (x : ℝ) : exR (exFmt x) = some ((⌊x⌋ : ℤ) : ℝ) := by
  have : exQ (exFmt x) = some ((⌊x⌋ : ℤ) : ℚ) := by
    unfold exQ exFmt
    rw [parseInt_strInt]
    rfl
  rw [exR_of this]
  norm_num

theorem exFmt_word (x : ℝ) : SgWord (exFmt x) := by
  refine ⟨⟨?_, fun ch h => ?_⟩, Pw.strInt_noChar '/' (by decide) (by decide) _⟩
  · intro h
    have := parseInt_strInt ⌊x⌋
    unfold exFmt at h
    rw [h] at this
    exact absurd this (by simp [parseInt])
  · by_contra hs
    rw [Bool.not_eq_false] at hs
    refine Pw.strInt_noChar ch ?_ ?_ _ h
    · rintro rfl
      exact absurd hs (by decide)
    · by_contra hd
      rw [Bool.not_eq_false] at hd
      rw [isPySpace_digit ch hd] at hs
      cases hs

/-- A CIF file with two atoms. -/
def exBlock : Block :=
  [("_cell_length_a".toList, .str "4(1)".toList), ("_cell_length_b".toList, .str "4".toList), ("_cell_length_c".toList, .str "6".toList), ("_cell_angle_alpha".toList, .str "90".toList),
   ("_cell_angle_beta".toList, .str "90".toList), ("_cell_angle_gamma".toList, .str "120".toList), ("_atom_site_label".toList, .list ["Zn1".toList, "O2-".toList]),
   ("_atom_site_fract_x".toList, .list ["0".toList, "1".toList]), ("_atom_site_fract_y".toList, .list ["0.5".toList, "0.5(2)".toList]),
   ("_atom_site_fract_z".toList, .list ["-2.0".toList, "3".toList])]

theorem val_plain {t : Text} (q : ℚ) (h : exQ t = some q) (ht : t ≠ [] ∧ '(' ∉ t) : CifValue exR t (q : ℝ) := ⟨t, ⟨ht.1, ht.2, .inl rfl⟩, exR_of h⟩

theorem ex_crystal : CifCrystal exR exBlock [((4 : ℚ) : ℝ), ((4 : ℚ) : ℝ), ((6 : ℚ) : ℝ), ((90 : ℚ) : ℝ), ((90 : ℚ) : ℝ), ((120 : ℚ) : ℝ)] ["Zn".toList, "O".toList] := by
  refine ⟨?_, ["Zn1".toList, "O2-".toList], ?_, .inr ⟨by decide +kernel, by decide +kernel⟩⟩
  · refine .cons ⟨"4(1)".toList, by decide +kernel, "4".toList, ⟨by decide +kernel, by decide +kernel, .inr ⟨by decide +kernel, "1)".toList, by decide +kernel⟩⟩, exR_of (by decide +kernel)⟩ ?_
    refine .cons ⟨"4".toList, by decide +kernel, val_plain _ (by decide +kernel) (by decide +kernel)⟩ ?_
    refine .cons ⟨"6".toList, by decide +kernel, val_plain _ (by decide +kernel) (by decide +kernel)⟩ ?_
    refine .cons ⟨"90".toList, by decide +kernel, val_plain _ (by decide +kernel) (by decide +kernel)⟩ ?_
    refine .cons ⟨"90".toList, by decide +kernel, val_plain _ (by decide +kernel) (by decide +kernel)⟩ ?_
    exact .cons ⟨"120".toList, by decide +kernel, val_plain _ (by decide +kernel) (by decide +kernel)⟩ .nil
  · refine .cons ⟨by decide +kernel, by decide +kernel, ['1'], by decide +kernel, ?_⟩ (.cons ⟨by decide +kernel, by decide +kernel, ['2', '-'], by decide +kernel, ?_⟩ .nil)
    all_goals
      intro c hc
      cases hc
      decide

theorem ex_positions : CifPositions exR exBlock "_atom_site_fract_" [[((0 : ℚ) : ℝ), ((1 / 2 : ℚ) : ℝ), ((-2 : ℚ) : ℝ)], [((1 : ℚ) : ℝ), ((1 / 2 : ℚ) : ℝ), ((3 : ℚ) : ℝ)]] := by
  refine ⟨[("0".toList, "0.5".toList, "-2.0".toList), ("1".toList, "0.5(2)".toList, "3".toList)], by decide +kernel, by decide +kernel, by decide +kernel, ?_⟩
  refine .cons ⟨_, _, _, rfl, ?_, ?_, ?_⟩ (.cons ⟨_, _, _, rfl, ?_, ⟨"0.5".toList, ⟨by decide +kernel, by decide +kernel, .inr ⟨by decide +kernel, "2)".toList, by decide +kernel⟩⟩, ?_⟩, ?_⟩ .nil)
  all_goals first
    | exact val_plain _ (by decide +kernel) (by decide +kernel)
    | exact exR_of (by decide +kernel)

/-- The hypotheses of `C138_cif2sgroup` and `C138_cif2any` are met: a file with uncertainties and labels. -/
example (c : Consts ℝ) : ∃ txt, cif2sgroup c exR exFmt exBlock = .ok (some txt) ∧
    sgRead exR txt = some ("P".toList, [4, 4, 6, 90, 90, 120], [("Zn".toList, [0, 0, -2]), ("O".toList, [1, 0, 3])]) := by
  obtain ⟨txt, h1, h2⟩ := C138_cif2sgroup c exR exBlock _ _ _ _ _ _ _ ex_crystal _ ex_positions (.inl (by decide +kernel)) rfl exFmt exR (fun x => ((⌊x⌋ : ℤ) : ℝ)) exFmt_word exR_fmt
  have h : ⌊(2⁻¹ : ℝ)⌋ = 0 := by rw [Int.floor_eq_iff]; norm_num
  have h' : ⌊(-2 : ℝ)⌋ = -2 := by rw [Int.floor_eq_iff]; norm_num
  exact ⟨txt, h1, by rw [h2]; simp [h, h']⟩

example (c : Consts ℝ) : cif2anyStruct c (1 / 2) 1 exR exBlock =
    .ok (some (Cif2any.crystal (1 / 2) 1 ⟨4, 4, 6, 90, 90, 120⟩ ["Zn".toList, "O".toList] [[0, 1 / 2, -2], [1, 1 / 2, 3]])) := by
  have h := C138_cif2any c (1 / 2) 1 exR exBlock _ _ _ _ _ _ _ ex_crystal _ ex_positions (.inl (by decide +kernel))
  rw [h]
  norm_num

/-- The hypotheses of `C138_pdb2cif` are met by the file of C136. -/
example (c : Consts ℝ) (hist : List (Kind × UDict ℝ)) (g : Getters ℝ (Val ℝ)) :
    ∃ blk st, pdb2cif c exR exFmt Pdb.exTxt = .ok (some blk) ∧ readCif c hist (fun _ => none) g exR blk = .ok st ∧
      st.attr (.other "symbols") = some (.words ["Ca".toList, "Zn".toList]) ∧ st.cc = some (.one [52, 58, 61, 90, 90, 90]) := by
  have hp : (Pdb.exAtoms.map fun a => [exQ a.x, exQ a.y, exQ a.z]) = [[1388 / 125, 3067 / 500, -813 / 125], [1 / 2, 1, -2]].map fun r => r.map some := by decide +kernel
  have hv : (Pdb.exCell.words.map fun w => exQ w.1) = [some 52, some (293 / 5), some (619 / 10), some 90, some 90, some 90] := by decide +kernel
  have hp' := congrArg (List.map (List.map (Option.map fun q : ℚ => (q : ℝ)))) hp
  have hv' := congrArg (List.map (Option.map fun q : ℚ => (q : ℝ))) hv
  obtain ⟨blk, st, -, h1, h2, h3, h4, -⟩ := C138_pdb2cif exR Pdb.exAtoms Pdb.exTxt Pdb.ex_pdb (by decide) (([[1388 / 125, 3067 / 500, -813 / 125], [1 / 2, 1, -2]] : List (List ℚ)).map fun r : List ℚ => r.map fun q : ℚ => (q : ℝ))
    (by rw [List.map_map] at hp'; exact hp') Pdb.exCell Pdb.ex_cell Pdb.ex_has ((52 : ℚ) : ℝ) ((293 / 5 : ℚ) : ℝ) ((619 / 10 : ℚ) : ℝ) ((90 : ℚ) : ℝ) ((90 : ℚ) : ℝ) ((90 : ℚ) : ℝ)
    (by rw [List.map_map] at hv'; exact hv')
    (by
      have e : (90 : ℝ) * Real.pi / 180 = Real.pi / 2 := by ring
      refine ⟨?_, ?_, ?_, ?_, ?_, ?_, ?_⟩ <;> norm_num [e])
    ["Ca".toList, "Zn".toList] (.cons ⟨by decide +kernel, by decide +kernel, [], by decide +kernel, by simp⟩ (.cons ⟨by decide +kernel, by decide +kernel, [], by decide +kernel, by simp⟩ .nil))
    exFmt (fun x h => Pw.strInt_noChar '(' (by decide) (by decide) _ h) (fun x => ((⌊x⌋ : ℤ) : ℝ)) exR_fmt 1
    (fun x => by rw [abs_le]; constructor <;> linarith [Int.floor_le x, Int.lt_floor_add_one x]) c hist g
  have f1 : ⌊(293 / 5 : ℝ)⌋ = 58 := by rw [Int.floor_eq_iff]; norm_num
  have f2 : ⌊(619 / 10 : ℝ)⌋ = 61 := by rw [Int.floor_eq_iff]; norm_num
  exact ⟨blk, st, h1, h2, h3, by rw [h4]; norm_num [f1, f2]⟩

end Pwtools.Conv
