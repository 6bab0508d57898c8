import Verif.Model.Cif
import Verif.Spec.Cif
import Mathlib.Data.List.Forall2
/-!
# C103: CIF files
-/
namespace Pwtools.Cif
open Spec

theorem floatChar_iff (c : Char) : floatChar c = true ↔ c.isDigit = true ∨ c ∈ ['.', 'e', 'E', 'd', 'D', '+', '-'] := by
  unfold floatChar
  simp only [Bool.or_eq_true, decide_eq_true_eq, List.mem_cons, List.not_mem_nil, or_false]
  tauto

theorem letter_alpha (c : Char) : asciiLetter c = c.isAlpha := by
  unfold asciiLetter Char.isAlpha Char.isUpper Char.isLower
  rw [Bool.or_comm, Bool.decide_and]
  rfl

/-- **C103** A number with or without an uncertainty in parentheses is read as this number. -/
theorem C103_number {R : Type} (num : Text → Option R) (n t : Text) (x : R) (h : CifNumber n t) (hn : num n = some x) :
    str2float num t = .ok x := by
  obtain ⟨hne, hp, h | ⟨hc, su, h⟩⟩ := h
  · rw [h]
    unfold str2float
    rw [if_neg hp, hn]
  · have hpos : ∀ c ∈ n, floatChar c = true := fun c hcn => (floatChar_iff c).2 (hc c hcn)
    have hneg : ¬ floatChar '(' = true := by decide
    have ht : t.takeWhile floatChar = n := by
      rw [h, List.takeWhile_append_of_pos hpos, List.takeWhile_cons_of_neg hneg, List.append_nil]
    unfold str2float
    rw [if_pos (by rw [h]; simp)]
    simp only [ht]
    rw [if_pos ⟨hne, by rw [h, List.drop_left]; rfl⟩, hn]

/-- **C103** Digits and charges after the letters of an atom label are removed. -/
theorem C103_label (s t : Text) (h : CifLabel s t) : clearSymbol t = .ok s := by
  obtain ⟨hne, hs, rest, h, hr⟩ := h
  have ht : t.takeWhile asciiLetter = s := by
    rw [h, List.takeWhile_append_of_pos fun c hc => by rw [letter_alpha]; exact hs c hc]
    cases rest with
    | nil => simp
    | cons c r => rw [List.takeWhile_cons_of_neg (by rw [letter_alpha, hr c rfl]; simp), List.append_nil]
  unfold clearSymbol
  simp only [ht]
  rw [if_pos hne]

theorem mapM_forall {α β : Type} (f : α → Except CErr β) (as : List α) (bs : List β) (h : List.Forall₂ (fun a b => f a = .ok b) as bs) :
    as.mapM f = .ok bs := by
  induction h with
  | nil => rfl
  | cons hab _ ih =>
    rw [List.mapM_cons, hab, ih]
    rfl

/-- Three columns of texts and the rows of numbers they stand for. -/
inductive Columns {R : Type} (num : Text → Option R) : List Text → List Text → List Text → List (List R) → Prop
  | nil : Columns num [] [] [] []
  | cons {xs ys zs rows x y z a b c} (hx : str2float num x = .ok a) (hy : str2float num y = .ok b) (hz : str2float num z = .ok c)
      (h : Columns num xs ys zs rows) : Columns num (x :: xs) (y :: ys) (z :: zs) ([a, b, c] :: rows)

/-- **C103** The coordinates are read row by row from the three columns, in the order of the file. Missing columns are reported, a block without
coordinates gives `None`. Partial: the columns must be lists, i.e. part of a `loop_`; see `C103_single_counterexample`. -/
theorem C103_coords_partial {R : Type} (num : Text → Option R) (pre : String) (b : Block) (xs ys zs : List Text) (rows : List (List R))
    (hx : get b (pre ++ "x") = some (.list xs)) (hy : get b (pre ++ "y") = some (.list ys)) (hz : get b (pre ++ "z") = some (.list zs))
    (h : Columns num xs ys zs rows) : coordsOf num pre b = .ok (some rows) := by
  have key : (zip3 xs ys zs).mapM (fun (p : Text × Text × Text) => [p.1, p.2.1, p.2.2].mapM (str2float num)) = .ok rows := by
    clear hx hy hz
    induction h with
    | nil => rfl
    | cons hx hy hz _ ih =>
      rw [zip3, List.mapM_cons]
      simp only
      rw [mapM_forall _ _ _ (.cons hx (.cons hy (.cons hz .nil))), ih]
      rfl
  unfold coordsOf
  rw [hx, hy, hz]
  simp only [Item.iter, Option.elim, bind, Except.bind]
  rw [key]
  rfl

theorem C103_no_coords {R : Type} (num : Text → Option R) (pre : String) (b : Block) (h : get b (pre ++ "x") = none) :
    coordsOf num pre b = .ok none := by
  unfold coordsOf
  rw [h]

/-- **C103** The symbols come from the type symbols if the file has them, else from the labels. -/
theorem C103_symbols (b : Block) (ts : List Text) (syms : List Text) (h : List.Forall₂ CifLabel syms ts)
    (hb : get b "_atom_site_type_symbol" = some (.list ts) ∨
      (get b "_atom_site_type_symbol" = none ∧ get b "_atom_site_label" = some (.list ts))) : symbols b = .ok (some syms) := by
  have key : ts.mapM clearSymbol = .ok syms := mapM_forall _ _ _ (h.flip.imp fun _ _ h => C103_label _ _ h)
  unfold symbols
  rcases hb with hb | ⟨hb, hb'⟩
  · rw [hb]
    simp only [Item.iter]
    rw [key]
    rfl
  · rw [hb, hb']
    simp only [Item.iter]
    rw [key]
    rfl

/-- **C103** The lattice constants are a, b, c, alpha, beta, gamma in this order; a missing one is an error. -/
theorem C103_cell {R : Type} (num : Text → Option R) (b : Block) (ta tb tc tal tbe tga : Text) (a b' c al be ga : R)
    (ha : get b "_cell_length_a" = some (.str ta) ∧ str2float num ta = .ok a)
    (hb : get b "_cell_length_b" = some (.str tb) ∧ str2float num tb = .ok b')
    (hc : get b "_cell_length_c" = some (.str tc) ∧ str2float num tc = .ok c)
    (hal : get b "_cell_angle_alpha" = some (.str tal) ∧ str2float num tal = .ok al)
    (hbe : get b "_cell_angle_beta" = some (.str tbe) ∧ str2float num tbe = .ok be)
    (hga : get b "_cell_angle_gamma" = some (.str tga) ∧ str2float num tga = .ok ga) :
    crystConst num b = .ok [a, b', c, al, be, ga] := by
  have hs : ∀ key t x, get b key = some (.str t) ∧ str2float num t = .ok x → single num b key = .ok x := by
    rintro key t x ⟨h1, h2⟩
    unfold single
    rw [h1]
    exact h2
  unfold crystConst
  exact mapM_forall _ _ _ (.cons (hs _ _ _ ha) (.cons (hs _ _ _ hb) (.cons (hs _ _ _ hc) (.cons (hs _ _ _ hal) (.cons (hs _ _ _ hbe)
    (.cons (hs _ _ _ hga) .nil))))))

theorem columns_write {R S : Type} (num : Text → Option S) (fmt : R → Text) (rnd : R → S) (hf : ∀ x, str2float num (fmt x) = .ok (rnd x)) (zero : R)
    (frac : List (List R)) (h : ∀ r ∈ frac, r.length = 3) :
    Columns num (frac.map fun r => fmt (r.getD 0 zero)) (frac.map fun r => fmt (r.getD 1 zero)) (frac.map fun r => fmt (r.getD 2 zero)) (frac.map fun r => r.map rnd) := by
  induction frac with
  | nil => exact .nil
  | cons r rs ih =>
    obtain ⟨x, y, z, hr⟩ := List.length_eq_three.1 (h r (by simp))
    have := ih fun r hr => h r (by simp [hr])
    rw [hr]
    exact .cons (hf x) (hf y) (hf z) this

theorem get_cons (k : Text) (v : Item) (b : Block) (key : String) : get ((k, v) :: b) key = if k = key.toList then some v else get b key := by
  unfold get
  rw [List.find?_cons]
  by_cases h : k = key.toList
  · simp [h]
  · simp [h]

/-- **C103** (round trip with rounding) `read_cif(write_cif(st))` has the lattice constants, symbols and fractional coordinates of `st`, each number as it is read back from the
printed text (`rnd`), each symbol without what follows its letters. -/
theorem C103_roundtrip_rounded {R S : Type} (num : Text → Option S) (fmt : R → Text) (rnd : R → S) (zero : R) (hf : ∀ x, num (fmt x) = some (rnd x))
    (hp : ∀ x, '(' ∉ fmt x) (cc : List R) (hcc : cc.length = 6) (syms labels : List Text) (hs : List.Forall₂ CifLabel syms labels)
    (frac : List (List R)) (h3 : ∀ r ∈ frac, r.length = 3) :
    crystConst num (writeBlock fmt cc labels frac zero) = .ok (cc.map rnd) ∧
    coordsOf num "_atom_site_fract_" (writeBlock fmt cc labels frac zero) = .ok (some (frac.map fun r => r.map rnd)) ∧
    symbols (writeBlock fmt cc labels frac zero) = .ok (some syms) ∧
    coordsOf num "_atom_site_Cartn_" (writeBlock fmt cc labels frac zero) = .ok none := by
  have hf' : ∀ x, str2float num (fmt x) = .ok (rnd x) := by
    intro x
    unfold str2float
    rw [if_neg (hp x), hf x]
  have e : ∀ (k key : String) (v : Item) (b : Block), get ((k.toList, v) :: b) key = if k = key then some v else get b key := by
    intro k key v b
    rw [get_cons]
    simp only [String.toList_inj]
  refine ⟨?_, ?_, ?_, ?_⟩
  · match cc, hcc with
    | [a, b, c, al, be, ga], _ =>
      refine C103_cell num _ (fmt a) (fmt b) (fmt c) (fmt al) (fmt be) (fmt ga) (rnd a) (rnd b) (rnd c) (rnd al) (rnd be) (rnd ga) ?_ ?_ ?_ ?_ ?_ ?_
      all_goals
        refine ⟨?_, hf' _⟩
        unfold writeBlock
        simp only [e]
        simp
  · apply C103_coords_partial num "_atom_site_fract_" _ _ _ _ _ _ _ _ (columns_write num fmt rnd hf' zero frac h3)
    all_goals
      unfold writeBlock
      simp only [e]
      simp
  · apply C103_symbols _ labels
    · exact hs
    · left
      unfold writeBlock
      simp only [e]
      simp
  · apply C103_no_coords
    unfold writeBlock
    simp only [e]
    simp [get]

/-- **C103** (round trip) `read_cif(write_cif(st))` has lattice constants, symbols and fractional coordinates of `st`, for any number of atoms, if
the printed numbers are read back exactly (17 digits do that for floats) and the symbols consist of letters. -/
theorem C103_roundtrip {R : Type} (num : Text → Option R) (fmt : R → Text) (zero : R) (hf : ∀ x, num (fmt x) = some x)
    (hp : ∀ x, '(' ∉ fmt x) (cc : List R) (hcc : cc.length = 6) (syms : List Text) (hs : ∀ s ∈ syms, CifLabel s s)
    (frac : List (List R)) (h3 : ∀ r ∈ frac, r.length = 3) :
    crystConst num (writeBlock fmt cc syms frac zero) = .ok cc ∧
    coordsOf num "_atom_site_fract_" (writeBlock fmt cc syms frac zero) = .ok (some frac) ∧
    symbols (writeBlock fmt cc syms frac zero) = .ok (some syms) ∧
    coordsOf num "_atom_site_Cartn_" (writeBlock fmt cc syms frac zero) = .ok none := by
  have h := C103_roundtrip_rounded num fmt id zero hf hp cc hcc syms syms (List.forall₂_same.2 hs) frac h3
  simpa using h

/-- **C103** is false for a structure with a single atom which is not part of a `loop_` (legal in CIF): the texts are taken apart into characters, and
`float('.')` raises. -/
theorem C103_single_counterexample {R : Type} (num : Text → Option R) (x : R) (h0 : num ['0'] = some x) (hdot : num ['.'] = none) :
    coordsOf num "_atom_site_fract_" [("_atom_site_fract_x".toList, .str "0.5".toList), ("_atom_site_fract_y".toList, .str "0.5".toList),
      ("_atom_site_fract_z".toList, .str "0.5".toList)] = .error .valueError := by
  have e : "0.5".toList = ['0', '.', '5'] := by decide +kernel
  have hx : get [("_atom_site_fract_x".toList, .str "0.5".toList), ("_atom_site_fract_y".toList, .str "0.5".toList),
      ("_atom_site_fract_z".toList, .str "0.5".toList)] ("_atom_site_fract_" ++ "x") = some (.str "0.5".toList) := by decide +kernel
  have hy : get [("_atom_site_fract_x".toList, .str "0.5".toList), ("_atom_site_fract_y".toList, .str "0.5".toList),
      ("_atom_site_fract_z".toList, .str "0.5".toList)] ("_atom_site_fract_" ++ "y") = some (.str "0.5".toList) := by decide +kernel
  have hz : get [("_atom_site_fract_x".toList, .str "0.5".toList), ("_atom_site_fract_y".toList, .str "0.5".toList),
      ("_atom_site_fract_z".toList, .str "0.5".toList)] ("_atom_site_fract_" ++ "z") = some (.str "0.5".toList) := by decide +kernel
  unfold coordsOf
  rw [hx, hy, hz, e]
  have s0 : str2float num ['0'] = .ok x := by
    unfold str2float
    rw [if_neg (by decide), h0]
  have s1 : str2float num ['.'] = .error .valueError := by
    unfold str2float
    rw [if_neg (by decide), hdot]
  simp only [Item.iter, Option.elim, bind, Except.bind, List.map_cons, List.map_nil, zip3, List.mapM_cons, s0, s1]
  rfl

/-- Non-vacuity: `7.3782(7)`, `O2-`, `Al1`. -/
example : CifNumber "7.3782".toList "7.3782(7)".toList :=
  ⟨by decide +kernel, by decide +kernel, .inr ⟨by decide +kernel, "7)".toList, by decide +kernel⟩⟩

example : CifLabel "O".toList "O2-".toList ∧ CifLabel "Al".toList "Al1".toList ∧ CifLabel "Al".toList "Al".toList := by
  refine ⟨⟨by decide +kernel, by decide +kernel, "2-".toList, by decide +kernel, ?_⟩,
    ⟨by decide +kernel, by decide +kernel, "1".toList, by decide +kernel, ?_⟩, ⟨by decide +kernel, by decide +kernel, [], by decide +kernel, ?_⟩⟩
  · intro c hc
    have : c = '2' := by simpa using hc.symm
    rw [this]
    decide
  · intro c hc
    have : c = '1' := by simpa using hc.symm
    rw [this]
    decide
  · intro c hc
    simp at hc

/-- A label which begins with a number is an error. -/
example : clearSymbol "1Al".toList = .error .attributeError := by decide +kernel

end Pwtools.Cif
