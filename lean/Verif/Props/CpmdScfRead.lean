import Verif.Spec.CpmdScfRead
import Verif.Props.CpmdRead
import Verif.Props.PwRead
/-!
# C133: `read_cpmd_scf` returns what is in the files
-/
namespace Pwtools.CpmdScfRead
open Gr Tr Units PwRead Cpmd Spec PwHead
variable {K : Type} {num : Text → Option K} {d : CpmdScfData K} {fs : Files}

/-- A word has no white space in it. -/
theorem word_split (l w : Text) (h : w ∈ splitWs l) : splitWs w = [w] := by
  have key : ∀ (l cur : Text), (∀ c ∈ cur, isPySpace c = false) → ∀ w ∈ splitWsAux cur l, ∀ c ∈ w, isPySpace c = false := by
    intro l
    induction l with
    | nil =>
      intro cur hc w hw
      rw [splitWsAux] at hw
      split at hw
      · simp at hw
      · rw [List.mem_singleton.1 hw]; exact hc
    | cons c l ih =>
      intro cur hc w hw
      rw [splitWsAux] at hw
      split at hw
      · split at hw
        · exact ih [] (by simp) w hw
        · rcases List.mem_cons.1 hw with rfl | hw
          · exact hc
          · exact ih [] (by simp) w hw
      · rename_i hs
        refine ih _ ?_ w hw
        intro x hx
        rcases List.mem_append.1 hx with hx | hx
        · exact hc x hx
        · rw [List.mem_singleton.1 hx]; simpa using hs
  have := splitWs_word [] w [] (by intro c hc; simp at hc) ⟨splitWs_ne_nil l w h, key l [] (by simp) w h⟩ (by intro c hc; simp at hc)
  simpa using this

theorem natoms_run (h : IsCpmdScf num d fs) : natoms fs = some d.symbols.length := by
  obtain ⟨f, hf, ls, rfl, hn, hl⟩ := h.geometry
  unfold natoms
  rw [hf, Option.map_some, Cpmd.C91_natoms ls hl, hn]

theorem scale_run (h : IsCpmdScf num d fs) : scaleFile num fs = .ok (some ⟨some d.cell, d.frac, d.symbols⟩) := by
  obtain ⟨f, hs, hf⟩ := h.scale
  unfold scaleFile
  have h1 : Scf.scaleCell num f = .ok (some d.cell) := by
    obtain ⟨A, hd, R, B, rfl, hp, hn, hv⟩ := hf.cellRows
    exact Scf.C111_cell num A R B hd d.cell hp (fun l hl => hn l (by simp [hl])) (fun l hl => hn l (by simp [hl])) (by rw [hv.length_eq, h.cell33.1]) hv h.cell33.2
  have h2 : Scf.scaleAtoms num d.symbols.length f = .ok (d.frac, d.symbols) := by
    obtain ⟨A, hd, R, B, rfl, hp, hn, hl1, hl2, hv⟩ := hf.atomRows
    rw [← hl2]
    exact Scf.C111_atoms num A R B hd d.frac d.symbols hp (fun l hl => hn l (by simp [hl])) (fun l hl => hn l (by simp [hl]))
      (by intro e; rw [e] at hl2; exact h.atoms0 (List.eq_nil_of_length_eq_zero hl2.symm)) hl1 hl2 hv
  rw [hs]
  simp only [h1, Except.bind, natoms_run h, h2]

theorem frac3 (h : IsCpmdScf num d fs) : ∀ r ∈ d.frac, r.length = 3 := by
  obtain ⟨f, hs, hf⟩ := h.scale
  obtain ⟨A, hd, R, B, -, -, -, hl1, hl2, hv⟩ := hf.atomRows
  intro r hr
  obtain ⟨i, hi, rfl⟩ := List.mem_iff_getElem.1 hr
  obtain ⟨ws, -, -, h3⟩ := hv i R[i] d.frac[i] d.symbols[i] (List.getElem?_eq_getElem _) (List.getElem?_eq_getElem _) (List.getElem?_eq_getElem _)
  exact h3

theorem block_none (n : Nat) (p : Text → Bool) (file : List Text) (h : ∀ l ∈ file, p l = false) : Scf.tailN n (grepA n p file 0 false false) = [] := by
  rw [Scf.grepA_none n p file h]
  simp [Scf.tailN]

theorem stress_of {out : List Text} {v : Option (List (List K))} (h1 : LastRows (HasText "TOTAL STRESS TENSOR".toList) (NumLine num) out v)
    (h2 : ∀ s, v = some s → s.length = 3 ∧ ∀ r ∈ s, r.length = 3) : Scf.cpmdStress num out = .ok v := by
  cases v with
  | none =>
    unfold Scf.cpmdStress Scf.lastBlock
    rw [block_none _ _ _ fun l hl => Lmp.has_false (h1 l hl)]
    rfl
  | some s =>
    obtain ⟨A, hd, R, B, e, hp, hn, hv⟩ := h1
    rw [e]
    exact Scf.C111_stress num A R B hd s hp (fun l hl => hn l (by simp [hl])) (fun l hl => hn l (by simp [hl])) (by rw [hv.length_eq, (h2 s rfl).1]) hv (h2 s rfl).2

theorem stress_run (h : IsCpmdScf num d fs) : Scf.cpmdStress num fs.out = .ok d.stress := stress_of h.stress.1 h.stress.2

theorem etot_of {out : List Text} {v : Option K} (h1 : LastEnergy num out v) : Scf.cpmdEtot num out = .ok v := by
  cases v with
  | none =>
    unfold Scf.cpmdEtot
    have : out.filter (isInfix "TOTAL ENERGY =".toList) = [] := List.filter_eq_nil_iff.2 fun l hl => by simp only [Lmp.has_false (h1 l hl), Bool.false_eq_true, not_false_eq_true]
    rw [this]
    rfl
  | some x =>
    obtain ⟨A, l, B, w, e, hp, hn, h5, hx⟩ := h1
    rw [e]
    exact (Scf.C111_etot num A B l w x hp hn h5 (word_split l w (List.mem_of_getElem? h5)) hx).1

theorem etot_run (h : IsCpmdScf num d fs) : Scf.cpmdEtot num fs.out = .ok d.etot := etot_of h.etot

theorem forces_of {out : List Text} {v : Option (List (List K))} {n : Nat} (hn0 : n ≠ 0)
    (h1 : LastRows (HasSpaced3 "ATOM".toList "COORDINATES".toList "GRADIENTS".toList) (GradientLine num) out v)
    (h2 : ∀ f, v = some f → f.length = n) : Scf.cpmdForces num n out = .ok v := by
  cases v with
  | none =>
    unfold Scf.cpmdForces
    rw [block_none _ _ _ fun l hl => Scf.boolFalse (Scf.atomHead_iff l) (h1 l hl)]
    rfl
  | some s =>
    obtain ⟨A, hd, R, B, e, hp, hn, hv⟩ := h1
    have h3 := h2 s rfl
    rw [e, ← h3, ← hv.length_eq]
    have h0 : R ≠ [] := by
      intro e
      rw [e] at hv
      rw [← hv.length_eq] at h3
      exact hn0 h3.symm
    have : ∃ v : List (List K), List.Forall₂ (fun l r => [3, 4, 5, 6, 7, 8].map (fun i => (splitWs l)[i - 1]?.bind num) = r.map some) R v ∧
        v.map (·.drop 3) = s := by
      clear e hn h0 h2 h3
      induction hv with
      | nil => exact ⟨[], .nil, rfl⟩
      | cons hx _ ih =>
        obtain ⟨v, i1, i2⟩ := ih
        obtain ⟨x, x1, x2⟩ := hx
        rename_i l r _ _ _
        refine ⟨(x ++ r) :: v, .cons ?_ i1, ?_⟩
        · rw [List.map_append, ← x1, ← x2]
          rfl
        · have : x.length = 3 := by
            have := congrArg List.length x1
            simpa using this.symm
          rw [List.map_cons, i2]
          congr 1
          rw [List.drop_append_of_le_length (by omega), List.drop_of_length_le (by omega)]
          rfl
    obtain ⟨v, v1, v2⟩ := this
    rw [Scf.C111_forces num A R B hd v hp (fun l hl => hn l (by simp [hl])) (fun l hl => hn l (by simp [hl])) h0 v1, v2]

theorem forces_run (h : IsCpmdScf num d fs) : getForces num fs = .ok d.forces := by
  unfold getForces
  rw [natoms_run h]
  exact forces_of (by simpa using h.atoms0) h.forces.1 h.forces.2

theorem sedPoints_line (l : Text) (h : SpecialPoints l) : ∃ n, sedPoints l = strNat n := by
  obtain ⟨-, p, s, n, t, rfl, hs, ht, hc⟩ := h
  refine ⟨n, ?_⟩
  have hds : ((s ++ strNat n ++ t).dropWhile isPySpace).takeWhile Char.isDigit = strNat n := by
    rw [List.append_assoc, PwOut.dropWhile_blank _ _ hs, PwOut.takeWhile_digits _ _ (strNat_digits n) ht]
    intro x hx
    have hne := strNat_ne_nil n
    cases hs : strNat n with
    | nil => exact absurd hs hne
    | cons y ys =>
      rw [hs] at hx
      simp only [List.cons_append, List.head?_cons, Option.some.injEq] at hx
      subst hx
      exact isPySpace_digit _ (strNat_digits n y (by simp [hs]))
  unfold sedPoints
  rw [lastOcc_eq "COORDINATES):".toList (by decide) _ p (s ++ strNat n ++ t) (strNat n)]
  · rfl
  · simp only [hds]
    cases hs : strNat n with
    | nil => exact absurd hs (strNat_ne_nil n)
    | cons y ys => rfl
  · intro p' q e hlt
    exfalso
    have hp : "COORDINATES):".toList = "COORDINATES)".toList ++ [':'] := by decide +kernel
    have e2 : (p ++ "COORDINATES)".toList) ++ ([':'] ++ (s ++ strNat n ++ t)) = (p' ++ "COORDINATES)".toList) ++ ([':'] ++ q) := by
      rw [hp] at e
      simpa using e
    have := later_mem ':' _ _ _ _ e2 (by simp only [List.length_append]; omega)
    simp only [List.mem_append] at this
    rcases this with (h | h) | h
    · exact absurd (hs _ h) (by decide +kernel)
    · exact absurd (strNat_digits n _ h) (by decide)
    · exact hc h

theorem strNat_word (n : Nat) : splitWs (strNat n) = [strNat n] := by
  have := Cp2k.splitWs_blank_nat 0 n
  simpa using this

theorem points_run (h : IsCpmdScf num d fs) : ∃ n, nkpoints fs.out = .ok n := by
  unfold nkpoints
  rcases h.kpoints with h | ⟨A, l, B, e, hl, hn⟩
  · have : fs.out.filter (isInfix "NUMBER OF SPECIAL K POINTS".toList) = [] :=
      List.filter_eq_nil_iff.2 fun l hl => by simp only [Lmp.has_false (h l hl), Bool.false_eq_true, not_false_eq_true]
    rw [this]
    exact ⟨_, rfl⟩
  · rw [e, CpmdRead.filter_only _ A B l (fun x hx => Lmp.has_false (hn x hx)) ((Lmp.has_iff _ _).2 hl.1)]
    obtain ⟨n, hs⟩ := sedPoints_line l hl
    refine ⟨some n, ?_⟩
    unfold intTxt
    simp only [List.map_cons, List.map_nil, List.flatMap_cons, List.flatMap_nil, List.append_nil, hs, strNat_word, parseInt_strNat]

theorem before2_eq (p : Text → Bool) (A B : List Text) (l x hd : Text) (hn : ∀ y ∈ A ++ [l, x], p y = false) (hp : p hd = true) :
    before2 p (A ++ l :: x :: hd :: B) = [l] := by
  have e : A ++ l :: x :: hd :: B = (A ++ [l, x]) ++ hd :: B := by simp
  unfold before2
  rw [e]
  have h1 : ((A ++ [l, x]) ++ hd :: B).dropWhile (fun l => !p l) = hd :: B := by
    rw [List.dropWhile_append_of_pos (by intro y hy; simp [hn y hy]), List.dropWhile_cons_of_neg (by simp [hp])]
  have h2 : ((A ++ [l, x]) ++ hd :: B).takeWhile (fun l => !p l) = A ++ [l, x] := by
    rw [List.takeWhile_append_of_pos (by intro y hy; simp [hn y hy]), List.takeWhile_cons_of_neg (by simp [hp]), List.append_nil]
  rw [h1, h2]
  simp

theorem before2_none (p : Text → Bool) (out : List Text) (h : ∀ y ∈ out, p y = false) : before2 p out = [] := by
  unfold before2
  have : out.dropWhile (fun l => !p l) = [] := by
    rw [← List.append_nil out, List.dropWhile_append_of_pos (by intro y hy; simp [h y hy])]
    rfl
  rw [this]

theorem first_word (l : Text) : (awk [1] l).headD [] = (splitWs l).headD [] := by
  unfold awk
  cases splitWs l with
  | nil => rfl
  | cons w ws =>
    by_cases hw : w = [] <;> simp [hw]

theorem restart_run (h : RestartAfterStep fs.out) : ∃ n, nstepScf fs.out = .ok n := by
  unfold nstepScf
  rcases h with h | ⟨A, l, x, hd, B, e, hp, hn, hl⟩
  · rw [before2_none _ _ fun l hl => Lmp.has_false (h l hl)]
    exact ⟨_, rfl⟩
  · rw [e, before2_eq _ A B l x hd (fun y hy => Lmp.has_false (hn y hy)) ((Lmp.has_iff _ _).2 hp)]
    unfold intTxt
    simp only [List.map_cons, List.map_nil, List.flatMap_cons, List.flatMap_nil, List.append_nil, first_word]
    rcases hl with hl | ⟨n, ws, hl⟩
    · rw [hl]
      exact ⟨none, rfl⟩
    · rw [hl, List.headD_cons, strNat_word]
      exact ⟨some n, by simp only [parseInt_strNat]⟩

theorem parse_eq (h : IsCpmdScf num d fs) (hr : RestartAfterStep fs.out) : ∃ attrs, parse num fs = .ok attrs ∧ attrs .cell = some (.mat d.cell) ∧
    attrs .coords = none ∧ attrs (.other "coords_frac") = some (.mat d.frac) ∧ attrs (.other "symbols") = some (.words d.symbols) ∧
    attrs (.other "natoms") = some (.nat d.symbols.length) ∧ attrs .etot = d.etot.map .num ∧ attrs .stress = d.stress.map .mat ∧
    attrs .forces = d.forces.map .mat := by
  obtain ⟨n, hn⟩ := points_run h
  obtain ⟨m, hm⟩ := restart_run hr
  unfold parse
  simp only [scale_run h, stress_run h, etot_run h, forces_run h, hn, hm, Except.bind]
  refine ⟨_, rfl, rfl, rfl, ?_, ?_, ?_, rfl, rfl, rfl⟩
  · simp
  · simp
  · simp [natoms_run h]

section
variable [Field K] [DecidableEq K]

/-- What the getters see and fill in. -/
theorem getCont_fill (attrs : UAttr → Option (PwRead.Val K)) (units : Qty → K) (g : Getters K (PwRead.Val K)) :
    ∃ (st : UObj K (PwRead.Val K)) (p : Parser K (PwRead.Val K)) (o : UObj K (PwRead.Val K)), (Parser.init attrs none units).getCont g = .ok (st, p) ∧
      (∀ a, o.attr a = (attrs a).map (PwRead.Val.scale (unitFactor units a))) ∧ ∀ a, st.attr a = (o.attr a).or (g.attr o a) := by
  refine ⟨_, _, _, rfl, fun a => ?_, fun a => rfl⟩
  exact PwRead.scale_each units attrs a

omit [DecidableEq K] in
theorem dot_eq (s : K) (cell frac : List (List K)) (hc : cell.length = 3 ∧ ∀ r ∈ cell, r.length = 3) (hf : ∀ r ∈ frac, r.length = 3) :
    dot (frac.map fun r => r.map (· * 1)) (cell.map fun r => r.map (· * s)) = frac.map fun r => (cartesian cell r).map (· * s) := by
  unfold dot
  rw [List.map_map]
  apply List.map_congr_left
  intro r hr
  have h3 := hf r hr
  obtain ⟨c1, c2⟩ := hc
  match cell, c1, r, h3 with
  | [a, b, c], _, [x, y, z], _ =>
    have a3 := c2 a (by simp)
    have b3 := c2 b (by simp)
    have c3 := c2 c (by simp)
    match a, a3, b, b3, c, c3 with
    | [a1, a2, a3], _, [b1, b2, b3], _, [c1, c2, c3], _ =>
      simp [cartesian, List.range, List.range.loop]
      refine ⟨?_, ?_, ?_⟩ <;> ring

/-- **C133** `read_cpmd_scf`, whatever parsers have been used before: the last cell of `GEOMETRY.scale`, symbols and positions of the atoms in it, and
the last energy, stress tensor and table of forces of the output which are there, times the factors of the user, or else in eV, Angstrom, eV/Angstrom, GPa.
Partial: there must be nothing unusual two lines before the message about the restart file, see `C133_restart_counterexample`. -/
theorem C133_struct_partial (h : IsCpmdScf num d fs) (hr : RestartAfterStep fs.out) (c : Consts K) (hist : List (Kind × UDict K)) (user : UDict K)
    (g : Getters K (PwRead.Val K)) (hg : ∀ o, g.attr o .coords = getCoords o) :
    ∃ st, readCpmdScf c hist user g num fs = .ok st ∧
      st.attr (.other "symbols") = some (.words d.symbols) ∧ st.attr (.other "natoms") = some (.nat d.symbols.length) ∧
      st.attr .cell = some (.mat (d.cell.map fun r => r.map (· * (user .length).getD (c.Bohr / c.Ang)))) ∧
      st.attr (.other "coords_frac") = some (.mat d.frac) ∧
      st.attr .coords = some (.mat (d.frac.map fun r => (cartesian d.cell r).map (· * (user .length).getD (c.Bohr / c.Ang)))) ∧
      (∀ e, d.etot = some e → st.attr .etot = some (.num (e * (user .energy).getD (c.Ha / c.eV)))) ∧
      (∀ f, d.forces = some f → st.attr .forces = some (.mat (f.map fun r => r.map (· * (user .forces).getD (c.Ha / c.eV * c.Ang / c.Bohr))))) ∧
      ∀ s, d.stress = some s → st.attr .stress = some (.mat (s.map fun r => r.map (· * (user .stress).getD (1 / 10)))) := by
  obtain ⟨attrs, hp, h1, h2, h3, h4, h5, h6, h7, h8⟩ := parse_eq h hr
  obtain ⟨st, p, o, hgc, ho, hst⟩ := getCont_fill attrs (create c (after c hist) .cpmdScf user).2 g
  have u : ∀ q, q = .length ∨ q = .energy ∨ q = .forces ∨ q = .stress →
      (create c (after c hist) .cpmdScf user).2 q = (user q).getD (factor c .cpmdScf q) := fun q hq =>
    ReadMd.units_of c hist .cpmdScf user q (by simpa [returns] using hq) (by simp)
  have u1 := u .length (by simp)
  have u2 := u .energy (by simp)
  have u3 := u .forces (by simp)
  have u4 := u .stress (by simp)
  simp only [factor] at u1 u2 u3 u4
  have set : ∀ a v, attrs a = some v → o.attr a = some (v.scale (unitFactor (create c (after c hist) .cpmdScf user).2 a)) := fun a v e => by
    rw [ho a, e, Option.map_some]
  have got : ∀ a v, attrs a = some v → st.attr a = some (v.scale (unitFactor (create c (after c hist) .cpmdScf user).2 a)) := fun a v e => by
    rw [hst a, set a v e, Option.some_or]
  refine ⟨st, ?_, got _ _ h4, got _ _ h5, ?_, ?_, ?_, fun e he => ?_, fun f hf => ?_, fun s hs => ?_⟩
  · unfold readCpmdScf
    rw [hp]
    simp only [hgc]
  · rw [got _ _ h1]
    simp only [unitFactor, PwRead.Val.scale, u1]
  · rw [got _ _ h3]
    simp [unitFactor, PwRead.Val.scale]
  · have e0 : o.attr .coords = none := by rw [ho, h2]; rfl
    rw [hst, e0, Option.none_or, hg]
    unfold getCoords
    rw [e0, set _ _ h3, set _ _ h1]
    simp only [unitFactor, PwRead.Val.scale, u1]
    rw [dot_eq _ _ _ h.cell33 (frac3 h)]
  · rw [got .etot _ (h6.trans (by rw [he]; rfl))]
    simp only [unitFactor, PwRead.Val.scale, u2]
  · rw [got .forces _ (h8.trans (by rw [hf]; rfl))]
    simp only [unitFactor, PwRead.Val.scale, u3]
  · rw [got .stress _ (h7.trans (by rw [hs]; rfl))]
    simp only [unitFactor, PwRead.Val.scale, u4]

/-- **C133**, disagreement: two lines before the message about the restart file stands a line which does not begin with an integer (a message, a warning):
nothing of the calculation can be read, although only the number of iterations, which is no attribute of the result, is searched there. -/
theorem C133_restart_counterexample (h : IsCpmdScf num d fs) (A B : List Text) (l x hd w : Text) (ws : List Text) (e : fs.out = A ++ l :: x :: hd :: B)
    (hp : HasText "RESTART INFORMATION WRITTEN".toList hd) (hn : ∀ y ∈ A ++ [l, x], ¬ HasText "RESTART INFORMATION WRITTEN".toList y)
    (hw : splitWs l = w :: ws) (hi : parseInt w = none) (c : Consts K) (hist : List (Kind × UDict K)) (user : UDict K) (g : Getters K (PwRead.Val K)) :
    readCpmdScf c hist user g num fs = .error (.inl .value) := by
  have hm : nstepScf fs.out = .error .value := by
    unfold nstepScf
    rw [e, before2_eq _ A B l x hd (fun y hy => Lmp.has_false (hn y hy)) ((Lmp.has_iff _ _).2 hp)]
    unfold intTxt
    simp only [List.map_cons, List.map_nil, List.flatMap_cons, List.flatMap_nil, List.append_nil, first_word, hw, List.headD_cons,
      word_split l w (by rw [hw]; simp), hi]
  obtain ⟨n, hn⟩ := points_run h
  unfold readCpmdScf parse
  simp only [scale_run h, stress_run h, etot_run h, forces_run h, hn, hm, Except.bind]

omit [Field K] [DecidableEq K] in
theorem lastRows_twice {A : Type} {Title : Text → Prop} {Row : Text → A → Prop} {out : List Text} {v : Option (List A)} (h : LastRows Title Row out v) :
    LastRows Title Row (out ++ out) v := by
  cases v with
  | none =>
    intro l hl
    exact h l (by simpa using hl)
  | some v =>
    obtain ⟨pre, hd, R, post, e, h1, h2, h3⟩ := h
    refine ⟨out ++ pre, hd, R, post, ?_, h1, h2, h3⟩
    rw [List.append_assoc, ← e]

/-- **C133**, disagreement: the output of a second calculation appended to the file (the same calculation here) makes it unreadable if k points are
printed. -/
theorem C133_appended_counterexample (h : IsCpmdScf num d fs) (A B : List Text) (l : Text) (e : fs.out = A ++ l :: B) (hl : SpecialPoints l)
    (hn : ∀ x ∈ A ++ B, ¬ HasText "NUMBER OF SPECIAL K POINTS".toList x) (c : Consts K) (hist : List (Kind × UDict K)) (user : UDict K)
    (g : Getters K (PwRead.Val K)) : readCpmdScf c hist user g num { fs with out := fs.out ++ fs.out } = .error (.inl .value) := by
  have hk : nkpoints (fs.out ++ fs.out) = .error .value := by
    obtain ⟨n, hs⟩ := sedPoints_line l hl
    unfold nkpoints
    rw [List.filter_append, e, CpmdRead.filter_only _ A B l (fun x hx => Lmp.has_false (hn x hx)) ((Lmp.has_iff _ _).2 hl.1)]
    unfold intTxt
    simp only [List.cons_append, List.nil_append, List.map_cons, List.map_nil, List.flatMap_cons, List.flatMap_nil, hs, strNat_word]
  have he : LastEnergy num (fs.out ++ fs.out) d.etot := by
    have := h.etot
    cases hv : d.etot with
    | none =>
      rw [hv] at this
      intro l hl
      exact this l (by simpa using hl)
    | some x =>
      rw [hv] at this
      obtain ⟨A, l, B, w, e, h1⟩ := this
      refine ⟨fs.out ++ A, l, B, w, ?_, h1⟩
      rw [List.append_assoc, ← e]
  have hf : getForces num { fs with out := fs.out ++ fs.out } = .ok d.forces := by
    unfold getForces
    rw [show natoms { fs with out := fs.out ++ fs.out } = natoms fs from rfl, natoms_run h]
    exact forces_of (by simpa using h.atoms0) (lastRows_twice h.forces.1) h.forces.2
  have hs : scaleFile num { fs with out := fs.out ++ fs.out } = scaleFile num fs := rfl
  unfold readCpmdScf parse
  simp only [hs, scale_run h, stress_of (lastRows_twice h.stress.1) h.stress.2, etot_of he, hf, hk, Except.bind]

/-- **C133** Without the file `GEOMETRY`, `GEOMETRY.scale` cannot be used: an exception, not a structure without atoms. -/
theorem C133_no_geometry (hg : fs.geometry = none) (f : List Text) (hs : fs.scale = some f) (x : Option (List (List K))) (hx : Scf.scaleCell num f = .ok x)
    (c : Consts K) (hist : List (Kind × UDict K)) (user : UDict K) (g : Getters K (PwRead.Val K)) :
    readCpmdScf c hist user g num fs = .error (.inl .assertion) := by
  unfold readCpmdScf parse scaleFile natoms
  simp only [hg, hs, hx, Except.bind, Option.map_none]

end

/-! ## a concrete calculation -/

def exOut : List Text := [" NUMBER OF SPECIAL K POINTS (IN CARTESIAN COORDINATES):     4", " TOTAL ENERGY = -6 A.U. (start)", "   1  0.1  -6", "   2  0.01 -7", "",
  " RESTART INFORMATION WRITTEN ON FILE ./RESTART.1", " (K+E1+L+N+X)           TOTAL ENERGY =  -7 A.U.", "  ATOM     COORDINATES      GRADIENTS", "  1  H  0 1 2   3 -1 4",
  " TOTAL STRESS TENSOR (kB):", "  10 0 0", "  0 20 0", "  0 0 30", " END"].map String.toList

def exFiles : Files := ⟨exOut, some CpmdRead.exGeo, some CpmdRead.exScale⟩

def exData : CpmdScfData Rat where
  symbols := ["H".toList]
  cell := [[1, 0, 0], [0, 2, 0], [0, 0, 3]]
  frac := [[0, 1, 2]]
  etot := some (-7)
  stress := some [[10, 0, 0], [0, 20, 0], [0, 0, 30]]
  forces := some [[3, -1, 4]]

theorem no3 (ls : List Text) (h : ∀ l ∈ ls, Scf.isAtomHead l = false) : ∀ l ∈ ls, ¬ HasSpaced3 "ATOM".toList "COORDINATES".toList "GRADIENTS".toList l := by
  intro l hl hc
  rw [← Scf.atomHead_iff, h l hl] at hc
  cases hc

theorem exRun : IsCpmdScf Lmp.exNum exData exFiles where
  atoms0 := by decide
  geometry := ⟨_, rfl, CpmdRead.exGeo_is⟩
  cell33 := by decide
  scale := ⟨_, rfl, CpmdRead.exRun.scale _ rfl⟩
  etot := ⟨exOut.take 6, " (K+E1+L+N+X)           TOTAL ENERGY =  -7 A.U.".toList, exOut.drop 7, "-7".toList, rfl,
    ⟨" (K+E1+L+N+X)           ".toList, "  -7 A.U.".toList, by decide +kernel⟩, CpmdRead.no_text _ _ (by decide +kernel), by decide +kernel, by decide +kernel⟩
  stress := by
    refine ⟨⟨exOut.take 9, " TOTAL STRESS TENSOR (kB):".toList, ["  10 0 0".toList, "  0 20 0".toList, "  0 0 30".toList], [" END".toList], rfl,
      ⟨" ".toList, " (kB):".toList, by decide +kernel⟩, CpmdRead.no_text _ _ (by decide +kernel), ?_⟩, ?_⟩
    · exact .cons (by unfold NumLine; decide +kernel) (.cons (by unfold NumLine; decide +kernel) (.cons (by unfold NumLine; decide +kernel) .nil))
    · intro s hs
      injection hs with hs
      subst hs
      decide
  forces := by
    refine ⟨⟨exOut.take 7, "  ATOM     COORDINATES      GRADIENTS".toList, ["  1  H  0 1 2   3 -1 4".toList], exOut.drop 9, rfl,
      ⟨"  ".toList, 4, 5, [], by decide +kernel⟩, no3 _ (by decide +kernel), ?_⟩, ?_⟩
    · exact .cons ⟨[0, 1, 2], by decide +kernel, by decide +kernel⟩ .nil
    · intro s hs
      injection hs with hs
      subst hs
      decide
  kpoints := .inr ⟨[], _, exOut.tail, rfl, ⟨⟨" ".toList, " (IN CARTESIAN COORDINATES):     4".toList, by decide +kernel⟩,
    " NUMBER OF SPECIAL K POINTS (IN CARTESIAN ".toList, "     ".toList, 4, [], by decide +kernel, by unfold BlankText; decide +kernel, by simp, by simp⟩,
    CpmdRead.no_text _ _ (by decide +kernel)⟩

theorem exRestart : RestartAfterStep exFiles.out :=
  .inr ⟨exOut.take 3, "   2  0.01 -7".toList, [], " RESTART INFORMATION WRITTEN ON FILE ./RESTART.1".toList, exOut.drop 6, rfl,
    ⟨" ".toList, " ON FILE ./RESTART.1".toList, by decide +kernel⟩, CpmdRead.no_text _ _ (by decide +kernel),
    .inr ⟨2, ["0.01".toList, "-7".toList], by decide +kernel⟩⟩

/-- Non-vacuity of C133: the last energy, the position in Angstrom (Bohr = 2 here). -/
example (g : Getters Rat (PwRead.Val Rat)) (hg : ∀ o, g.attr o .coords = getCoords o) (hist : List (Kind × UDict Rat)) (c : Consts Rat) :
    ∃ st, readCpmdScf c hist (fun q => if q = .length then some 2 else some 1) g Lmp.exNum exFiles = .ok st ∧
      st.attr .coords = some (.mat [[0, 4, 12]]) ∧ st.attr .etot = some (.num (-7)) ∧ st.attr .forces = some (.mat [[3, -1, 4]]) := by
  obtain ⟨st, t0, -, -, -, -, t1, t2, t3, -⟩ := C133_struct_partial exRun exRestart c hist (fun q => if q = .length then some 2 else some 1) g hg
  refine ⟨st, t0, t1.trans ?_, (t2 _ rfl).trans ?_, (t3 _ rfl).trans ?_⟩
  · rw [if_pos rfl, Option.getD_some, (by decide +kernel : (exData.frac.map fun r => (cartesian exData.cell r).map (· * 2)) = [[0, 4, 12]])]
  · rw [if_neg (by decide), Option.getD_some, (by decide +kernel : (-7 * 1 : Rat) = -7)]
  · rw [if_neg (by decide), Option.getD_some, (by decide +kernel : (([[3, -1, 4]] : List (List Rat)).map fun r => r.map (· * 1)) = [[3, -1, 4]])]

end Pwtools.CpmdScfRead
