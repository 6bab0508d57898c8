import Verif.Model.PwMd
import Verif.Spec.PwMd
import Verif.Props.PwRead
/-!
# C127: `read_pw_md`
-/
namespace Pwtools.PwMd
open Gr Scf PwHead Tr Units Spec

variable {K : Type}

theorem mem_occ (w : Text) (hw : w ≠ []) (l : Text) (p : Text × Text) : p ∈ occ w l ↔ l = p.1 ++ w ++ p.2 := by
  induction l generalizing p with
  | nil =>
    simp only [occ, List.not_mem_nil, false_iff]
    intro h
    have := congrArg List.length h
    simp at this
    exact hw (List.length_eq_zero_iff.1 (by omega))
  | cons c t ih =>
    obtain ⟨a, b⟩ := p
    simp only [occ, List.mem_append, List.mem_map, Prod.exists]
    constructor
    · rintro (h | ⟨a', b', h, e⟩)
      · split_ifs at h with hp
        · obtain ⟨rest, hr⟩ := List.isPrefixOf_iff_prefix.1 hp
          simp only [List.mem_singleton, Prod.mk.injEq] at h
          obtain ⟨rfl, rfl⟩ := h
          simp [← hr]
        · simp at h
      · simp only [Prod.mk.injEq] at e
        obtain ⟨rfl, rfl⟩ := e
        rw [(ih (a', b')).1 h]
        rfl
    · intro h
      cases a with
      | nil =>
        left
        simp only [List.nil_append] at h
        rw [if_pos (List.isPrefixOf_iff_prefix.2 ⟨b, h.symm⟩), h]
        simp
      | cons x a =>
        right
        simp only [List.cons_append, List.cons.injEq] at h
        obtain ⟨rfl, h⟩ := h
        exact ⟨a, b, (ih (a, b)).2 h, rfl⟩

theorem blanks_then (b : Text) : (b.dropWhile (· = ' ')).head? = some '=' ↔ ∃ i r, b = List.replicate i ' ' ++ '=' :: r := by
  induction b with
  | nil => simp
  | cons c b ih =>
    by_cases hc : c = ' '
    · subst hc
      rw [List.dropWhile_cons_of_pos (by simp), ih]
      constructor
      · rintro ⟨i, r, rfl⟩
        exact ⟨i + 1, r, by simp [List.replicate_succ]⟩
      · rintro ⟨i, r, h⟩
        cases i with
        | zero => simp at h
        | succ i => exact ⟨i, r, by simpa [List.replicate_succ] using h⟩
    · rw [List.dropWhile_cons_of_neg (by simpa using hc)]
      constructor
      · intro h
        simp only [List.head?_cons, Option.some.injEq] at h
        exact ⟨0, b, by simp [h]⟩
      · rintro ⟨i, r, h⟩
        cases i with
        | zero => simp at h; simp [h.1]
        | succ i => simp [List.replicate_succ] at h; exact absurd h.1 hc

theorem isTemp_iff (l : Text) : isTemp l = true ↔ TempLike l := by
  unfold isTemp TempLike
  rw [List.any_eq_true]
  constructor
  · rintro ⟨⟨a, b⟩, h, hb⟩
    rw [mem_occ _ (by decide)] at h
    obtain ⟨i, r, rfl⟩ := (blanks_then b).1 (by simpa using hb)
    exact ⟨a, r, i, h⟩
  · rintro ⟨a, b, i, h⟩
    refine ⟨(a, List.replicate i ' ' ++ '=' :: b), (mem_occ _ (by decide) _ _).2 h, ?_⟩
    simpa using (blanks_then _).2 ⟨i, b, rfl⟩

theorem blank_no {x : Text} (hx : BlankText x) {c : Char} (hc : isPySpace c = false) : c ∉ x := fun hm => by
  rw [hx c hm] at hc
  exact absurd hc (by decide)

theorem dropWhile_of {p : Char → Bool} (t d : Text) (ht : ∀ x ∈ t, p x = true) (hd : ∀ x, d.head? = some x → p x = false) :
    (t ++ d).dropWhile p = d := by
  induction t with
  | nil =>
    cases d with
    | nil => rfl
    | cons x d => rw [List.nil_append, List.dropWhile_cons_of_neg (by rw [hd x rfl]; simp)]
  | cons x t ih =>
    rw [List.cons_append, List.dropWhile_cons_of_pos (ht x (by simp))]
    exact ih fun y hy => ht y (by simp [hy])

theorem numChar_noK : ¬ NumChar 'K' := by
  rw [← floatChar_iff]
  decide +kernel

theorem temp_line (num : Text → Option K) (l : Text) (x : K) (h : TempLine num l x) : (splitWs (sedTemp l)).map num = [some x] ∧ isTemp l = true := by
  obtain ⟨a, i, s, w, t, u, rfl, hs, hw, hn, ht, hu, hx⟩ := h
  refine ⟨?_, (isTemp_iff _).2 ⟨a, _, i, rfl⟩⟩
  have hne : '=' ∉ s ++ w ++ t ++ 'K' :: u := by
    simp only [List.mem_append, List.mem_cons, not_or]
    exact ⟨⟨⟨blank_no hs (by decide), fun hm => numChar_noEq (hn _ hm)⟩, blank_no ht (by decide)⟩, by decide, blank_no hu (by decide)⟩
  have hwh : ∀ c, (w ++ (t ++ 'K' :: u)).head? = some c → isPySpace c = false := by
    intro c hc
    cases w with
    | nil => exact absurd rfl hw
    | cons y w =>
      simp only [List.cons_append, List.head?_cons, Option.some.injEq] at hc
      exact hc ▸ numChar_noBlank y (hn y (by simp))
  have hkh : ∀ c, (t ++ 'K' :: u).head? = some c → floatChar c = false := by
    intro c hc
    cases t with
    | nil =>
      simp only [List.nil_append, List.head?_cons, Option.some.injEq] at hc
      exact hc ▸ by decide +kernel
    | cons y t =>
      simp only [List.cons_append, List.head?_cons, Option.some.injEq] at hc
      subst hc
      by_contra hf
      have := numChar_noBlank y ((floatChar_iff y).1 (by simpa using hf))
      rw [ht y (by simp)] at this
      cases this
  have e : sedTemp (a ++ "temperature".toList ++ (List.replicate i ' ' ++ '=' :: (s ++ w ++ t ++ 'K' :: u))) = w ++ u := by
    unfold sedTemp
    rw [show a ++ "temperature".toList ++ (List.replicate i ' ' ++ '=' :: (s ++ w ++ t ++ 'K' :: u)) =
      (a ++ "temperature".toList ++ List.replicate i ' ') ++ '=' :: (s ++ w ++ t ++ 'K' :: u) by simp, show "=".toList = ['='] from rfl,
      lastOcc_char '=' _ _ _ (w ++ u) hne]
    · rfl
    · have e1 : (s ++ w ++ t ++ 'K' :: u).dropWhile isPySpace = w ++ (t ++ 'K' :: u) := by
        rw [show s ++ w ++ t ++ 'K' :: u = s ++ (w ++ (t ++ 'K' :: u)) by simp]
        exact dropWhile_of _ _ hs hwh
      have e2 : (w ++ (t ++ 'K' :: u)).takeWhile floatChar = w := takeWhile_of _ _ (fun c hc => (floatChar_iff c).2 (hn c hc)) hkh
      have e3 : (w ++ (t ++ 'K' :: u)).dropWhile floatChar = t ++ 'K' :: u := dropWhile_of _ _ (fun c hc => (floatChar_iff c).2 (hn c hc)) hkh
      have e4 : (t ++ 'K' :: u).dropWhile isPySpace = 'K' :: u := dropWhile_of _ _ ht (by simp; decide)
      simp only [e1, e2, e3, e4]
      rw [if_pos]
      simp only [Bool.and_eq_true, isInfix_iff_append]
      refine ⟨⟨a, "erature".toList ++ List.replicate i ' ', ?_⟩, ?_⟩
      · have : "temperature".toList = "temp".toList ++ "erature".toList := by decide +kernel
        rw [this]
        simp
      · cases w with
        | nil => exact absurd rfl hw
        | cons => rfl
  rw [e, ← List.nil_append w, splitWs_word [] w u (by simp [BlankText]) ⟨hw, fun c hc => numChar_noBlank c (hn c hc)⟩ hu]
  simp [hx]

/-- Later occurrences of a word lie in what follows, or overlap. -/
theorem later_step (rest p q pre : Text) (h : pre ++ ("step".toList ++ rest) = p ++ ("step".toList ++ q)) (hl : pre.length < p.length) :
    ∃ a, rest = a ++ "step".toList ++ q := by
  rw [List.append_eq_append_iff] at h
  have e : "step".toList = ['s', 't', 'e', 'p'] := by decide +kernel
  rcases h with ⟨m, hm, h⟩ | ⟨m, hm, _⟩
  · rw [e] at h ⊢
    match m, h with
    | [], _ => simp [hm] at hl
    | [a], h => simp at h
    | [a, b], h => simp at h
    | [a, b, c], h => simp at h
    | a :: b :: c :: d :: m, h =>
      simp only [List.cons_append, List.nil_append, List.cons.injEq] at h
      exact ⟨m, by simpa using h.2.2.2.2⟩
  · rw [hm] at hl
    simp at hl

theorem time_line (num : Text → Option K) (l : Text) (x : K) (h : TimeLine num l x) : floatTxt num [sedStep l] = .ok (some x) := by
  obtain ⟨-, p, s, t, w, v, u, rfl, hs, hs0, ht, ht0, hw, hsw, hv, hau, hst, hx⟩ := h
  have hh : ∀ c, (w ++ (v ++ ("a.u.".toList ++ u))).head? = some c → isPySpace c = false := by
    intro c hc
    cases w with
    | nil => exact absurd rfl hw.1
    | cons y w =>
      simp only [List.cons_append, List.head?_cons, Option.some.injEq] at hc
      exact hc ▸ hw.2 y (by simp)
  have hbefore : beforeAu (w ++ (v ++ ("a.u.".toList ++ u))) = some (w ++ v) := by
    unfold beforeAu
    have e : "a.u.".toList = ['a', '.', 'u', '.'] := by decide +kernel
    rw [e, show "a".toList = ['a'] from rfl, show w ++ (v ++ (['a', '.', 'u', '.'] ++ u)) = (w ++ v) ++ 'a' :: ('.' :: 'u' :: '.' :: u) by simp]
    apply lastOcc_char
    · simp [hau]
    · rfl
  have e : sedStep (p ++ ("step".toList ++ (s ++ '=' :: (t ++ (w ++ (v ++ ("a.u.".toList ++ u))))))) = w ++ v := by
    unfold sedStep
    rw [lastOcc_eq "step".toList (by decide) _ p (s ++ '=' :: (t ++ (w ++ (v ++ ("a.u.".toList ++ u))))) (w ++ v)]
    · rfl
    · rw [dropWhile_of s _ hs (by simp; decide)]
      simp only
      rw [if_pos, dropWhile_of t _ ht hh, hbefore]
      constructor
      · cases s with
        | nil => exact absurd rfl hs0
        | cons y s => simp [hs y (by simp)]
      · cases t with
        | nil => exact absurd rfl ht0
        | cons y t => simp [ht y (by simp)]
    · intro a b hab hlen
      exfalso
      obtain ⟨y, hy⟩ := later_step _ _ _ _ hab hlen
      have e : "step".toList = ['s', 't', 'e', 'p'] := by decide +kernel
      have ea : "a.u.".toList = ['a', '.', 'u', '.'] := by decide +kernel
      have hno : 's' ∉ s ++ '=' :: (t ++ (w ++ (v ++ "a.u.".toList))) := by
        rw [ea]
        simp only [List.mem_append, List.mem_cons, not_or]
        refine ⟨blank_no hs (by decide), by decide, blank_no ht (by decide), hsw, blank_no hv (by decide), by decide⟩
      have hy' : (s ++ '=' :: (t ++ (w ++ (v ++ "a.u.".toList)))) ++ u = y ++ ("step".toList ++ b) := by
        rw [← List.append_assoc y, ← hy]
        simp
      rw [List.append_eq_append_iff] at hy'
      rcases hy' with ⟨m, _, hm⟩ | ⟨m, hm1, hm2⟩
      · exact hst m b (by rw [hm]; simp)
      · cases m with
        | nil => exact hst [] b (by simpa using hm2.symm)
        | cons z m =>
          rw [e] at hm2
          simp only [List.cons_append, List.cons.injEq] at hm2
          exact hno (by rw [hm1, ← hm2.1]; simp)
  apply floatTxt_one num _ w x _ hx
  rw [e, ← List.nil_append w]
  exact splitWs_word [] w v (by simp [BlankText]) hw hv

theorem interleaved_none {α : Type} {P : Text → α → Prop} {Q : Text → Prop} (p : Text → Bool) {file : List Text}
    (h : Interleaved P Q file []) (hP : ∀ l x, P l x → p l = true) (hQ : ∀ l, Q l → p l = false) : file.filter p = [] := by
  have := interleaved_filter p h hP hQ
  rwa [List.forall₂_nil_right_iff] at this

theorem arr1d_inter {P : Text → K → Prop} {Q : Text → Prop} (num : Text → Option K) (p : Text → Bool) (f : Text → List Text) {file : List Text} {xs : List K}
    (h : Interleaved P Q file xs) (hP : ∀ l x, P l x → p l = true ∧ (f l).map num = [some x]) (hQ : ∀ l, Q l → p l = false) :
    arr1d num ((file.filter p).map f) = .ok (if xs = [] then none else some xs) := by
  by_cases h0 : xs = []
  · subst h0
    rw [interleaved_none p h (fun l x hx => (hP l x hx).1) hQ]
    rfl
  · rw [if_neg h0]
    apply arr1d_words _ _ _ _ h0
    rw [List.forall₂_map_left_iff]
    exact (interleaved_filter p h (fun l x hx => (hP l x hx).1) hQ).imp fun l x hx => (hP l x hx).2

theorem time_iff (l : Text) : hasSeq ["Time".toList, "step".toList] l = true ↔ TimeLike l := by
  unfold TimeLike
  simp only [hasSeq_cons]
  constructor
  · rintro ⟨a, _, rfl, b, c, rfl, _⟩
    exact ⟨a, b, c, rfl⟩
  · rintro ⟨a, b, c, rfl⟩
    exact ⟨a, _, rfl, b, c, rfl, rfl⟩

/-- **C127** Temperatures, kinetic energies and the time step of a run are those in the lines about them, in order. -/
theorem C127_tables (num : Text → Option K) (file : List Text) (ekins temps : List K)
    (he : Interleaved (fun l e => EkinIonLike l ∧ Row num [5] l [e]) (fun l => ¬ EkinIonLike l) file ekins)
    (ht : Interleaved (TempLine num) (fun l => ¬ TempLike l) file temps) :
    getEkin num file = .ok (if ekins = [] then none else some ekins) ∧ getTemperature num file = .ok (if temps = [] then none else some temps) ∧
    (∀ dt, FirstLine TimeLike (TimeLine num) file dt → getTimestep num file = .ok (some dt)) ∧
    ((∀ l ∈ file, ¬ TimeLike l) → getTimestep num file = .ok none) := by
  have htime := time_iff
  refine ⟨?_, ?_, ?_, ?_⟩
  · exact arr1d_inter num _ _ he (fun l x hx => ⟨(isInfix_iff_append _ _).2 hx.1, by simpa using awk_row num _ l _ hx.2⟩) fun l hl => infix_false hl
  · exact arr1d_inter num _ _ ht (fun l x hx => (temp_line num l x hx).symm) fun l hl => bfalse (isTemp_iff l) hl
  · rintro dt ⟨A, l, B, rfl, hA, hl⟩
    unfold getTimestep
    rw [find_first _ A B l (fun a ha => bfalse (htime a) (hA a ha)) ((htime l).2 hl.1)]
    exact time_line num l dt hl
  · intro h
    unfold getTimestep
    rw [find_none _ file fun a ha => bfalse (htime a) (h a ha)]
    rfl

section
variable [Field K] {num : Text → Option K} {a : K} {cell : List (List K)} {atoms : List (Text × List K)} {start : List (Block K)}
  {steps : List (PwStep K)} {unit : Text} {ekins temps : List K} {dt : K} {file : List Text}

/-- A step as in C87. -/
def tup (x : PwStep K) : List (Block K) × List (List K) × K × List (List K) × List (List K) := (x.blocks, x.pos, x.energy, x.forces, x.stress)

theorem tup_blocks (steps : List (PwStep K)) : (steps.map tup).flatMap Prod.fst = steps.flatMap PwStep.blocks := by
  rw [List.flatMap_map]
  rfl

theorem aligned (h : IsPwMd num a cell atoms start steps unit ekins temps dt file) :
    PwOut.coordsRaw num file = .ok (some (steps.map PwStep.pos)) ∧ PwOut.getEtot num file = .ok (some (steps.map PwStep.energy)) ∧
    PwOut.getForces num file = .ok (some (steps.map fun x => x.forces.take atoms.length)) ∧
    PwOut.getStress num file = .ok (some (steps.map PwStep.stress)) ∧
    (start ++ steps.flatMap PwStep.blocks).filterMap Block.pos? = steps.map PwStep.pos := by
  obtain ⟨e, f, s, h0, m, hm, hf, hfs⟩ := h.first
  have hna : 0 < atoms.length := List.length_pos_of_ne_nil h.atoms0
  have hs : ∀ x ∈ steps.map tup, IsPwStep (some x.2.1) x.2.2.1 x.2.2.2.1 x.2.2.2.2 x.1 := by
    intro x hx
    obtain ⟨y, hy, rfl⟩ := List.mem_map.1 hx
    exact h.each y hy
  have ho := h.out
  rw [← tup_blocks] at ho
  have := PwOut.C87_aligned_partial m hna hm start e f s h0 (steps.map tup) hs (by simpa using h.some') ho hf (by
    intro x hx
    obtain ⟨y, hy, rfl⟩ := List.mem_map.1 hx
    exact hfs y hy)
  have hp := (PwOut.step_lists start e f s h0 (steps.map tup) hs).1
  rw [tup_blocks] at hp
  simp only [List.map_map] at this hp
  exact ⟨this.1, this.2.1, this.2.2.1, this.2.2.2, hp⟩

/-- The getters on such a file, except for the positions and the cell. -/
theorem parseWith_eq (h : IsPwMd num a cell atoms start steps unit ekins temps dt file) (c : Consts K) (useAlat : Bool) (co cf : Option (List (List (List K))))
    (cl : PwOut.CellRes K) (ek te : Option (List K))
    (hco : PwOut.getCoords num c.Ang c.Bohr (some (if useAlat then a else 1)) file = .ok co) (hcf : PwOut.getCoordsFrac num file = .ok cf)
    (hcl : getCell c num useAlat (some (if useAlat then a else 1)) file = .ok (some cl)) :
    ∃ attrs, parseWith c num useAlat file (.ok ek) (.ok te) = .ok attrs ∧ attrs .coords = co.map .arr ∧ attrs (.other "coords_frac") = cf.map .arr ∧
      attrs .cell = some (cellVal cl) ∧
      attrs .etot = some (.vec (steps.map PwStep.energy)) ∧ attrs .forces = some (.arr (steps.map fun x => x.forces.take atoms.length)) ∧
      attrs .stress = some (.arr (steps.map PwStep.stress)) ∧ attrs .ekin = ek.map .vec ∧
      attrs .temperature = te.map .vec ∧ attrs .timestep = some (.num dt) ∧
      attrs (.other "symbols") = some (.words (atoms.map (·.1))) ∧ attrs (.other "natoms") = some (.nat atoms.length) := by
  have hn := PwOut.natoms_file h.out
  have ha : PwHead.alat num useAlat file = .ok (some (if useAlat then a else 1)) := by
    cases useAlat
    · rfl
    · obtain ⟨A, l, B, rfl, hA, hl⟩ := h.alatLine
      exact (C119_alat num A B l a hA hl).1
  have hsy : getSymbols num file = .ok (atoms.map (·.1)) := by
    obtain ⟨A, hd, R, B, rfl, hA, hh, hr⟩ := h.atomRows
    exact (C119_coords num useAlat A R B hd atoms _ hA hh h.atoms0 hr h.atoms3 hn ha).2
  have hpt : ∃ x, nkpoints file = .ok x := by
    rcases h.points with hp | ⟨n, A, l, B, rfl, hA, hl⟩
    · refine ⟨none, ?_⟩
      unfold nkpoints
      rw [find_none _ file fun l hl => infix_false (hp l hl)]
    · exact ⟨_, (C119_nkpoints A B l n hA hl).1⟩
  have hit : ∃ x, nstepScfRaw file = .ok x := by
    obtain ⟨ns, hns⟩ := h.iters
    by_cases h0 : ns = []
    · subst h0
      refine ⟨none, ?_⟩
      unfold nstepScfRaw
      rw [interleaved_none (isInfix "convergence has been achieved in".toList) hns (fun l x hx => (isInfix_iff_append _ _).2 hx.1)
        fun l hl => infix_false hl]
      rfl
    · exact ⟨_, (C120_nstep_scf file ns h0 hns).1⟩
  obtain ⟨x, hx⟩ := hpt
  obtain ⟨y, hy⟩ := hit
  obtain ⟨h1, h2, h3, h4, -⟩ := aligned h
  obtain ⟨-, -, t3, -⟩ := C127_tables num file ekins temps h.ekinLines h.tempLines
  unfold parseWith
  rw [h1, ha]
  simp only [Except.bind]
  rw [hco, hcf, hsy, h4, h2, h3, hy, hcl, hn, hx, t3 dt h.timeLine]
  refine ⟨_, rfl, rfl, ?_, rfl, rfl, rfl, rfl, rfl, rfl, rfl, ?_, ?_⟩
  · simp
  · simp
  · simp

theorem parse_eq (h : IsPwMd num a cell atoms start steps unit ekins temps dt file) (c : Consts K) (useAlat : Bool) (co cf : Option (List (List (List K))))
    (cl : PwOut.CellRes K)
    (hco : PwOut.getCoords num c.Ang c.Bohr (some (if useAlat then a else 1)) file = .ok co) (hcf : PwOut.getCoordsFrac num file = .ok cf)
    (hcl : getCell c num useAlat (some (if useAlat then a else 1)) file = .ok (some cl)) :
    ∃ attrs, parse c num useAlat file = .ok attrs ∧ attrs .coords = co.map .arr ∧ attrs (.other "coords_frac") = cf.map .arr ∧
      attrs .cell = some (cellVal cl) ∧
      attrs .etot = some (.vec (steps.map PwStep.energy)) ∧ attrs .forces = some (.arr (steps.map fun x => x.forces.take atoms.length)) ∧
      attrs .stress = some (.arr (steps.map PwStep.stress)) ∧ attrs .ekin = (if ekins = [] then none else some (.vec ekins)) ∧
      attrs .temperature = (if temps = [] then none else some (.vec temps)) ∧ attrs .timestep = some (.num dt) ∧
      attrs (.other "symbols") = some (.words (atoms.map (·.1))) ∧ attrs (.other "natoms") = some (.nat atoms.length) := by
  obtain ⟨t1, t2, -⟩ := C127_tables num file ekins temps h.ekinLines h.tempLines
  obtain ⟨attrs, p0, p1, p2, p3, p4, p5, p6, p7, p8, p9⟩ := parseWith_eq h c useAlat co cf cl (if ekins = [] then none else some ekins)
    (if temps = [] then none else some temps) hco hcf hcl
  refine ⟨attrs, by unfold parse; rw [t1, t2]; exact p0, p1, p2, p3, p4, p5, p6, ?_, ?_, p9⟩
  · rw [p7]; split <;> rfl
  · rw [p8]; split <;> rfl

end

theorem md_units [Field K] (c : Consts K) (hist : List (Kind × UDict K)) (user : UDict K) (q : Qty) (hq : q ≠ .velocity) :
    (create c (after c hist) .pwMd user).2 q = (user q).getD (factor c .pwMd q) := by
  cases hu : user q with
  | some x => rw [C86_user_units c hist .pwMd user q x hu]; rfl
  | none =>
    rw [Option.getD_none, ← C86_units_partial c hist .pwMd q (by cases q <;> simp_all [returns]) (by simp)]
    simp [create, hu]

instance [Field K] : MulAction K (Val K) where
  one_smul v := by
    show Val.scale 1 v = v
    cases v <;> simp [Val.scale]
  mul_smul a b v := by
    show Val.scale (a * b) v = Val.scale a (Val.scale b v)
    cases v <;> simp [Val.scale, mul_comm a b, mul_assoc]

theorem scale_each [Field K] [DecidableEq K] (units : Qty → K) (attr : UAttr → Option (Val K)) (x : UAttr) :
    scaleUnits units unitsMap attr x = (attr x).map (Val.scale (unitFactor units x)) := by
  show _ = (attr x).map (unitFactor units x • ·)
  have hone : ∀ (q : Qty) (o : Option (Val K)), units q = 1 → o = o.map (units q • ·) := by
    intro q o h
    cases o with
    | none => rfl
    | some v => simp [h]
  simp only [unitsMap, scaleUnits]
  cases x <;> simp only [unitFactor]
  all_goals
    by_cases h1 : units .length = 1 <;> by_cases h2 : units .energy = 1 <;>
    by_cases h3 : units .stress = 1 <;> by_cases h4 : units .forces = 1 <;>
    by_cases h5 : units .temperature = 1 <;> by_cases h6 : units .velocity = 1 <;>
    by_cases h7 : units .time = 1 <;>
    simp [h1, h2, h3, h4, h5, h6, h7, scaleAttrs]

/-- What the container holds in the end. -/
theorem read_attr [Field K] [DecidableEq K] (c : Consts K) (hist : List (Kind × UDict K)) (user : UDict K) (g : Getters K (Val K))
    (num : Text → Option K) (useAlat : Bool) (file : List Text) (attrs : UAttr → Option (Val K)) (hp : parse c num useAlat file = .ok attrs)
    (n : Nat) (hn : (∃ p, attrs .coords = some (.arr p) ∧ p.length = n) ∨
      attrs .coords = none ∧ ∃ p, attrs (.other "coords_frac") = some (.arr p) ∧ p.length = n) :
    ∃ tr, readPwMd c hist user g num useAlat file = .ok tr ∧ tr.attr (.other "nstep") = some (.nat n) ∧
      (∀ x v, x ≠ .cell → x ≠ .other "nstep" → attrs x = some v → tr.attr x = some (v.scale (unitFactor (create c (after c hist) .pwMd user).2 x))) ∧
      ∀ v, attrs .cell = some v → tr.attr .cell = some (extendCell n (v.scale ((create c (after c hist) .pwMd user).2 .length))) := by
  have hx : ∀ attr : UAttr → Option (Val K), attr = scaleUnits (create c (after c hist) .pwMd user).2 unitsMap attrs → nstep attr = some n := by
    intro attr he
    have e := fun x => (congrFun he x).trans (scale_each (create c (after c hist) .pwMd user).2 attrs x)
    unfold nstep
    rw [e .coords, e (.other "coords_frac")]
    rcases hn with ⟨p, h1, h2⟩ | ⟨h0, p, h1, h2⟩
    · rw [h1]
      simp [Val.scale, h2]
    · rw [h0, h1]
      simp [Val.scale, h2]
  have hr : ∃ tr, readPwMd c hist user g num useAlat file = .ok tr ∧ ∀ x v, extend (scaleUnits (create c (after c hist) .pwMd user).2 unitsMap attrs) x = some v →
      tr.attr x = some v := by
    unfold readPwMd
    rw [hp]
    refine ⟨_, rfl, fun x v hv => ?_⟩
    show (extend (scaleUnits _ unitsMap attrs) x).or _ = _
    rw [hv]
    rfl
  obtain ⟨tr, h1, h2⟩ := hr
  have he : extend (scaleUnits (create c (after c hist) .pwMd user).2 unitsMap attrs) = fun a =>
      if a = .cell then (scaleUnits (create c (after c hist) .pwMd user).2 unitsMap attrs .cell).map (extendCell n)
      else if a = .other "nstep" then some (.nat n) else scaleUnits (create c (after c hist) .pwMd user).2 unitsMap attrs a := by
    unfold extend
    rw [hx _ rfl]
  refine ⟨tr, h1, h2 _ _ ?_, fun x v hx1 hx2 hv => h2 _ _ ?_, fun v hv => h2 _ _ ?_⟩
  · rw [he]
    simp
  · rw [he]
    simp only [if_neg hx1, if_neg hx2]
    rw [scale_each, hv]
    rfl
  · rw [he]
    simp only [if_true]
    rw [scale_each, hv]
    rfl

/-- **C127** (one cell). A cell which is in the output only once, as the start cell or as a block, is the cell of all steps. -/
theorem C127_one_cell [Field K] [DecidableEq K] (c : Consts K) (hist : List (Kind × UDict K)) (user : UDict K) (g : Getters K (Val K))
    (num : Text → Option K) (useAlat : Bool) (file : List Text) (attrs : UAttr → Option (Val K)) (hp : parse c num useAlat file = .ok attrs)
    (n : Nat) (hn : (∃ p, attrs .coords = some (.arr p) ∧ p.length = n) ∨
      attrs .coords = none ∧ ∃ p, attrs (.other "coords_frac") = some (.arr p) ∧ p.length = n)
    (m : List (List K)) (h3 : m.length = 3 ∧ ∀ r ∈ m, r.length = 3) (hc : attrs .cell = some (.mat m) ∨ attrs .cell = some (.arr [m])) :
    ∃ tr, readPwMd c hist user g num useAlat file = .ok tr ∧
      tr.attr .cell = some (.arr (List.replicate n (m.map (fun r => r.map (· * (create c (after c hist) .pwMd user).2 .length))))) := by
  obtain ⟨tr, h1, -, -, h2⟩ := read_attr c hist user g num useAlat file attrs hp n hn
  refine ⟨tr, h1, ?_⟩
  have e : ∀ s : K, is33 (m.map (fun r => r.map (· * s))) = true := by
    intro s
    simp [is33, h3.1]
    exact h3.2
  rcases hc with hc | hc
  · rw [h2 _ hc]
    simp only [Val.scale, extendCell, e, if_true]
  · rw [h2 _ hc]
    simp only [Val.scale, extendCell, List.map_cons, List.map_nil, e, if_true]

theorem extend_steps (n : Nat) (cs : List (List (List K))) (h : cs.length = n) : extendCell n (.arr cs) = .arr cs := by
  match cs, h with
  | [], _ => rfl
  | [m], h =>
    simp only [List.length_singleton] at h
    subst h
    simp [extendCell]
  | _ :: _ :: _, _ => rfl

theorem scaled_one [Field K] (cs : List (List (List K))) : scaled 1 cs = cs := by
  simp [scaled]

section
variable [Field K] {num : Text → Option K} {a : K} {cell : List (List K)} {atoms : List (Text × List K)} {start : List (Block K)}
  {steps : List (PwStep K)} {unit : Text} {ekins temps : List K} {dt : K} {file : List Text}

theorem cell_count {na : Nat} {blocks : List (Block K)} (h : IsPwOut num na blocks file) :
    (file.filter (isInfix "CELL_PARAMETERS".toList)).length = (blocks.filterMap Block.cell?).length := by
  show (file.filter (isInfix PwOut.kCell)).length = _
  rw [PwOut.file_eq h, PwOut.filter_pre (isInfix PwOut.kCell) _ _ (PwOut.file_quiet h .cell),
    PwOut.count_rows blocks fun b hb => PwOut.cell_rowBlocks num na b (h.wf b hb), ← PwOut.cellRows_map, List.length_map]

theorem noFactors (useAlat : Bool) (h : ∀ l ∈ file, ¬ FactorLike l) : cellFactors num useAlat file = .ok none := by
  have : file.any (hasSeq ["CELL_PARAMETERS".toList, "alat".toList, "=".toList]) = false := by
    rw [List.any_eq_false]
    intro l hl hc
    rw [Cut.hasSeq_three] at hc
    obtain ⟨u, v, w, x, rfl⟩ := hc
    exact h _ hl ⟨u, v, w, x, rfl⟩
  unfold cellFactors
  rw [this]
  rfl

theorem row3 (v : List K) (l : Text) (h : Row num [4, 5, 6] l v) : v.length = 3 := by
  have := congrArg List.length h
  simpa using this.symm

theorem rows3 {R : List Text} {v : List (List K)} (h : List.Forall₂ (Row num [4, 5, 6]) R v) : ∀ r ∈ v, r.length = 3 := by
  induction h with
  | nil => simp
  | cons h _ ih =>
    intro r hr
    rcases List.mem_cons.1 hr with rfl | hr
    · exact row3 _ _ h
    · exact ih r hr

/-- The cell getter on such a file. -/
theorem cell_eq (h : IsPwMd num a cell atoms start steps unit ekins temps dt file) (c : Consts K) (useAlat : Bool) (cs : List (List (List K)))
    (hc : PwCells num (c.Ang / c.Bohr) a useAlat cell steps.length (start ++ steps.flatMap PwStep.blocks) file cs) :
    ∃ cl, getCell c num useAlat (some (if useAlat then a else 1)) file = .ok (some cl) ∧
      ∀ s, extendCell steps.length ((cellVal cl).scale s) = .arr (scaled s cs) := by
  have hpos : 0 < steps.length := List.length_pos_of_ne_nil h.some'
  have hc3 := PwOut.C87_cell h.out
  have hcnt := cell_count h.out
  generalize start ++ steps.flatMap PwStep.blocks = blocks at *
  have hunit : ∀ u, FirstLine (Matches .cell) (UnitLine "CELL_PARAMETERS".toList) file u → PwOut.headerUnit PwOut.kCell file = u := by
    rintro u ⟨A, l, B, rfl, hA, hl⟩
    exact PwOut.C88_unit _ (Or.inr rfl) A B l u (fun x hx p q e => hA x hx ⟨p, q, e⟩) hl
  have hne : ∀ cs : List (List (List K)), blocks.filterMap Block.cell? = cs → cs.length = steps.length → PwOut.cell3d num file = .ok (some cs) := by
    rintro cs rfl hl
    rw [hc3, if_neg]
    intro e
    rw [e] at hl
    simp at hl
    omega
  have fin : ∀ (s t : K) (cs : List (List (List K))), cs.length = steps.length →
      extendCell steps.length ((cellVal (.steps (PwOut.scale t cs))).scale s) = .arr (scaled s (scaled t cs)) := by
    intro s t cs hl
    show extendCell steps.length (.arr (scaled s (scaled t cs))) = _
    rw [extend_steps _ _ (by simp [scaled, hl])]
  cases hc with
  | fixed h0 =>
    rw [if_pos h0] at hc3
    obtain ⟨A, hd, R, B, hfile, hA, hh, hr⟩ := h.cellRows
    have h2 : cell2d num file = .ok (some cell) := by
      rw [hfile]
      unfold cell2d
      rw [firstBlock_eq 3 isAxes A R B hd (fun l hl => bfalse (isAxes_iff l) (hA l hl)) ((isAxes_iff hd).2 hh) (by rw [hr.length_eq, h.cell3])]
      refine arr2d_words num _ _ 3 (by omega) ?_ ?_ ?_
      · rw [List.forall₂_map_left_iff]
        exact hr.imp fun l v hv => awk_row num _ l _ hv
      · exact rows3 hr
      · intro e
        have := hr.length_eq
        rw [List.map_eq_nil_iff.1 e, h.cell3] at this
        simp at this
    refine ⟨.start (cell.map fun r => r.map (· * if useAlat then a else 1)), ?_, fun s => ?_⟩
    · unfold getCell
      rw [hc3]
      simp only [h2]
      unfold PwOut.getCell
      rw [hc3]
    · have h33 : is33 (cell.map fun r => (r.map (· * if useAlat then a else 1)).map (· * s)) = true := by
        unfold is33
        rw [Bool.and_eq_true, List.all_eq_true]
        refine ⟨by simp [h.cell3], fun r hr' => ?_⟩
        obtain ⟨r', hr'', rfl⟩ := List.mem_map.1 hr'
        simpa using rows3 hr r' hr''
      show extendCell steps.length (.mat ((cell.map fun r => r.map (· * if useAlat then a else 1)).map fun r => r.map (· * s))) = _
      rw [List.map_map]
      show extendCell steps.length (.mat (cell.map fun r => (r.map (· * if useAlat then a else 1)).map (· * s))) = _
      unfold extendCell
      simp only [h33, if_true]
      simp [scaled]
  | bohr _ h1 h2 h3 =>
    refine ⟨.steps cs, ?_, fun s => ?_⟩
    · unfold getCell PwOut.getCell
      rw [hne _ h1 h2, hunit _ h3]
      rfl
    · exact extend_steps _ _ (by simp [h2])
  | angstrom cs h1 h2 h3 =>
    refine ⟨.steps (PwOut.scale (1 / c.Bohr) (PwOut.scale c.Ang cs)), ?_, fun s => ?_⟩
    · unfold getCell PwOut.getCell
      rw [hne _ h1 h2, hunit _ h3]
      rfl
    · rw [PwOut.scale_scale, mul_one_div]
      exact fin _ _ _ h2
  | alat cs u h1 h2 h3 h4 h5 =>
    refine ⟨.steps (PwOut.scale (if useAlat then a else 1) cs), ?_, fun s => fin _ _ _ h2⟩
    unfold getCell PwOut.getCell
    rw [hne _ h1 h2, hunit _ h3]
    simp only
    rw [noFactors useAlat h5]
    rcases h4 with rfl | rfl <;> rfl
  | factors cs fs h1 h2 h3 h4 =>
    have hl : fs.length = cs.length := by
      have := (interleaved_filter (isInfix "CELL_PARAMETERS".toList) h4 (fun l x hx => (factor_line num l x hx).2.1) fun l hl => infix_false hl).length_eq
      rw [← this, hcnt, h1]
    cases useAlat
    · refine ⟨.steps (PwOut.scale 1 cs), ?_, fun s => ?_⟩
      · unfold getCell PwOut.getCell
        rw [hne _ h1 h2, hunit _ h3]
        simp only
        rw [(C120_factors num file fs h4).2]
        rfl
      · rw [fin _ _ _ h2, scaled_one]
        rfl
    · refine ⟨.steps (List.zipWith (fun s m => m.map fun r => r.map (· * s)) fs cs), ?_, fun s => ?_⟩
      · unfold getCell PwOut.getCell
        rw [hne _ h1 h2, hunit _ h3]
        simp only
        have h0 : fs ≠ [] := by
          rintro rfl
          simp at hl
          omega
        rw [(C120_factors num file fs h4).1]
        simp only [h0, if_false, if_true]
        rw [if_neg (by decide)]
        unfold PwOut.scaleSteps
        rw [if_pos hl]
      · exact extend_steps _ _ (by simp [hl, h2])

/-- **C127** `read_pw_md` of the output of a run, whatever parsers have been used before: a trajectory with all structures behind the first one, in
order. Positions, energies, forces, stress tensors and cells with the same index belong together. Positions are converted to Bohr by the unit in the
file (fractional ones are left alone and are in `coords_frac`), everything is multiplied by the unit factors given by the user, or else from Bohr
to Angstrom, Ry to eV, Ry/Bohr to eV/Angstrom, kbar to GPa, Rydberg time to fs. -/
theorem C127_traj [DecidableEq K] (h : IsPwMd num a cell atoms start steps unit ekins temps dt file) (useAlat : Bool)
    (hu : unit ∈ ["bohr".toList, "alat".toList, "angstrom".toList, "crystal".toList])
    (c : Consts K) (hist : List (Kind × UDict K)) (user : UDict K) (g : Getters K (Val K)) (cs : List (List (List K)))
    (hc : PwCells num (c.Ang / c.Bohr) a useAlat cell steps.length (start ++ steps.flatMap PwStep.blocks) file cs) :
    ∃ tr, readPwMd c hist user g num useAlat file = .ok tr ∧
      tr.attr (.other "symbols") = some (.words (atoms.map (·.1))) ∧ tr.attr (.other "natoms") = some (.nat atoms.length) ∧
      tr.attr (.other "nstep") = some (.nat steps.length) ∧
      (unit = "bohr".toList → tr.attr .coords = some (.arr (steps.map fun x => x.pos.map fun r => r.map (· * (user .length).getD (c.Bohr / c.Ang))))) ∧
      (unit = "alat".toList → tr.attr .coords =
        some (.arr (steps.map fun x => x.pos.map fun r => r.map fun v => v * (if useAlat then a else 1) * (user .length).getD (c.Bohr / c.Ang)))) ∧
      (unit = "angstrom".toList → tr.attr .coords =
        some (.arr (steps.map fun x => x.pos.map fun r => r.map fun v => v * (c.Ang / c.Bohr) * (user .length).getD (c.Bohr / c.Ang)))) ∧
      (unit = "crystal".toList → tr.attr (.other "coords_frac") = some (.arr (steps.map PwStep.pos))) ∧
      tr.attr .cell = some (.arr (scaled ((user .length).getD (c.Bohr / c.Ang)) cs)) ∧
      tr.attr .etot = some (.vec (steps.map fun x => x.energy * (user .energy).getD (c.Ry / c.eV))) ∧
      tr.attr .forces = some (.arr (steps.map fun x => (x.forces.take atoms.length).map fun r => r.map (· * (user .forces).getD (c.Ry / c.eV * c.Ang / c.Bohr)))) ∧
      tr.attr .stress = some (.arr (steps.map fun x => x.stress.map fun r => r.map (· * (user .stress).getD (1 / 10)))) ∧
      (ekins ≠ [] → tr.attr .ekin = some (.vec (ekins.map (· * (user .energy).getD (c.Ry / c.eV))))) ∧
      (temps ≠ [] → tr.attr .temperature = some (.vec (temps.map (· * (user .temperature).getD 1)))) ∧
      tr.attr .timestep = some (.num (dt * (user .time).getD (c.tryd / c.fs))) := by
  have hna : 0 < atoms.length := List.length_pos_of_ne_nil h.atoms0
  obtain ⟨cl, hcl, hcl'⟩ := cell_eq h c useAlat cs hc
  obtain ⟨-, -, -, -, hp⟩ := aligned h
  obtain ⟨A, l, B, hfile, hA, hl⟩ := h.unitLine
  obtain ⟨b1, b2, b3, b4, b5⟩ := PwOut.C88_coords_partial h.out hna (by rw [hp]; simpa using h.some') c.Ang c.Bohr (if useAlat then a else 1) A B l unit hfile hA hl
  rw [hp] at b1 b2 b3 b4
  have hcases : ∃ co cf, PwOut.getCoords num c.Ang c.Bohr (some (if useAlat then a else 1)) file = .ok co ∧ PwOut.getCoordsFrac num file = .ok cf ∧
      (unit = "bohr".toList → co = some (steps.map PwStep.pos)) ∧ (unit = "alat".toList → co = some (scaled (if useAlat then a else 1) (steps.map PwStep.pos))) ∧
      (unit = "angstrom".toList → co = some (scaled (c.Ang / c.Bohr) (steps.map PwStep.pos))) ∧
      (unit = "crystal".toList → co = none ∧ cf = some (steps.map PwStep.pos)) := by
    simp only [List.mem_cons, List.not_mem_nil, or_false] at hu
    rcases hu with rfl | rfl | rfl | rfl
    · refine ⟨_, _, b1 rfl, b5 (by decide), fun _ => rfl, fun e => absurd e (by decide), fun e => absurd e (by decide), fun e => absurd e (by decide)⟩
    · refine ⟨_, _, b2 rfl, b5 (by decide), fun e => absurd e (by decide), fun _ => rfl, fun e => absurd e (by decide), fun e => absurd e (by decide)⟩
    · refine ⟨_, _, b3 rfl, b5 (by decide), fun e => absurd e (by decide), fun e => absurd e (by decide), fun _ => rfl, fun e => absurd e (by decide)⟩
    · refine ⟨_, _, (b4 rfl).1, (b4 rfl).2, fun e => absurd e (by decide), fun e => absurd e (by decide), fun e => absurd e (by decide), fun _ => ⟨rfl, rfl⟩⟩
  obtain ⟨co, cf, hco, hcf, u1, u2, u3, u4⟩ := hcases
  obtain ⟨attrs, p0, p1, p2, p3, p4, p5, p6, p7, p8, p9, p10, p11⟩ := parse_eq h c useAlat co cf cl hco hcf hcl
  obtain ⟨tr, t1, t2, t3, t4⟩ := read_attr c hist user g num useAlat file attrs p0 steps.length (by
    simp only [List.mem_cons, List.not_mem_nil, or_false] at hu
    rcases hu with e | e | e | e
    · left; rw [p1, u1 e]; exact ⟨_, rfl, by simp⟩
    · left; rw [p1, u2 e]; exact ⟨_, rfl, by simp [scaled]⟩
    · left; rw [p1, u3 e]; exact ⟨_, rfl, by simp [scaled]⟩
    · right; rw [p1, p2, (u4 e).1, (u4 e).2]; exact ⟨rfl, _, rfl, by simp⟩)
  have f := fun q hq => md_units c hist user q hq
  have f1 := f .length (by decide)
  have f2 := f .energy (by decide)
  have f3 := f .forces (by decide)
  have f4 := f .stress (by decide)
  have f5 := f .temperature (by decide)
  have f6 := f .time (by decide)
  simp only [factor] at f1 f2 f3 f4 f5 f6
  refine ⟨tr, t1, ?_, ?_, t2, fun e => ?_, fun e => ?_, fun e => ?_, fun e => ?_, ?_, ?_, ?_, ?_, fun e => ?_, fun e => ?_, ?_⟩
  · exact t3 _ _ (by simp) (by simp) p10
  · exact t3 _ _ (by simp) (by simp) p11
  · rw [t3 .coords (.arr (steps.map PwStep.pos)) (by simp) (by simp) (by rw [p1, u1 e]; rfl)]
    simp only [unitFactor, Val.scale, f1, List.map_map]
    rfl
  · rw [t3 .coords (.arr (scaled (if useAlat then a else 1) (steps.map PwStep.pos))) (by simp) (by simp) (by rw [p1, u2 e]; rfl)]
    simp only [unitFactor, Val.scale, f1, scaled, List.map_map]
    simp only [Function.comp_def, List.map_map]
  · rw [t3 .coords (.arr (scaled (c.Ang / c.Bohr) (steps.map PwStep.pos))) (by simp) (by simp) (by rw [p1, u3 e]; rfl)]
    simp only [unitFactor, Val.scale, f1, scaled, List.map_map]
    simp only [Function.comp_def, List.map_map]
  · rw [t3 (.other "coords_frac") (.arr (steps.map PwStep.pos)) (by simp) (by simp) (by rw [p2, (u4 e).2]; rfl)]
    simp [unitFactor, Val.scale]
  · rw [t4 _ p3, hcl', f1]
  · rw [t3 _ _ (by simp) (by simp) p4]
    simp only [unitFactor, Val.scale, f2, List.map_map]
    rfl
  · rw [t3 _ _ (by simp) (by simp) p5]
    simp only [unitFactor, Val.scale, f3, List.map_map]
    rfl
  · rw [t3 _ _ (by simp) (by simp) p6]
    simp only [unitFactor, Val.scale, f4, List.map_map]
    rfl
  · rw [t3 .ekin (.vec ekins) (by simp) (by simp) (by rw [p7, if_neg e])]
    simp only [unitFactor, Val.scale, f2]
  · rw [t3 .temperature (.vec temps) (by simp) (by simp) (by rw [p8, if_neg e])]
    simp only [unitFactor, Val.scale, f5]
  · rw [t3 _ _ (by simp) (by simp) p9]
    simp only [unitFactor, Val.scale, f6]

/-- The file is also the output for its first structure. -/
def toScf (h : IsPwMd num a cell atoms start steps unit ekins temps dt file) : IsPwScf num a cell atoms (start ++ steps.flatMap PwStep.blocks) file where
  out := h.out
  alatLine := h.alatLine
  cellRows := h.cellRows
  cell3 := h.cell3
  atomRows := h.atomRows
  atoms0 := h.atoms0
  atoms3 := h.atoms3
  points := h.points
  iters := h.iters

/-- **C127** The advice in the docstring: `read_pw_scf` of the same file returns the structure which `read_pw_md` leaves out. Its energy, forces and
stress are those which the file gives first, and the trajectory goes on with the second one. -/
theorem C127_with_scf [DecidableEq K] (h : IsPwMd num a cell atoms start steps unit ekins temps dt file) (useAlat : Bool)
    (hu : unit ∈ ["bohr".toList, "alat".toList, "angstrom".toList, "crystal".toList])
    (c : Consts K) (hist hist' : List (Kind × UDict K)) (user : UDict K) (g : Getters K (Val K)) (g' : Getters K (PwRead.Val K)) (cs : List (List (List K)))
    (hc : PwCells num (c.Ang / c.Bohr) a useAlat cell steps.length (start ++ steps.flatMap PwStep.blocks) file cs) :
    ∃ st tr e0 f0 s0 es fs ss, PwRead.readPwScf c hist' user g' num useAlat file = .ok st ∧ readPwMd c hist user g num useAlat file = .ok tr ∧
      st.attr .etot = some (.num e0) ∧ tr.attr .etot = some (.vec es) ∧
      e0 :: es = ((start ++ steps.flatMap PwStep.blocks).filterMap Block.energy?).map (· * (user .energy).getD (c.Ry / c.eV)) ∧
      st.attr .forces = some (.mat f0) ∧ tr.attr .forces = some (.arr fs) ∧
      f0 :: fs = ((start ++ steps.flatMap PwStep.blocks).filterMap Block.forces?).map
        (fun f => (f.take atoms.length).map fun r => r.map (· * (user .forces).getD (c.Ry / c.eV * c.Ang / c.Bohr))) ∧
      st.attr .stress = some (.mat s0) ∧ tr.attr .stress = some (.arr ss) ∧
      s0 :: ss = ((start ++ steps.flatMap PwStep.blocks).filterMap Block.stress?).map (fun s => s.map fun r => r.map (· * (user .stress).getD (1 / 10))) := by
  obtain ⟨e, f, s, h0, m, hm, hf, hfs⟩ := h.first
  have hs : ∀ x ∈ steps.map tup, IsPwStep (some x.2.1) x.2.2.1 x.2.2.2.1 x.2.2.2.2 x.1 := by
    intro x hx
    obtain ⟨y, hy, rfl⟩ := List.mem_map.1 hx
    exact h.each y hy
  obtain ⟨-, l1, l2, l3⟩ := PwOut.step_lists start e f s h0 (steps.map tup) hs
  rw [tup_blocks, List.map_map] at l1 l2 l3
  obtain ⟨st, q0, -, -, -, -, q1, q2, q3⟩ := PwRead.C122_struct (toScf h) m hm (by
    rw [l2]
    intro y hy
    rcases List.mem_cons.1 hy with rfl | hy
    · exact hf
    · obtain ⟨x, hx, rfl⟩ := List.mem_map.1 hy
      exact hfs x hx) useAlat c hist' user g'
  obtain ⟨tr, t0, -, -, -, -, -, -, -, -, t1, t2, t3, -⟩ := C127_traj h useAlat hu c hist user g cs hc
  refine ⟨st, tr, _, _, _, _, _, _, q0, t0, q1 e (by rw [l1]; rfl), t1, ?_, q2 f (by rw [l2]; rfl), t2, ?_, q3 s (by rw [l3]; rfl), t3, ?_⟩
  · rw [l1, List.map_cons, List.map_map]
    rfl
  · rw [l2, List.map_cons, List.map_map]
    rfl
  · rw [l3, List.map_cons, List.map_map]
    rfl

end

/-! ## a concrete file -/

/-- What a run prints besides. -/
def exHead : List Text := PwRead.exHead ++ ["     Time step                             =       20 a.u.,  0.9676 femto-seconds".toList]

def exTail : List Text := ["     kinetic energy (Ekin) =           3 Ry", "     temperature           =         250 K ",
  "     Ekin =           3 Ry     T =         250 K  Etot =       -9"].map String.toList

def exStart : List (Block ℚ) := exHead.map Block.other ++ PwOut.exScf (-14) "-14".toList "2".toList 2

def exStep : PwStep ℚ where
  blocks := PwOut.exPos "3".toList 3 :: (exTail.map Block.other ++ PwOut.exScf (-15) "-15".toList "4".toList 4)
  pos := [[3, 5, 7]]
  energy := -15
  forces := [[4, 0, 0]]
  stress := [[1, 0, 0], [0, 1, 0], [0, 0, 1]]

def exFile : List Text := ["     Program PWSCF".toList] ++ "     number of atoms/cell      =            1".toList ::
  (exStart ++ [exStep].flatMap PwStep.blocks).flatMap Block.lines

theorem quiet_all (ls : List Text) (h : ∀ k ∈ [Key.pos, .cell, .stress, .energy, .forceHead, .force], ∀ l ∈ ls, PwOut.test k l = false) :
    ∀ b ∈ ls.map Block.other, b.Wf PwOut.exNum 1 := by
  intro b hb
  obtain ⟨l, hl, rfl⟩ := List.mem_map.1 hb
  exact PwOut.quiet_of _ fun k => h k (by cases k <;> decide) l hl

def exIsPwOut : IsPwOut PwOut.exNum 1 (exStart ++ [exStep].flatMap PwStep.blocks) exFile where
  pre := ["     Program PWSCF".toList]
  natLine := "     number of atoms/cell      =            1".toList
  eq := rfl
  quiet := PwOut.exIsPwOut.quiet
  noNat := PwOut.exIsPwOut.noNat
  quietNat := PwOut.exIsPwOut.quietNat
  isNat := PwOut.exIsPwOut.isNat
  wf := by
    intro b hb
    simp only [exStart, exStep, List.mem_append, List.flatMap_cons, List.flatMap_nil, List.append_nil, List.mem_cons] at hb
    rcases hb with (hb | hb) | rfl | hb | hb
    · exact quiet_all exHead (by decide +kernel) b hb
    · exact PwOut.exScf_wf _ _ _ _ (Or.inl rfl) b hb
    · exact PwOut.exPos_wf
    · exact quiet_all exTail (by decide +kernel) b hb
    · exact PwOut.exScf_wf _ _ _ _ (Or.inr rfl) b hb

theorem exFirst {A : Type} {Like : Text → Prop} (test : Text → Bool) (ht : ∀ l, test l = true ↔ Like l) {Says : Text → A → Prop} {file : List Text} (n : Nat) (l : Text)
    {x : A} (h0 : (file.take n).all (fun l => !test l) = true) (h1 : file.drop n = l :: file.drop (n + 1)) (h2 : Says l x) : FirstLine Like Says file x :=
  ⟨file.take n, l, file.drop (n + 1), by rw [← h1, List.take_append_drop], PwRead.exNo test ht h0, h2⟩

theorem exOther {α : Type} {P : Text → α → Prop} {Like : Text → Prop} (test : Text → Bool) (ht : ∀ l, test l = true ↔ Like l) (ls : List Text)
    (h0 : ls.all (fun l => !test l) = true) {xs : List α} {r : List Text} (h : Interleaved P (fun l => ¬ Like l) r xs) :
    Interleaved P (fun l => ¬ Like l) (ls ++ r) xs := by
  have hq := PwRead.exNo (Like := Like) test ht h0
  clear h0
  induction ls with
  | nil => exact h
  | cons l ls ih => exact .other (hq l (by simp)) (ih fun a ha => hq a (by simp [ha]))

/-- One line among others. -/
theorem exOne {α : Type} {P : Text → α → Prop} {Like : Text → Prop} (test : Text → Bool) (ht : ∀ l, test l = true ↔ Like l) {file : List Text} (n : Nat) (l : Text) {x : α}
    (h0 : (file.take n).all (fun l => !test l) = true) (h1 : file.drop n = l :: file.drop (n + 1)) (h3 : (file.drop (n + 1)).all (fun l => !test l) = true)
    (h2 : P l x) : Interleaved P (fun l => ¬ Like l) file [x] := by
  have e : file = file.take n ++ (l :: (file.drop (n + 1) ++ [])) := by rw [List.append_nil, ← h1, List.take_append_drop]
  rw [e]
  exact exOther test ht _ h0 (.hit h2 (exOther test ht _ h3 .nil))

theorem exNoStep (a b : Text) : ",  0.9676 femto-seconds".toList ≠ a ++ "step".toList ++ b := by
  intro e
  have := (isInfix_iff_append "step".toList _).2 ⟨a, b, e⟩
  exact absurd this (by decide +kernel)

theorem exTime : TimeLine PwOut.exNum "     Time step                             =       20 a.u.,  0.9676 femto-seconds".toList 20 := by
  refine ⟨(time_iff _).1 (by decide +kernel), "     Time ".toList, "                             ".toList, "       ".toList, "20".toList, " ".toList,
    ",  0.9676 femto-seconds".toList, by decide +kernel, ?_, by decide, ?_, by decide, ?_, by decide +kernel, ?_, by decide +kernel, exNoStep, by decide +kernel⟩
  · unfold BlankText; decide +kernel
  · unfold BlankText; decide +kernel
  · unfold WordText; decide +kernel
  · unfold BlankText; decide +kernel

theorem ex_unitLine : FirstLine (Matches .pos) (UnitLine "ATOMIC_POSITIONS".toList) exFile (some "alat".toList) :=
  exFirst (PwOut.test .pos) (PwOut.test_iff .pos) 21 "ATOMIC_POSITIONS (alat)".toList (by decide +kernel) (by decide +kernel)
    (.unit [] [' '] [] "alat".toList ['('] [')'] ⟨by simp [Blank'], by simp [Blank']; decide, by simp [Blank'], by simp⟩ ⟨by decide, by decide⟩ (by simp))

theorem ex_alatLine : FirstLine AlatLike (AlatLine PwOut.exNum) exFile 5 :=
  exFirst _ (fun l => isInfix_iff_append _ l) 2 "     lattice parameter (alat)  =       5  a.u.".toList (by decide +kernel) (by decide +kernel)
    ⟨⟨"     ".toList, " (alat)  =       5  a.u.".toList, by decide +kernel⟩, "     lattice parameter (alat)  ".toList, "       ".toList, "5".toList, "  ".toList, [],
      by unfold BlankText WordText; decide +kernel⟩

theorem ex_cellRows : FirstRows AxesLike (Row PwOut.exNum [4, 5, 6]) exFile [[1, 0, 0], [0, 1, 0], [0, 0, 2]] := by
    refine ⟨exFile.take 3, "     crystal axes: (cart. coord. in units of alat)".toList, (exFile.drop 4).take 3, exFile.drop 7, by decide +kernel,
      PwRead.exNo _ isAxes_iff (by decide +kernel), (isAxes_iff _).1 (by decide +kernel), ?_⟩
    have : (exFile.drop 4).take 3 = ["  a(1) = ( 1  0  0 )", "  a(2) = ( 0  1  0 )", "  a(3) = ( 0  0  2 )"].map String.toList := by decide +kernel
    rw [this]
    refine .cons ?_ (.cons ?_ (.cons ?_ .nil)) <;> unfold Row <;> decide +kernel

theorem ex_atomRows : FirstRows SiteLike (HeadAtomLine PwOut.exNum) exFile [("Al".toList, [0, 1, 2])] := by
    refine ⟨exFile.take 7, "   site n.     atom                  positions (alat units)".toList, (exFile.drop 8).take 1, exFile.drop 9, by decide +kernel,
      PwRead.exNo _ isSite_iff (by decide +kernel), (isSite_iff _).1 (by decide +kernel), ?_⟩
    have : (exFile.drop 8).take 1 = ["    1           Al  tau(   1) = (   0   1   2  )"].map String.toList := by decide +kernel
    rw [this]
    refine .cons ⟨by decide +kernel, "    1           Al  tau(   1) = ".toList, "   0   1   2  ".toList, [], ?_⟩ .nil
    unfold BlankText NumLine
    decide +kernel

theorem ex_points : (∀ l ∈ exFile, ¬ PointsLike l) ∨ ∃ n, FirstLine PointsLike PointsLine exFile n :=
  Or.inr ⟨21, exFirst _ (fun l => isInfix_iff_append _ l) 9 "    number of k points=    21".toList (by decide +kernel) (by decide +kernel)
    ⟨"    ".toList, "    ".toList, [], by decide +kernel, by unfold BlankText; decide +kernel, by simp, by simp⟩⟩

theorem ex_iters : ∃ ns, Interleaved (fun l n => IterLike l ∧ (splitWs l)[5]? = some (strNat n)) (fun l => ¬ IterLike l) exFile ns :=
  ⟨[8], exOne _ (fun l => isInfix_iff_append _ l) 10 "     convergence has been achieved in   8 iterations".toList (by decide +kernel) (by decide +kernel)
    (by decide +kernel) ⟨⟨"     ".toList, "   8 iterations".toList, by decide +kernel⟩, by decide +kernel⟩⟩

theorem ex_ekinLines : Interleaved (fun l e => EkinIonLike l ∧ Row PwOut.exNum [5] l [e]) (fun l => ¬ EkinIonLike l) exFile [3] :=
  exOne _ (fun l => isInfix_iff_append _ l) 23 "     kinetic energy (Ekin) =           3 Ry".toList (by decide +kernel) (by decide +kernel)
    (by decide +kernel) ⟨⟨"     ".toList, " (Ekin) =           3 Ry".toList, by decide +kernel⟩, by unfold Row; decide +kernel⟩

theorem ex_tempLines : Interleaved (TempLine PwOut.exNum) (fun l => ¬ TempLike l) exFile [250] :=
  exOne isTemp isTemp_iff 24 "     temperature           =         250 K ".toList (by decide +kernel) (by decide +kernel)
    (by decide +kernel) ⟨"     ".toList, 11, "         ".toList, "250".toList, " ".toList, " ".toList, by decide +kernel, by unfold BlankText; decide +kernel, by decide +kernel,
      fun c hc => (floatChar_iff c).1 ((by decide +kernel : ∀ c ∈ "250".toList, floatChar c = true) c hc), by unfold BlankText; decide +kernel, by unfold BlankText; decide +kernel,
      by decide +kernel⟩

theorem ex_timeLine : FirstLine TimeLike (TimeLine PwOut.exNum) exFile 20 :=
  exFirst _ time_iff 11 "     Time step                             =       20 a.u.,  0.9676 femto-seconds".toList (by decide +kernel) (by decide +kernel)
    exTime

/-- Non-vacuity: this file meets the hypotheses. -/
def exIsPwMd : IsPwMd PwOut.exNum 5 [[1, 0, 0], [0, 1, 0], [0, 0, 2]] [("Al".toList, [0, 1, 2])] exStart [exStep] "alat".toList [3] [250] 20 exFile where
  out := exIsPwOut
  first := ⟨-14, [[2, 0, 0]], [[1, 0, 0], [0, 1, 0], [0, 0, 1]], by refine ⟨?_, ?_, ?_, ?_⟩ <;> decide +kernel, 1, by omega, rfl, by simp [exStep]⟩
  each := by
    intro x hx
    rw [List.mem_singleton] at hx
    subst hx
    refine ⟨?_, ?_, ?_, ?_⟩ <;> decide +kernel
  some' := by simp
  unitLine := ex_unitLine
  alatLine := ex_alatLine
  cellRows := ex_cellRows
  cell3 := rfl
  atomRows := ex_atomRows
  atoms0 := by simp
  atoms3 := by simp
  points := ex_points
  iters := ex_iters
  ekinLines := ex_ekinLines
  tempLines := ex_tempLines
  timeLine := ex_timeLine

/-- The cell of the concrete run is fixed. -/
theorem exCells (c : Consts ℚ) : PwCells PwOut.exNum (c.Ang / c.Bohr) 5 true [[1, 0, 0], [0, 1, 0], [0, 0, 2]] 1 (exStart ++ [exStep].flatMap PwStep.blocks) exFile
    (scaled (if true then (5 : ℚ) else 1) (List.replicate 1 [[1, 0, 0], [0, 1, 0], [0, 0, 2]])) :=
  .fixed (by decide +kernel)

/-- The trajectory in the file. -/
example (c : Consts ℚ) (hist : List (Kind × UDict ℚ)) (g : Getters ℚ (Val ℚ)) :
    ∃ tr, readPwMd c hist (fun _ => none) g PwOut.exNum true exFile = .ok tr ∧ tr.attr .etot = some (.vec [-15 * (c.Ry / c.eV)]) ∧
      tr.attr .timestep = some (.num (20 * (c.tryd / c.fs))) ∧ tr.attr .coords = some (.arr [[[3 * 5 * (c.Bohr / c.Ang), 5 * 5 * (c.Bohr / c.Ang), 7 * 5 * (c.Bohr / c.Ang)]]]) := by
  obtain ⟨tr, h, -, -, -, -, h1, -, -, -, h2, -, -, -, -, h3⟩ := C127_traj exIsPwMd true (by decide) c hist (fun _ => none) g _ (exCells c)
  exact ⟨tr, h, h2, h3, h1 rfl⟩

end Pwtools.PwMd
