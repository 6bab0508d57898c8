import Verif.Model.Cif2any
import Verif.Spec.Cif2any
import Verif.Props.Sgroup
import Verif.Props.Traj3
import Verif.Props.Cell2
/-!
# C137: the input files printed by `cif2any.py`
-/
namespace Pwtools.Cif2any
open Spec Tr Sg

variable {K : Type}

/-! ## lines and words -/

theorem lines_unlines (ls : List Text) (hne : ls ≠ []) (h : ∀ l ∈ ls, '\n' ∉ l) : linesOf (unlines ls) = ls := splitSepAux_join '\n' [] ls hne h

theorem words_unlines (ls : List Text) : splitWs (unlines ls) = ls.flatMap splitWs := by
  unfold unlines
  induction ls with
  | nil => rfl
  | cons l ls ih =>
    cases ls with
    | nil => simp [joinSep]
    | cons m ls =>
      rw [joinSep, List.append_assoc, List.singleton_append, words_sep _ _ '\n' (by decide), ih]
      rfl

theorem num_nl {w : Text} (h : NumWord w) : '\n' ∉ w := fun hm => by simpa [isPySpace] using h.1.2 '\n' hm

theorem word_nl {w : Text} (h : WordText w) : '\n' ∉ w := fun hm => by simpa [isPySpace] using h.2 '\n' hm

theorem nat_word (n : Nat) : NumWord (strNat n) := by
  refine ⟨⟨strNat_ne_nil n, fun c hc => isPySpace_digit c (strNat_digits _ c hc)⟩, ?_⟩
  obtain ⟨c, t, e⟩ := List.exists_cons_of_ne_nil (strNat_ne_nil n)
  exact ⟨c, by rw [e]; rfl, .inl (strNat_digits n c (by rw [e]; simp))⟩

theorem row_words (fmt : K → Text) (hf : ∀ x, NumWord (fmt x)) (r : List K) : splitWs (row fmt r) = r.map fmt := by
  apply splitWs_join delim (by decide) (by decide)
  intro t ht
  obtain ⟨x, -, rfl⟩ := List.mem_map.1 ht
  exact (hf x).1

theorem join_nl (sep : Text) (hs : '\n' ∉ sep) (ls : List Text) (h : ∀ l ∈ ls, '\n' ∉ l) : '\n' ∉ joinSep sep ls := by
  induction ls with
  | nil => simp [joinSep]
  | cons w ws ih =>
    cases ws with
    | nil => simpa [joinSep] using h w (by simp)
    | cons v ws =>
      have := ih fun x hx => h x (by simp [hx])
      simp only [joinSep, List.mem_append, not_or]
      exact ⟨⟨h w (by simp), hs⟩, this⟩

theorem row_nl (fmt : K → Text) (hf : ∀ x, NumWord (fmt x)) (r : List K) : '\n' ∉ row fmt r := by
  apply join_nl _ (by decide)
  intro w hw
  obtain ⟨x, -, rfl⟩ := List.mem_map.1 hw
  exact num_nl (hf x)

theorem rows_words (fmt : K → Text) (hf : ∀ x, NumWord (fmt x)) (a : List (List K)) : (rows fmt a).map splitWs = a.map fun r => r.map fmt := by
  unfold rows
  rw [List.map_map]
  exact List.map_congr_left fun r _ => row_words fmt hf r

theorem nats_words (l : List Nat) : splitWs (seq2str l strNat) = l.map strNat := by
  apply splitWs_join [' '] (by decide) (by decide)
  intro t ht
  obtain ⟨x, -, rfl⟩ := List.mem_map.1 ht
  exact (nat_word x).1

theorem key_words (key : String) (w t : Text) (h : WordText w) (hk : key.toList = w ++ [' ']) : splitWs (key.toList ++ t) = w :: splitWs t := by
  rw [hk, List.append_assoc, List.singleton_append, words_sep _ _ ' ' (by decide), word_self w h]
  rfl

/-! ## ABINIT -/

theorem abGet_skip (key : String) (n : Nat) (A B : List Text) (h : key.toList ∉ A) : abGet key n (A ++ B) = abGet key n B := by
  unfold abGet
  rw [List.dropWhile_append_of_pos]
  intro w hw
  have : w ≠ key.toList := by rintro rfl; exact h hw
  simpa using this

theorem abGet_cons (key : String) (n : Nat) (w : Text) (B : List Text) (h : w ≠ key.toList) : abGet key n (w :: B) = abGet key n B :=
  abGet_skip key n [w] B (by simpa using h.symm)

theorem abGet_hit (key : String) (n : Nat) (B : List Text) : abGet key n (key.toList :: B) = B.take n := by
  unfold abGet
  rw [List.dropWhile_cons_of_neg (by simp)]
  rfl

/-- The words of the section. -/
theorem abinit_words (fmt : K → Text) (hf : ∀ x, NumWord (fmt x)) (numbers : Text → Option Nat) (s : Crystal K) (t z : List Nat)
    (ht : types s.symbols = some t) (hz : znucl numbers s.symbols = some z) :
    ∃ txt rest, abinit fmt numbers s = some txt ∧ splitWs txt =
      ["natom".toList, strNat s.symbols.length] ++ "ntypat".toList :: ([strNat (ntypes s.symbols)] ++ "typat".toList :: (t.map strNat ++ "znucl".toList :: (z.map strNat ++
        "acell".toList :: ((s.cc.take 3).map fmt ++ "angdeg".toList :: ((s.cc.drop 3).map fmt ++ "xred".toList :: (s.frac.flatten.map fmt ++ rest)))))) := by
  refine ⟨_, ?rest, by unfold abinit; rw [ht, hz], ?_⟩
  case rest => exact (["pseudopotential order:".toList] ++ List.zipWith (fun a b => a ++ [' '] ++ strNat b) (uniqs s.symbols) z).flatMap splitWs
  rw [words_unlines]
  have hx : (rows fmt s.frac).flatMap splitWs = s.frac.flatten.map fmt := by
    rw [List.flatMap_def, rows_words fmt hf, List.map_flatten]
  have w : ∀ n, splitWs (strNat n) = [strNat n] := fun n => word_self _ (nat_word n).1
  simp only [List.flatMap_append, List.flatMap_cons, List.flatMap_nil, hx]
  rw [key_words "natom " "natom".toList _ (by unfold WordText; decide) rfl, key_words "ntypat " "ntypat".toList _ (by unfold WordText; decide) rfl,
    key_words "typat " "typat".toList _ (by unfold WordText; decide) rfl, key_words "znucl " "znucl".toList _ (by unfold WordText; decide) rfl,
    key_words "acell " "acell".toList _ (by unfold WordText; decide) rfl, key_words "angdeg " "angdeg".toList _ (by unfold WordText; decide) rfl,
    word_self "xred".toList (by unfold WordText; decide), w, w, nats_words, nats_words, row_words fmt hf, row_words fmt hf]
  simp only [List.append_assoc, List.cons_append, List.nil_append, List.append_nil, List.flatMap_append, List.flatMap_cons, List.flatMap_nil]

theorem num_key (w : Text) (h : NumWord w) (key : String) (hk : ∃ c, key.toList.head? = some c ∧ c.isLower = true) : key.toList ≠ w := by
  rintro rfl
  obtain ⟨-, c, hc, h⟩ := h
  obtain ⟨d, hd, h'⟩ := hk
  rw [hc] at hd
  injection hd with hd
  subst hd
  rcases h with h | rfl
  · simp only [Char.isDigit, Char.isLower, Bool.and_eq_true, decide_eq_true_eq] at h h'
    have := h.2
    have := h'.1
    simp only [UInt32.le_iff_toNat_le] at *
    simp at *
    omega
  · revert h'; decide

/-- **C137** What ABINIT reads from its section: number of atoms, coordinates and cell are right, but the atomic number of an atom of type `k` is that of the `k`-th *atom* of the file, since `znucl` is
printed with an entry per atom, of which the first `ntypat` are read. -/
theorem C137_abinit (fmt : K → Text) (hf : ∀ x, NumWord (fmt x)) (numbers : Text → Option Nat) (s : Crystal K) (hn : ∀ x ∈ s.symbols, (numbers x).isSome)
    (hl : s.symbols.length = s.frac.length) (h3 : ∀ r ∈ s.frac, r.length = 3) (a b c al be ga : K) (hcc : s.cc = [a, b, c, al, be, ga]) :
    ∃ txt t, abinit fmt numbers s = some txt ∧ types s.symbols = some t ∧
      AbinitInput txt [fmt a, fmt b, fmt c] [fmt al, fmt be, fmt ga]
        (List.zipWith (fun k r => (((s.symbols[k - 1]?).bind numbers).getD 0, r.map fmt)) t s.frac) := by
  obtain ⟨t, ht, htl, hti⟩ := C53_typat s.symbols
  obtain ⟨z, hz, hzl, hzi⟩ := dictMap_spec numbers s.symbols hn
  obtain ⟨txt, rest, h1, h2⟩ := abinit_words fmt hf numbers s t z ht hz
  have hnt : ntypes s.symbols ≤ z.length := by
    rw [hzl]
    exact ((uniq_nodup s.symbols).subperm fun x hx => ((C53_unique s.symbols).2 x).1 hx).length_le
  have kn : ∀ (key : String), (∃ c, key.toList.head? = some c ∧ c.isLower = true) → ∀ l : List Nat, key.toList ∉ l.map strNat := by
    intro key hk l hm
    obtain ⟨x, -, e⟩ := List.mem_map.1 hm
    exact num_key _ (nat_word x) key hk e.symm
  have kf : ∀ (key : String), (∃ c, key.toList.head? = some c ∧ c.isLower = true) → ∀ l : List K, key.toList ∉ l.map fmt := by
    intro key hk l hm
    obtain ⟨x, -, e⟩ := List.mem_map.1 hm
    exact num_key _ (hf x) key hk e.symm
  have k1 : ∀ (key : String), (∃ c, key.toList.head? = some c ∧ c.isLower = true) → ∀ n : Nat, strNat n ≠ key.toList :=
    fun key hk n e => num_key _ (nat_word n) key hk e.symm
  have hal : (List.zipWith (fun k r => (((s.symbols[k - 1]?).bind numbers).getD 0, r.map fmt)) t s.frac).length = s.symbols.length := by
    rw [List.length_zipWith, htl, ← hl, Nat.min_self]
  have q1 : ∃ c, "ntypat".toList.head? = some c ∧ c.isLower = true := ⟨'n', rfl, rfl⟩
  have q2 : ∃ c, "typat".toList.head? = some c ∧ c.isLower = true := ⟨'t', rfl, rfl⟩
  have q3 : ∃ c, "znucl".toList.head? = some c ∧ c.isLower = true := ⟨'z', rfl, rfl⟩
  have q4 : ∃ c, "acell".toList.head? = some c ∧ c.isLower = true := ⟨'a', rfl, rfl⟩
  have q5 : ∃ c, "angdeg".toList.head? = some c ∧ c.isLower = true := ⟨'a', rfl, rfl⟩
  have q6 : ∃ c, "xred".toList.head? = some c ∧ c.isLower = true := ⟨'x', rfl, rfl⟩
  rw [hcc] at h2
  simp only [List.cons_append, List.nil_append, List.take_succ_cons, List.take_zero, List.drop_succ_cons, List.drop_zero] at h2
  refine ⟨txt, t, h1, ht, ntypes s.symbols, t, z.take (ntypes s.symbols), ?_, ?_, by rw [hal, htl], ?_, by rw [List.length_take]; omega, ?_, ?_, ?_, ?_, ?_⟩
  · rw [h2, abGet_hit, hal]; rfl
  · rw [h2, abGet_cons _ _ _ _ (by decide), abGet_cons _ _ _ _ (k1 _ q1 _), abGet_hit]; rfl
  · rw [h2, abGet_cons _ _ _ _ (by decide), abGet_cons _ _ _ _ (k1 _ q2 _), abGet_cons _ _ _ _ (by decide), abGet_cons _ _ _ _ (k1 _ q2 _), abGet_hit, hal, ← htl,
      ← List.length_map (f := strNat) (as := t), List.take_left]
  · rw [h2, abGet_cons _ _ _ _ (by decide), abGet_cons _ _ _ _ (k1 _ q3 _), abGet_cons _ _ _ _ (by decide), abGet_cons _ _ _ _ (k1 _ q3 _), abGet_cons _ _ _ _ (by decide),
      abGet_skip _ _ _ _ (kn _ q3 _), abGet_hit, List.take_append_of_le_length (by rw [List.length_map]; exact hnt), List.map_take]
  · rw [h2, abGet_cons _ _ _ _ (by decide), abGet_cons _ _ _ _ (k1 _ q4 _), abGet_cons _ _ _ _ (by decide), abGet_cons _ _ _ _ (k1 _ q4 _), abGet_cons _ _ _ _ (by decide),
      abGet_skip _ _ _ _ (kn _ q4 _), abGet_cons _ _ _ _ (by decide), abGet_skip _ _ _ _ (kn _ q4 _), abGet_hit]
    rfl
  · rw [h2, abGet_cons _ _ _ _ (by decide), abGet_cons _ _ _ _ (k1 _ q5 _), abGet_cons _ _ _ _ (by decide), abGet_cons _ _ _ _ (k1 _ q5 _), abGet_cons _ _ _ _ (by decide),
      abGet_skip _ _ _ _ (kn _ q5 _), abGet_cons _ _ _ _ (by decide), abGet_skip _ _ _ _ (kn _ q5 _), abGet_cons _ _ _ _ (by decide), abGet_skip _ _ _ _ (kf _ q5 _), abGet_hit]
    rfl
  · rw [h2, abGet_cons _ _ _ _ (by decide), abGet_cons _ _ _ _ (k1 _ q6 _), abGet_cons _ _ _ _ (by decide), abGet_cons _ _ _ _ (k1 _ q6 _), abGet_cons _ _ _ _ (by decide),
      abGet_skip _ _ _ _ (kn _ q6 _), abGet_cons _ _ _ _ (by decide), abGet_skip _ _ _ _ (kn _ q6 _), abGet_cons _ _ _ _ (by decide), abGet_skip _ _ _ _ (kf _ q6 _),
      abGet_cons _ _ _ _ (by decide), abGet_skip _ _ _ _ (kf _ q6 _), abGet_hit, hal]
    have hfl : (List.map fmt s.frac.flatten).length = 3 * s.symbols.length := by
      rw [List.length_map, List.length_flatten, hl]
      have : s.frac.map List.length = List.replicate s.frac.length 3 := by
        rw [List.eq_replicate_iff]
        refine ⟨by simp, fun b hb => ?_⟩
        obtain ⟨r, hr, rfl⟩ := List.mem_map.1 hb
        exact h3 r hr
      rw [this]
      simp [Nat.mul_comm]
    rw [← hfl, List.take_left, List.map_flatten]
    have e : ∀ (t : List Nat) (f : List (List K)), t.length = f.length →
        (List.zipWith (fun k r => (((s.symbols[k - 1]?).bind numbers).getD 0, r.map fmt)) t f).flatMap Prod.snd = (f.map (List.map fmt)).flatten := by
      intro t
      induction t with
      | nil => intro f h; rw [List.length_eq_zero_iff.1 h.symm]; rfl
      | cons k t ih =>
        intro f h
        cases f with
        | nil => simp at h
        | cons r f => simp only [List.zipWith_cons_cons, List.flatMap_cons, List.map_cons, List.flatten_cons, ih f (by simpa using h)]
    rw [e t s.frac (by rw [htl, hl])]
  · intro i x hx
    rw [List.getElem?_zipWith] at hx
    obtain ⟨k, hk⟩ : ∃ k, t[i]? = some k := by
      cases h : t[i]? with
      | none => simp [h] at hx
      | some k => exact ⟨k, rfl⟩
    obtain ⟨r, hr⟩ : ∃ r, s.frac[i]? = some r := by
      cases h : s.frac[i]? with
      | none => simp [hk, h] at hx
      | some k => exact ⟨k, rfl⟩
    simp only [hk, hr, Option.some.injEq] at hx
    subst hx
    obtain ⟨y, hy⟩ : ∃ y, s.symbols[i]? = some y := by
      have hi : i < t.length := (List.getElem?_eq_some_iff.1 hk).1
      exact ⟨_, List.getElem?_eq_getElem (by rw [← htl]; exact hi)⟩
    obtain ⟨k', hk', hk1, hk2, -⟩ := hti i y hy
    obtain rfl : k = k' := by rw [hk] at hk'; injection hk'
    change k ≤ ntypes s.symbols at hk2
    refine ⟨by rw [List.length_map]; exact h3 r (List.mem_of_getElem? hr), k - 1, by rw [hk]; congr 1; omega, ?_⟩
    rw [List.getElem?_take_of_lt (by omega)]
    have hk3 : k - 1 < s.symbols.length := by rw [← hzl]; omega
    have h4 := hzi (k - 1) _ (List.getElem?_eq_getElem hk3)
    rw [h4, List.getElem?_eq_getElem hk3]
    obtain ⟨v, hv⟩ := Option.isSome_iff_exists.1 (hn s.symbols[k - 1] (List.getElem_mem hk3))
    simp [hv]

/-- The atomic numbers which ABINIT reads are determined by the text. -/
theorem C137_abinit_unique (txt : Text) (a b a' b' : List Text) (x y : List (Nat × List Text)) (hx : AbinitInput txt a b x) (hy : AbinitInput txt a' b' y) :
    x.map Prod.fst = y.map Prod.fst := by
  obtain ⟨n, t, z, h1, h2, h3, h4, h5, h6, -, -, -, h7⟩ := hx
  obtain ⟨n', t', z', g1, g2, g3, g4, g5, g6, -, -, -, g7⟩ := hy
  rw [h1] at g1
  have e1 : x.length = y.length := strNat_inj (by simpa using g1)
  rw [h2] at g2
  obtain rfl : n = n' := strNat_inj (by simpa using g2)
  have inj : Function.Injective (List.map strNat) := List.map_injective_iff.2 fun _ _ h => strNat_inj h
  rw [← e1, h4] at g4
  obtain rfl := inj g4
  rw [h6] at g6
  obtain rfl := inj g6
  apply List.ext_getElem (by simpa using e1)
  intro i hi hj
  rw [List.length_map] at hi hj
  obtain ⟨-, k, e2, e3⟩ := h7 i _ (List.getElem?_eq_getElem hi)
  obtain ⟨-, k', e2', e3'⟩ := g7 i _ (List.getElem?_eq_getElem hj)
  rw [e2] at e2'
  obtain rfl : k = k' := by simpa using e2'
  rw [e3] at e3'
  simpa using e3'

/-- **C137** ABINIT reads the right crystal if the file begins with one atom of each species, sorted by their symbols. Otherwise see `C137_abinit_counterexample`. -/
theorem C137_abinit_partial (fmt : K → Text) (hf : ∀ x, NumWord (fmt x)) (numbers : Text → Option Nat) (s : Crystal K) (hn : ∀ x ∈ s.symbols, (numbers x).isSome)
    (hl : s.symbols.length = s.frac.length) (h3 : ∀ r ∈ s.frac, r.length = 3) (a b c al be ga : K) (hcc : s.cc = [a, b, c, al, be, ga])
    (hs : (s.symbols.take (ntypes s.symbols)).Pairwise (· < ·)) (hs' : ∀ x ∈ s.symbols, x ∈ s.symbols.take (ntypes s.symbols)) :
    ∃ txt, abinit fmt numbers s = some txt ∧
      AbinitInput txt [fmt a, fmt b, fmt c] [fmt al, fmt be, fmt ga] (List.zipWith (fun y r => ((numbers y).getD 0, r.map fmt)) s.symbols s.frac) := by
  obtain ⟨txt, t, h1, h2, h⟩ := C137_abinit fmt hf numbers s hn hl h3 a b c al be ga hcc
  refine ⟨txt, h1, ?_⟩
  obtain ⟨t', ht, htl, hti⟩ := C53_typat s.symbols
  obtain rfl : t = t' := by
    have : some t = some t' := h2.symm.trans ht
    injection this
  have hu : s.symbols.take (ntypes s.symbols) = uniqs s.symbols := by
    have p : (s.symbols.take (ntypes s.symbols)).Perm (uniqs s.symbols) := by
      rw [List.perm_ext_iff_of_nodup (hs.imp fun h => ne_of_lt h) (uniq_nodup s.symbols)]
      intro x
      rw [(C53_unique s.symbols).2 x]
      exact ⟨fun h => List.mem_of_mem_take h, hs' x⟩
    exact p.eq_of_pairwise' (r := (· < ·)) hs (C53_unique s.symbols).1
  have e : List.zipWith (fun k r => (((s.symbols[k - 1]?).bind numbers).getD 0, r.map fmt)) t s.frac
      = List.zipWith (fun y r => ((numbers y).getD 0, r.map fmt)) s.symbols s.frac := by
    apply List.ext_getElem?
    intro i
    rw [List.getElem?_zipWith, List.getElem?_zipWith]
    cases hy : s.symbols[i]? with
    | none =>
      have : t[i]? = none := by rw [List.getElem?_eq_none_iff, htl, ← List.getElem?_eq_none_iff]; exact hy
      rw [this]
    | some y =>
      obtain ⟨k, hk, hk1, hk2, hk3⟩ := hti i y hy
      change (uniqs s.symbols)[k - 1]? = some y at hk3
      change k ≤ ntypes s.symbols at hk2
      rw [← hu, List.getElem?_take_of_lt (by omega)] at hk3
      rw [hk]
      cases s.frac[i]? with
      | none => rfl
      | some b => simp [hk3]
  rw [e] at h
  exact h

theorem uniqs_aln : uniqs ["Al".toList, "Al".toList, "N".toList, "N".toList] = ["Al".toList, "N".toList] := by
  unfold uniqs symbolsUnique
  rw [List.mergeSort_of_pairwise (by decide)]
  simp [adjUnique]

theorem types_aln : types ["Al".toList, "Al".toList, "N".toList, "N".toList] = some [1, 1, 2, 2] := by
  have h := uniqs_aln
  unfold uniqs at h
  unfold types typat
  rw [h]
  simp [dictMap, dictGet, orderDict]

/-- **C137** The section for ABINIT of wurtzite AlN (two Al, two N) describes a crystal of four Al atoms: `znucl` is printed as `13 13 7 7`, ABINIT reads the first two of these. -/
theorem C137_abinit_counterexample (fmt : K → Text) (hf : ∀ x, NumWord (fmt x)) (numbers : Text → Option Nat) (h1 : numbers "Al".toList = some 13) (h2 : numbers "N".toList = some 7)
    (frac : List (List K)) (hl : frac.length = 4) (h3 : ∀ r ∈ frac, r.length = 3) (a b c al be ga : K) (cell : List (List K)) :
    ∃ txt, abinit fmt numbers ⟨["Al".toList, "Al".toList, "N".toList, "N".toList], frac, [a, b, c, al, be, ga], cell⟩ = some txt ∧
      AbinitInput txt [fmt a, fmt b, fmt c] [fmt al, fmt be, fmt ga] (frac.map fun r => (13, r.map fmt)) ∧
      ∀ a' b' atoms, AbinitInput txt a' b' atoms → atoms.map Prod.fst = [13, 13, 13, 13] := by
  have hn : ∀ x ∈ ["Al".toList, "Al".toList, "N".toList, "N".toList], (numbers x).isSome := by
    intro x hx
    simp only [List.mem_cons, List.not_mem_nil, or_false] at hx
    rcases hx with rfl | rfl | rfl | rfl <;> simp only [h1, h2, Option.isSome_some]
  obtain ⟨txt, t, e1, e2, e3⟩ := C137_abinit fmt hf numbers ⟨["Al".toList, "Al".toList, "N".toList, "N".toList], frac, [a, b, c, al, be, ga], cell⟩ hn hl.symm h3 a b c al be ga rfl
  obtain rfl : t = [1, 1, 2, 2] := by
    have : some t = some [1, 1, 2, 2] := e2.symm.trans types_aln
    injection this
  obtain ⟨w, x, y, z, rfl⟩ : ∃ w x y z, frac = [w, x, y, z] := by
    match frac, hl with
    | [w, x, y, z], _ => exact ⟨w, x, y, z, rfl⟩
  have e : AbinitInput txt [fmt a, fmt b, fmt c] [fmt al, fmt be, fmt ga] ([w, x, y, z].map fun r => (13, r.map fmt)) := by
    have : ∀ r : List K, (((["Al".toList, "Al".toList, "N".toList, "N".toList][1 - 1]?).bind numbers).getD 0, r.map fmt) = (13, r.map fmt) := by
      intro r
      show ((numbers "Al".toList).getD 0, _) = _
      rw [h1]; rfl
    have this2 : ∀ r : List K, (((["Al".toList, "Al".toList, "N".toList, "N".toList][2 - 1]?).bind numbers).getD 0, r.map fmt) = (13, r.map fmt) := by
      intro r
      show ((numbers "Al".toList).getD 0, _) = _
      rw [h1]; rfl
    simp only [List.zipWith_cons_cons, List.zipWith_nil_right, this, this2] at e3
    exact e3
  exact ⟨txt, e1, e, fun a' b' atoms h => (C137_abinit_unique txt _ _ _ _ _ _ h e).trans rfl⟩

/-! ## CPMD -/

theorem indent_words (n : Nat) (t : Text) : splitWs (List.replicate n ' ' ++ t) = splitWs t := by
  unfold splitWs
  exact splitWsAux_sep _ (fun c hc => by rw [(List.mem_replicate.1 hc).2]; decide) t

theorem indent_nl (n : Nat) (t : Text) (h : '\n' ∉ t) : '\n' ∉ List.replicate n ' ' ++ t := by
  simp only [List.mem_append, not_or]
  exact ⟨fun hc => by simpa using (List.mem_replicate.1 hc).2, h⟩

/-- The atoms of one species. -/
def speciesAtoms (fmt : K → Text) (s : Crystal K) (y : Text) : List (Text × List Text) :=
  ((s.symbols.zip s.frac).map fun a => (a.1, a.2.map fmt)).filter fun a => decide (a.1 = y)

theorem species_rows (fmt : K → Text) (hf : ∀ x, NumWord (fmt x)) (s : Crystal K) (y : Text) :
    (indent 4 (rows fmt (((s.symbols.zip s.frac).filter fun a => decide (a.1 = y)).map Prod.snd))).map (fun l => (y, splitWs l)) = speciesAtoms fmt s y := by
  unfold indent rows speciesAtoms
  rw [List.map_map, List.map_map, List.map_map, List.filter_map]
  refine List.map_congr_left fun a ha => ?_
  have := (List.mem_filter.1 ha).2
  simp only [Function.comp_apply, indent_words, row_words fmt hf]
  rw [← of_decide_eq_true this]

theorem species_length (s : Crystal K) (hl : s.symbols.length = s.frac.length) (fmt : K → Text) (y : Text) :
    (indent 4 (rows fmt (((s.symbols.zip s.frac).filter fun a => decide (a.1 = y)).map Prod.snd))).length = s.symbols.count y := by
  unfold indent rows
  rw [List.length_map, List.length_map, List.length_map]
  have e : s.symbols = (s.symbols.zip s.frac).map Prod.fst := by rw [List.map_fst_zip (by omega)]
  conv_rhs => rw [e]
  rw [List.count_eq_countP, List.countP_map, List.countP_eq_length_filter]
  congr 1
  apply List.filter_congr
  intro a _
  simp [beq_eq_decide]

theorem cpmd_atoms (fmt : K → Text) (hf : ∀ x, NumWord (fmt x)) (upper : Text → Text) (s : Crystal K) (hl : s.symbols.length = s.frac.length) (U : List Text) :
    CpmdAtoms ((U.map fun y => (y, s.symbols.count y)).flatMap (fun q => cpmdSpecies fmt upper s q.1 q.2) ++ ["&END".toList]) (U.flatMap (speciesAtoms fmt s)) := by
  induction U with
  | nil => exact .nil []
  | cons y U ih =>
    rw [List.map_cons, List.flatMap_cons, List.flatMap_cons, ← species_rows fmt hf]
    rw [List.append_assoc]
    refine .species y _ _ _ _ _ ?_ ih
    show splitWs (List.replicate 4 ' ' ++ strNat (s.symbols.count y)) = [strNat (indent 4 (rows fmt (((s.symbols.zip s.frac).filter fun a => decide (a.1 = y)).map Prod.snd))).length]
    rw [species_length s hl]
    exact (indent_words 4 _).trans (word_self _ (nat_word _).1)

theorem filter_pick {A : Type} (f : Text → List (Text × A)) (hf : ∀ y, ∀ a ∈ f y, a.1 = y) (U : List Text) (hU : U.Nodup) (y : Text) :
    (U.flatMap f).filter (fun a => decide (a.1 = y)) = if y ∈ U then f y else [] := by
  induction U with
  | nil => rfl
  | cons u U ih =>
    have h := List.nodup_cons.1 hU
    rw [List.flatMap_cons, List.filter_append, ih h.2]
    by_cases e : u = y
    · subst e
      rw [if_neg h.1, if_pos (by simp), List.append_nil, List.filter_eq_self]
      intro a ha
      exact decide_eq_true (hf u a ha)
    · have : (f u).filter (fun a => decide (a.1 = y)) = [] := by
        rw [List.filter_eq_nil_iff]
        intro a ha
        rw [hf u a ha]
        simpa using e
      rw [this, List.nil_append]
      have e' : y ∈ u :: U ↔ y ∈ U := by simp [Ne.symm e]
      simp only [e']

/-- **C137** What CPMD reads from its section: the lattice constants in Bohr and degree and all atoms with their symbols; the atoms are sorted by species, those of one species are in the order of the
file. -/
theorem C137_cpmd (fmt raw : K → Text) (hf : ∀ x, NumWord (fmt x)) (hr : ∀ x, NumWord (raw x)) (upper : Text → Text) (hu : ∀ w, '\n' ∉ w → '\n' ∉ upper w) (s : Crystal K)
    (hs : ∀ x ∈ s.symbols, SymWord x) (hl : s.symbols.length = s.frac.length) :
    ∃ txt atoms, cpmd fmt raw upper s = some txt ∧ CpmdInput txt (s.cc.map raw) atoms ∧
      atoms.Perm ((s.symbols.zip s.frac).map fun a => (a.1, a.2.map fmt)) ∧ (atoms.map Prod.fst).Pairwise (· ≤ ·) ∧
      ∀ y, atoms.filter (fun a => decide (a.1 = y)) = ((s.symbols.zip s.frac).map fun a => (a.1, a.2.map fmt)).filter fun a => decide (a.1 = y) := by
  obtain ⟨d, hd, hd', -⟩ := C53_nspecies s.symbols
  have hn : nspec s.symbols = some ((uniqs s.symbols).map fun y => (y, s.symbols.count y)) := by
    refine hd.trans ?_
    rw [hd']
    refine congrArg some (List.map_congr_left fun y _ => Prod.ext rfl ?_)
    simp only [List.count_eq_countP]
    refine List.countP_congr fun x _ => ?_
    simp
  clear hd hd'
  have hfilt : ∀ y, ((uniqs s.symbols).flatMap (speciesAtoms fmt s)).filter (fun a => decide (a.1 = y)) =
      ((s.symbols.zip s.frac).map fun a => (a.1, a.2.map fmt)).filter fun a => decide (a.1 = y) := by
    intro y
    rw [filter_pick (speciesAtoms fmt s) (fun y a ha => of_decide_eq_true (List.mem_filter.1 ha).2) _ (uniq_nodup s.symbols)]
    split
    · rfl
    · next h =>
      symm
      rw [List.filter_eq_nil_iff]
      intro a ha
      obtain ⟨b, hb, rfl⟩ := List.mem_map.1 ha
      have h1 := (List.of_mem_zip hb).1
      have h2 := ((C53_unique s.symbols).2 b.1).2 h1
      simp only [decide_eq_true_eq]
      rintro rfl
      exact h h2
  refine ⟨_, (uniqs s.symbols).flatMap (speciesAtoms fmt s), by unfold cpmd; rw [hn]; rfl, ?_, ?_, ?_, hfilt⟩
  · refine ⟨["&SYSTEM".toList, "    SYMMETRY".toList, "        ???".toList, "    SCALE".toList, "    POINT GROUP".toList, "        AUTO".toList],
      s.cc.map (fun x => List.replicate 8 ' ' ++ raw x), _, ?_, by decide, by decide, ?_, cpmd_atoms fmt hf upper s hl (uniqs s.symbols)⟩
    · rw [lines_unlines _ (by simp)]
      · simp only [List.append_assoc, List.cons_append, List.nil_append]
      · intro l h
        simp only [List.append_assoc, List.mem_append, List.mem_cons, List.not_mem_nil, or_false, List.mem_map, List.mem_flatMap] at h
        rcases h with h | ⟨x, -, rfl⟩ | h | ⟨q, ⟨y, hy, rfl⟩, h⟩ | h
        · rcases h with rfl | rfl | rfl | rfl | rfl | rfl | rfl <;> decide
        · exact indent_nl _ _ (num_nl (hr x))
        · rcases h with rfl | rfl | rfl <;> decide
        · have hy' := word_nl (hs y (((C53_unique s.symbols).2 y).1 hy)).1
          unfold cpmdSpecies at h
          simp only [List.mem_append, List.mem_cons, List.not_mem_nil, or_false] at h
          rcases h with (rfl | rfl | rfl) | h
          · simp only [List.mem_append, not_or]
            exact ⟨⟨by decide, hy'⟩, by decide⟩
          · simp only [List.mem_append, not_or]
            exact ⟨⟨⟨by decide, hu _ hy'⟩, by decide⟩, hu _ hy'⟩
          · simp only [List.mem_append, not_or]
            exact ⟨by decide, num_nl (nat_word _)⟩
          · unfold indent rows at h
            simp only [List.mem_map] at h
            obtain ⟨_, ⟨r, -, rfl⟩, rfl⟩ := h
            exact indent_nl _ _ (row_nl fmt hf r)
        · subst h; decide
    · rw [List.flatMap_map]
      have : ∀ x, splitWs (List.replicate 8 ' ' ++ raw x) = [raw x] := fun x => (indent_words 8 _).trans (word_self _ (hr x).1)
      simp only [this]
      induction s.cc with
      | nil => rfl
      | cons x l ih => rw [List.flatMap_cons, ih]; rfl
  · rw [List.perm_iff_count]
    intro a
    have e : ∀ l : List (Text × List Text), l.count a = (l.filter fun b => decide (b.1 = a.1)).count a := by
      intro l
      rw [List.count_filter (by simp)]
    rw [e, e ((s.symbols.zip s.frac).map _), hfilt]
  · have key : ∀ U : List Text, U.Pairwise (· < ·) → ((U.flatMap (speciesAtoms fmt s)).map Prod.fst).Pairwise (· ≤ ·) := by
      intro U
      have hm : ∀ y z, z ∈ (speciesAtoms fmt s y).map Prod.fst → z = y := by
        intro y z hz
        obtain ⟨a, ha, rfl⟩ := List.mem_map.1 hz
        exact of_decide_eq_true (List.mem_filter.1 ha).2
      induction U with
      | nil => intro _; exact .nil
      | cons u U ih =>
        intro h
        have h := List.pairwise_cons.1 h
        rw [List.flatMap_cons, List.map_append, List.pairwise_append]
        refine ⟨?_, ih h.2, ?_⟩
        · rw [List.pairwise_iff_forall_sublist]
          intro x y hxy
          rw [hm u x (hxy.subset (by simp)), hm u y (hxy.subset (by simp))]
        · intro x hx y hy
          obtain ⟨a, ha, rfl⟩ := List.mem_map.1 hy
          obtain ⟨v, hv, ha⟩ := List.mem_flatMap.1 ha
          rw [hm u x hx, hm v a.1 (List.mem_map_of_mem ha)]
          exact le_of_lt (h.1 v hv)
    exact key _ (C53_unique s.symbols).1

/-! ## CP2K -/

theorem lines_words (ls : List Text) (h0 : ls ≠ []) (h : ∀ l ∈ ls, '\n' ∉ l) : (linesOf (unlines ls)).map splitWs = ls.map splitWs := by
  rw [show linesOf (unlines ls) = ls from lines_unlines ls h0 h]

theorem atom_line (fmt : K → Text) (hf : ∀ x, NumWord (fmt x)) (y : Text) (hy : WordText y) (r : List K) : splitWs (y ++ delim ++ row fmt r) = y :: r.map fmt := by
  have h := words_sep y ("   ".toList ++ row fmt r) ' ' (by decide)
  rw [word_self y hy] at h
  have e : y ++ delim ++ row fmt r = y ++ ' ' :: ("   ".toList ++ row fmt r) := by
    unfold delim
    simp
  rw [e, h]
  exact congrArg (y :: ·) ((indent_words 3 _).trans (row_words fmt hf r))

theorem key_line (key : Text) (hk : WordText key) (n : Nat) (t : Text) : splitWs (List.replicate n ' ' ++ (key ++ ' ' :: t)) = key :: splitWs t := by
  rw [indent_words, words_sep key t ' ' (by decide), word_self key hk]
  rfl

theorem atpos_words (fmt : K → Text) (hf : ∀ x, NumWord (fmt x)) (symbols : List Text) (hs : ∀ x ∈ symbols, SymWord x) (frac : List (List K)) :
    (atpos fmt symbols frac).map splitWs = (symbols.zip frac).map fun a => a.1 :: a.2.map fmt := by
  unfold atpos
  rw [← List.map_uncurry_zip_eq_zipWith, List.map_map]
  refine List.map_congr_left fun a ha => ?_
  exact atom_line fmt hf a.1 (hs _ (List.of_mem_zip ha).1).1 a.2

theorem atpos_nl (fmt : K → Text) (hf : ∀ x, NumWord (fmt x)) (symbols : List Text) (hs : ∀ x ∈ symbols, SymWord x) (frac : List (List K)) : ∀ l ∈ atpos fmt symbols frac, '\n' ∉ l := by
  unfold atpos
  rw [← List.map_uncurry_zip_eq_zipWith]
  intro l hl
  obtain ⟨a, ha, rfl⟩ := List.mem_map.1 hl
  simp only [Function.uncurry_apply_pair, List.mem_append, not_or, Function.uncurry]
  exact ⟨⟨word_nl (hs _ (List.of_mem_zip ha).1).1, by decide⟩, row_nl fmt hf _⟩

theorem sym_ne {y : Text} (h : SymWord y) (k : Text) (hk : ∀ c, k.head? = some c → c.isUpper = false) : y ≠ k := by
  rintro rfl
  obtain ⟨-, c, hc, hu⟩ := h
  rw [hk c hc] at hu
  exact absurd hu (by decide)

theorem kind_words (y : Text) (hy : SymWord y) :
    (cp2kKind y).map splitWs = [[], ["&kind".toList, y], ["basis_set".toList, "XXXBASISSET_".toList ++ y], ["potential".toList, "XXXPOTENTIAL_".toList ++ y], ["&end".toList, "kind".toList]] := by
  have hw : ∀ k : Text, (∀ c ∈ k, isPySpace c = false) → k ≠ [] → WordText (k ++ y) := fun k h1 h2 =>
    ⟨by simp [h2], fun c hc => by rcases List.mem_append.1 hc with h | h; exacts [h1 c h, hy.1.2 c h]⟩
  unfold cp2kKind
  simp only [List.map_cons, List.map_nil]
  have e1 : splitWs ("        &kind ".toList ++ y) = ["&kind".toList, y] := by
    have := key_line "&kind".toList (by unfold WordText; decide) 8 y
    rw [word_self y hy.1] at this
    exact this
  have e2 : splitWs ("            basis_set XXXBASISSET_".toList ++ y) = ["basis_set".toList, "XXXBASISSET_".toList ++ y] := by
    have := key_line "basis_set".toList (by unfold WordText; decide) 12 ("XXXBASISSET_".toList ++ y)
    rw [word_self _ (hw _ (by decide) (by decide))] at this
    exact this
  have e3 : splitWs ("            potential XXXPOTENTIAL_".toList ++ y) = ["potential".toList, "XXXPOTENTIAL_".toList ++ y] := by
    have := key_line "potential".toList (by unfold WordText; decide) 12 ("XXXPOTENTIAL_".toList ++ y)
    rw [word_self _ (hw _ (by decide) (by decide))] at this
    exact this
  rw [e1, e2, e3]
  rfl

/-- The words of the lines of the section for CP2K. -/
theorem cp2k_words [Field K] (fmt : K → Text) (hf : ∀ x, NumWord (fmt x)) (bohr ang : K) (s : Crystal K) (hs : ∀ x ∈ s.symbols, SymWord x) :
    (linesOf (cp2k fmt bohr ang s)).map splitWs =
      [["&force_eval".toList], ["&subsys".toList], ["&cell".toList], "abc".toList :: ((s.cc.take 3).map fun x => x * bohr / ang).map fmt,
        "alpha_beta_gamma".toList :: (s.cc.drop 3).map fmt, ["&end".toList, "cell".toList]] ++
      ["&coord".toList] :: ["scaled".toList, "t".toList] :: ((s.symbols.zip s.frac).map (fun a => a.1 :: a.2.map fmt) ++ ["&end".toList, "coord".toList] ::
        ((uniqs s.symbols).flatMap (fun y => [[], ["&kind".toList, y], ["basis_set".toList, "XXXBASISSET_".toList ++ y], ["potential".toList, "XXXPOTENTIAL_".toList ++ y],
          ["&end".toList, "kind".toList]]) ++ [["&end".toList, "subsys".toList], ["&end".toList, "force_eval".toList]])) := by
  have hU : ∀ y ∈ uniqs s.symbols, SymWord y := fun y hy => hs y (((C53_unique s.symbols).2 y).1 hy)
  unfold cp2k
  rw [lines_words _ (by simp)]
  · simp only [List.map_append, List.map_cons, List.map_nil, List.append_assoc, List.cons_append, List.nil_append]
    have e1 : splitWs ("            abc ".toList ++ row fmt ((s.cc.take 3).map fun x => x * bohr / ang)) = "abc".toList :: ((s.cc.take 3).map fun x => x * bohr / ang).map fmt := by
      have := key_line "abc".toList (by unfold WordText; decide) 12 (row fmt ((s.cc.take 3).map fun x => x * bohr / ang))
      rw [row_words fmt hf] at this
      exact this
    have e2 : splitWs ("            alpha_beta_gamma ".toList ++ row fmt (s.cc.drop 3)) = "alpha_beta_gamma".toList :: (s.cc.drop 3).map fmt := by
      have := key_line "alpha_beta_gamma".toList (by unfold WordText; decide) 12 (row fmt (s.cc.drop 3))
      rw [row_words fmt hf] at this
      exact this
    have e3 : (indent 12 (atpos fmt s.symbols s.frac)).map splitWs = (s.symbols.zip s.frac).map fun a => a.1 :: a.2.map fmt := by
      rw [← atpos_words fmt hf s.symbols hs s.frac]
      unfold indent
      rw [List.map_map]
      exact List.map_congr_left fun a _ => indent_words 12 a
    have e4 : ((uniqs s.symbols).flatMap cp2kKind).map splitWs = (uniqs s.symbols).flatMap (fun y => [[], ["&kind".toList, y], ["basis_set".toList, "XXXBASISSET_".toList ++ y],
        ["potential".toList, "XXXPOTENTIAL_".toList ++ y], ["&end".toList, "kind".toList]]) := by
      rw [List.map_flatMap]
      exact List.flatMap_congr fun y hy => kind_words y (hU y hy)
    rw [e1, e2, e3, e4]
    rfl
  · intro l h
    simp only [List.append_assoc, List.mem_append, List.mem_cons, List.not_mem_nil, or_false, List.mem_flatMap] at h
    rcases h with (rfl | rfl | rfl | rfl | rfl | rfl | rfl | rfl) | h | rfl | ⟨y, hy, h⟩ | rfl | rfl
    · decide
    · decide
    · decide
    · simp only [List.mem_append, not_or]; exact ⟨by decide, row_nl fmt hf _⟩
    · simp only [List.mem_append, not_or]; exact ⟨by decide, row_nl fmt hf _⟩
    · decide
    · decide
    · decide
    · unfold indent at h
      obtain ⟨a, ha, rfl⟩ := List.mem_map.1 h
      exact indent_nl _ _ (atpos_nl fmt hf _ hs _ a ha)
    · decide
    · have hy' := word_nl (hU y hy).1
      unfold cp2kKind at h
      simp only [List.mem_cons, List.not_mem_nil, or_false] at h
      rcases h with rfl | rfl | rfl | rfl | rfl
      · decide
      · simp only [List.mem_append, not_or]; exact ⟨by decide, hy'⟩
      · simp only [List.mem_append, not_or]; exact ⟨by decide, hy'⟩
      · simp only [List.mem_append, not_or]; exact ⟨by decide, hy'⟩
      · decide
    · decide
    · decide

theorem atoms_filter (fmt : K → Text) (s : Crystal K) (hs : ∀ x ∈ s.symbols, SymWord x) (k : Text) (hk : ∀ c, k.head? = some c → c.isUpper = false) :
    ((s.symbols.zip s.frac).map fun a => a.1 :: a.2.map fmt).filter (fun w => decide (w.head? = some k)) = [] := by
  rw [List.filter_eq_nil_iff]
  intro w hw
  obtain ⟨a, ha, rfl⟩ := List.mem_map.1 hw
  have := sym_ne (hs _ (List.of_mem_zip ha).1) k hk
  simpa using this

/-- **C137** What CP2K reads from its section: the lengths in Angstrom, the angles, all atoms in order, and one `&kind` for each of the different symbols. -/
theorem C137_cp2k [Field K] (fmt : K → Text) (hf : ∀ x, NumWord (fmt x)) (bohr ang : K) (s : Crystal K) (hs : ∀ x ∈ s.symbols, SymWord x) :
    Cp2kInput (cp2k fmt bohr ang s) ((s.cc.take 3).map fun x => fmt (x * bohr / ang)) ((s.cc.drop 3).map fmt) ((s.symbols.zip s.frac).map fun a => (a.1, a.2.map fmt)) (uniqs s.symbols) := by
  have hW := cp2k_words fmt hf bohr ang s hs
  refine ⟨?_, ?_, ?_, ⟨?pre, ?post, ?e, ?n⟩⟩
  · unfold linesWith
    rw [hW]
    simp only [List.filter_append, List.filter_cons, List.filter_nil, List.filter_flatMap, atoms_filter fmt s hs "abc".toList (by decide)]
    simp [Function.comp_def]
  · unfold linesWith
    rw [hW]
    simp only [List.filter_append, List.filter_cons, List.filter_nil, List.filter_flatMap, atoms_filter fmt s hs "alpha_beta_gamma".toList (by decide)]
    simp
  · unfold linesWith
    rw [hW]
    simp only [List.filter_append, List.filter_cons, List.filter_nil, List.filter_flatMap, atoms_filter fmt s hs "&kind".toList (by decide)]
    simp only [reduceCtorEq, List.head?_nil, List.head?_cons, Option.some.injEq, decide_false, decide_true]
    simp
    induction uniqs s.symbols with
    | nil => rfl
    | cons y l ih => rw [List.flatMap_cons, ih]; rfl
  case e =>
    rw [hW, List.map_map (g := fun a : Text × List Text => a.1 :: a.2)]
    rfl
  case n => simp

/-! ## PWscf -/

/-- The words of the lines of the section for PWscf. -/
theorem pwscf_words [Field K] (fmt rep : K → Text) (hf : ∀ x, NumWord (fmt x)) (hr : ∀ x, NumWord (rep x)) (mass : Text → Text) (hm : ∀ x, NumWord (mass x)) (celldm : List K) (bohr ang : K)
    (s : Crystal K) (hs : ∀ x ∈ s.symbols, SymWord x) :
    (linesOf (pwscf fmt rep mass celldm bohr ang s)).map splitWs =
      [["celldm1".toList, "!=".toList, "1".toList, "case".toList], ["-----------------".toList], ["&system".toList], ["ibrav".toList, "=".toList, "0".toList]] ++
      celldm.zipIdx.map (fun q => ["celldm(".toList ++ strNat (q.2 + 1) ++ ")".toList, "=".toList, rep q.1]) ++
      [["nat".toList, "=".toList, strNat s.symbols.length], ["ntyp".toList, "=".toList, strNat (ntypes s.symbols)], ["/".toList], ["CELL_PARAMETERS".toList, "alat".toList]] ++
      s.cell.map (fun r => r.map fun x => fmt (x / s.cc.headD 0)) ++
      [[], ["celldm1".toList, "=".toList, "1".toList, "case,".toList, "no".toList, "celldm(1)".toList, "needed".toList], ["-------------------------------------".toList], ["&system".toList],
        ["ibrav".toList, "=".toList, "0".toList], ["nat".toList, "=".toList, strNat s.symbols.length], ["ntyp".toList, "=".toList, strNat (ntypes s.symbols)], ["/".toList],
        ["CELL_PARAMETERS".toList, "angstrom".toList]] ++
      s.cell.map (fun r => r.map fun x => fmt (x * bohr / ang)) ++
      [[], ["CELL_PARAMETERS".toList, "bohr".toList]] ++ s.cell.map (fun r => r.map fmt) ++
      [[], ["ATOMIC_SPECIES".toList]] ++ (uniqs s.symbols).map (fun x => [x, mass x, x ++ ".UPF".toList]) ++
      [["ATOMIC_POSITIONS".toList, "crystal".toList]] ++ (s.symbols.zip s.frac).map (fun a => a.1 :: a.2.map fmt) := by
  have hU : ∀ y ∈ uniqs s.symbols, SymWord y := fun y hy => hs y (((C53_unique s.symbols).2 y).1 hy)
  have hw : ∀ k : Nat, WordText ("celldm(".toList ++ strNat (k + 1) ++ ")".toList) := fun k =>
    ⟨by simp, fun c hc => by
      simp only [List.mem_append] at hc
      rcases hc with (h | h) | h
      · revert c; decide
      · exact (nat_word _).1.2 c h
      · revert c; decide⟩
  have hu : ∀ y, SymWord y → WordText (y ++ ".UPF".toList) := fun y hy =>
    ⟨by simp, fun c hc => by
      simp only [List.mem_append] at hc
      rcases hc with h | h
      · exact hy.1.2 c h
      · revert c; decide⟩
  unfold pwscf
  simp only []
  rw [lines_words _ (by simp)]
  · simp only [List.map_append, List.map_cons, List.map_nil, List.append_assoc, List.cons_append, List.nil_append]
    have er : ∀ a : List (List K), (rows fmt a).map splitWs = a.map fun r => r.map fmt := by
      intro a
      unfold rows
      rw [List.map_map]
      exact List.map_congr_left fun r _ => row_words fmt hf r
    have e1 : (celldm.zipIdx.map (fun q => "    celldm(".toList ++ (strNat (q.2 + 1) ++ (") = ".toList ++ rep q.1)))).map splitWs =
        celldm.zipIdx.map (fun q => ["celldm(".toList ++ (strNat (q.2 + 1) ++ ")".toList), "=".toList, rep q.1]) := by
      rw [List.map_map]
      refine List.map_congr_left fun q _ => ?_
      have h1 := key_line _ (hw q.2) 4 ("=".toList ++ ' ' :: rep q.1)
      rw [words_sep _ _ ' ' (by decide), word_self _ (hr q.1).1, word_self "=".toList (by unfold WordText; decide)] at h1
      simp only [List.append_assoc] at h1
      exact h1
    have e2 : ∀ n : Nat, splitWs ("    nat = ".toList ++ strNat n) = ["nat".toList, "=".toList, strNat n] := by
      intro n
      have h1 := key_line "nat".toList (by unfold WordText; decide) 4 ("=".toList ++ ' ' :: strNat n)
      rw [words_sep _ _ ' ' (by decide), word_self _ (nat_word n).1, word_self "=".toList (by unfold WordText; decide)] at h1
      exact h1
    have e3 : ∀ n : Nat, splitWs ("    ntyp = ".toList ++ strNat n) = ["ntyp".toList, "=".toList, strNat n] := by
      intro n
      have h1 := key_line "ntyp".toList (by unfold WordText; decide) 4 ("=".toList ++ ' ' :: strNat n)
      rw [words_sep _ _ ' ' (by decide), word_self _ (nat_word n).1, word_self "=".toList (by unfold WordText; decide)] at h1
      exact h1
    have e4 : ((uniqs s.symbols).map (fun x => x ++ ('\t' :: (mass x ++ ('\t' :: (x ++ ".UPF".toList)))))).map splitWs = (uniqs s.symbols).map (fun x => [x, mass x, x ++ ".UPF".toList]) := by
      rw [List.map_map]
      refine List.map_congr_left fun y hy => ?_
      simp only [Function.comp_apply]
      rw [words_sep _ _ '\t' (by decide), words_sep _ _ '\t' (by decide), word_self _ (hU y hy).1, word_self _ (hm y).1, word_self _ (hu y (hU y hy))]
      rfl
    simp only [er, e1, e2, e3, e4, atpos_words fmt hf s.symbols hs s.frac, List.map_map, Function.comp_def]
    rfl
  · have hn : ∀ n : Nat, '\n' ∉ strNat n := fun n => num_nl (nat_word n)
    have hrow : ∀ a : List (List K), ∀ l ∈ rows fmt a, '\n' ∉ l := by
      intro a l hl
      unfold rows at hl
      obtain ⟨r, -, rfl⟩ := List.mem_map.1 hl
      exact row_nl fmt hf r
    intro l h
    simp only [List.append_assoc, List.mem_append, List.mem_cons, List.not_mem_nil, or_false, List.mem_map] at h
    rcases h with h | ⟨q, -, rfl⟩ | (rfl | rfl | rfl) | rfl | h | h | (rfl | rfl | rfl) | rfl | h | h | h | h | ⟨y, hy, rfl⟩ | rfl | h
    · rcases h with rfl | rfl | rfl | rfl <;> decide
    · simp only [List.mem_append, not_or]
      exact ⟨by decide, hn _, by decide, num_nl (hr _)⟩
    · simp only [List.mem_append, not_or]; exact ⟨by decide, hn _⟩
    · simp only [List.mem_append, not_or]; exact ⟨by decide, hn _⟩
    · decide
    · decide
    · exact hrow _ l h
    · rcases h with rfl | rfl | rfl | rfl | rfl <;> decide
    · simp only [List.mem_append, not_or]; exact ⟨by decide, hn _⟩
    · simp only [List.mem_append, not_or]; exact ⟨by decide, hn _⟩
    · decide
    · decide
    · exact hrow _ l h
    · rcases h with rfl | rfl <;> decide
    · exact hrow _ l h
    · rcases h with rfl | rfl <;> decide
    · have hy' := word_nl (hU y hy).1
      simp only [List.mem_append, List.mem_singleton, not_or]
      exact ⟨hy', by decide, num_nl (hm y), by decide, hy', by decide⟩
    · decide
    · exact atpos_nl fmt hf _ hs _ l h

theorem head_notin (card : List Text) (k : Text) (hk : card.head? = some k) (L : List (List Text)) (h : ∀ w ∈ L, w.head? ≠ some k) : card ∉ L := fun hc => h _ hc hk

theorem num_head {A : Type} (g : A → Text) (hg : ∀ x, NumWord (g x)) (rows : List (List A)) (k : Text) (hk : ∀ c, k.head? = some c → c.isDigit = false ∧ c ≠ '-') :
    ∀ w ∈ rows.map (fun r => r.map g), w.head? ≠ some k := by
  intro w hw
  obtain ⟨r, -, rfl⟩ := List.mem_map.1 hw
  cases r with
  | nil => simp
  | cons x r =>
    rw [List.map_cons, List.head?_cons]
    intro h
    injection h with h
    obtain ⟨-, c, hc, hd⟩ := hg x
    rw [h] at hc
    have := hk c hc
    rcases hd with hd | hd
    · rw [this.1] at hd; exact absurd hd (by decide)
    · exact this.2 hd

theorem num_noassign {A : Type} (g : A → Text) (hg : ∀ x, NumWord (g x)) (k : Text) (r : List A) : asAssign (k :: r.map g) = none := by
  rcases r with _ | ⟨a, _ | ⟨b, _ | ⟨c, r⟩⟩⟩
  · rfl
  · rfl
  · simp only [List.map_cons, List.map_nil, asAssign]
    rw [if_neg]
    intro h
    obtain ⟨-, c, hc, hd⟩ := hg a
    rw [h] at hc
    injection hc with hc
    subst hc
    revert hd
    decide
  · rfl

theorem row_noassign {A : Type} (g : A → Text) (hg : ∀ x, NumWord (g x)) (r : List A) : asAssign (r.map g) = none := by
  cases r with
  | nil => rfl
  | cons a r => exact num_noassign g hg _ r

theorem celldm_head (rep : K → Text) (l : List (K × Nat)) (k : Text) (hk : ∀ c, k.head? = some c → c ≠ 'c') :
    ∀ w ∈ l.map (fun q => ["celldm(".toList ++ strNat (q.2 + 1) ++ ")".toList, "=".toList, rep q.1]), w.head? ≠ some k := by
  intro w hw
  obtain ⟨q, -, rfl⟩ := List.mem_map.1 hw
  intro h
  injection h with h
  exact hk 'c' (by rw [← h]; rfl) rfl

/-- **C137** What PWscf reads from its section: the number of atoms and of species, `celldm(1)` … `celldm(6)`, the cell in units of the first lattice constant, in Angstrom and in Bohr, one line for
each of the different symbols, and all atoms in order. -/
theorem C137_pwscf [Field K] (fmt rep : K → Text) (hf : ∀ x, NumWord (fmt x)) (hr : ∀ x, NumWord (rep x)) (mass : Text → Text) (hm : ∀ x, NumWord (mass x)) (celldm : List K) (bohr ang : K)
    (s : Crystal K) (hs : ∀ x ∈ s.symbols, SymWord x) :
    let txt := pwscf fmt rep mass celldm bohr ang s
    PwCard txt ["CELL_PARAMETERS", "alat"] (s.cell.map fun r => r.map fun x => fmt (x / s.cc.headD 0)) ∧
    PwCard txt ["CELL_PARAMETERS", "angstrom"] (s.cell.map fun r => r.map fun x => fmt (x * bohr / ang)) ∧
    PwCard txt ["CELL_PARAMETERS", "bohr"] (s.cell.map fun r => r.map fmt) ∧
    PwCard txt ["ATOMIC_SPECIES"] ((uniqs s.symbols).map fun x => [x, mass x, x ++ ".UPF".toList]) ∧
    PwCard txt ["ATOMIC_POSITIONS", "crystal"] ((s.symbols.zip s.frac).map fun a => a.1 :: a.2.map fmt) ∧
    assigns txt = ("ibrav".toList, "0".toList) :: celldm.zipIdx.map (fun q => ("celldm(".toList ++ strNat (q.2 + 1) ++ ")".toList, rep q.1)) ++
      [("nat".toList, strNat s.symbols.length), ("ntyp".toList, strNat (uniqs s.symbols).length), ("ibrav".toList, "0".toList), ("nat".toList, strNat s.symbols.length),
        ("ntyp".toList, strNat (uniqs s.symbols).length)] := by
  intro txt
  have hW := pwscf_words fmt rep hf hr mass hm celldm bohr ang s hs
  have hcd := celldm_head rep celldm.zipIdx
  have hn := fun (g : K → K) k hk => num_head (fun x => fmt (g x)) (fun x => hf _) s.cell k hk
  have hC : ∀ c, "CELL_PARAMETERS".toList.head? = some c → c.isDigit = false ∧ c ≠ '-' := by decide
  have hA : ∀ c, "ATOMIC_SPECIES".toList.head? = some c → c.isDigit = false ∧ c ≠ '-' := by decide
  have hP : ∀ c, "ATOMIC_POSITIONS".toList.head? = some c → c.isDigit = false ∧ c ≠ '-' := by decide
  have nC := fun (g : K → K) (x : String) => head_notin ["CELL_PARAMETERS".toList, x.toList] _ rfl _ (hn g _ hC)
  have nA := fun (g : K → K) => head_notin ["ATOMIC_SPECIES".toList] _ rfl _ (hn g _ hA)
  have nP := fun (g : K → K) => head_notin ["ATOMIC_POSITIONS".toList, "crystal".toList] _ rfl _ (hn g _ hP)
  have cC := fun (x : String) => head_notin ["CELL_PARAMETERS".toList, x.toList] _ rfl _ (hcd _ (by decide))
  have cA := head_notin ["ATOMIC_SPECIES".toList] _ rfl _ (hcd _ (by decide))
  have cP := head_notin ["ATOMIC_POSITIONS".toList, "crystal".toList] _ rfl _ (hcd _ (by decide))
  have p0 : PwCard txt ["CELL_PARAMETERS", "alat"] (s.cell.map (fun r => r.map fun x => fmt (x / s.cc.headD 0))) := by
    refine ⟨[["celldm1".toList, "!=".toList, "1".toList, "case".toList], ["-----------------".toList], ["&system".toList], ["ibrav".toList, "=".toList, "0".toList]] ++
        celldm.zipIdx.map (fun q => ["celldm(".toList ++ strNat (q.2 + 1) ++ ")".toList, "=".toList, rep q.1]) ++
        [["nat".toList, "=".toList, strNat s.symbols.length], ["ntyp".toList, "=".toList, strNat (ntypes s.symbols)], ["/".toList]],
      [[], ["celldm1".toList, "=".toList, "1".toList, "case,".toList, "no".toList, "celldm(1)".toList, "needed".toList], ["-------------------------------------".toList], ["&system".toList], ["ibrav".toList, "=".toList, "0".toList], ["nat".toList, "=".toList, strNat s.symbols.length], ["ntyp".toList, "=".toList, strNat (ntypes s.symbols)], ["/".toList]] ++
        [["CELL_PARAMETERS".toList, "angstrom".toList]] ++
        s.cell.map (fun r => r.map fun x => fmt (x * bohr / ang)) ++
        [[]] ++
        [["CELL_PARAMETERS".toList, "bohr".toList]] ++
        s.cell.map (fun r => r.map fmt) ++
        [[]] ++
        [["ATOMIC_SPECIES".toList]] ++
        (uniqs s.symbols).map (fun x => [x, mass x, x ++ ".UPF".toList]) ++
        [["ATOMIC_POSITIONS".toList, "crystal".toList]] ++
        (s.symbols.zip s.frac).map (fun a => a.1 :: a.2.map fmt), hW.trans ?_, ?_, .inr (.inl rfl)⟩
    · simp only [List.append_assoc, List.cons_append, List.nil_append, List.append_nil, List.map_cons, List.map_nil]
    · simp only [List.mem_append, List.map_cons, List.map_nil, not_or]
      exact ⟨⟨(by simp), cC "alat"⟩, (by simp)⟩
  have p1 : PwCard txt ["CELL_PARAMETERS", "angstrom"] (s.cell.map (fun r => r.map fun x => fmt (x * bohr / ang))) := by
    refine ⟨[["celldm1".toList, "!=".toList, "1".toList, "case".toList], ["-----------------".toList], ["&system".toList], ["ibrav".toList, "=".toList, "0".toList]] ++
        celldm.zipIdx.map (fun q => ["celldm(".toList ++ strNat (q.2 + 1) ++ ")".toList, "=".toList, rep q.1]) ++
        [["nat".toList, "=".toList, strNat s.symbols.length], ["ntyp".toList, "=".toList, strNat (ntypes s.symbols)], ["/".toList]] ++
        [["CELL_PARAMETERS".toList, "alat".toList]] ++
        s.cell.map (fun r => r.map fun x => fmt (x / s.cc.headD 0)) ++
        [[], ["celldm1".toList, "=".toList, "1".toList, "case,".toList, "no".toList, "celldm(1)".toList, "needed".toList], ["-------------------------------------".toList], ["&system".toList], ["ibrav".toList, "=".toList, "0".toList], ["nat".toList, "=".toList, strNat s.symbols.length], ["ntyp".toList, "=".toList, strNat (ntypes s.symbols)], ["/".toList]],
      [[]] ++
        [["CELL_PARAMETERS".toList, "bohr".toList]] ++
        s.cell.map (fun r => r.map fmt) ++
        [[]] ++
        [["ATOMIC_SPECIES".toList]] ++
        (uniqs s.symbols).map (fun x => [x, mass x, x ++ ".UPF".toList]) ++
        [["ATOMIC_POSITIONS".toList, "crystal".toList]] ++
        (s.symbols.zip s.frac).map (fun a => a.1 :: a.2.map fmt), hW.trans ?_, ?_, .inr (.inl rfl)⟩
    · simp only [List.append_assoc, List.cons_append, List.nil_append, List.append_nil, List.map_cons, List.map_nil]
    · simp only [List.mem_append, List.map_cons, List.map_nil, not_or]
      exact ⟨⟨⟨⟨⟨(by simp), cC "angstrom"⟩, (by simp)⟩, (by simp)⟩, nC (fun x => x / s.cc.headD 0) "angstrom"⟩, (by simp)⟩
  have p2 : PwCard txt ["CELL_PARAMETERS", "bohr"] (s.cell.map (fun r => r.map fmt)) := by
    refine ⟨[["celldm1".toList, "!=".toList, "1".toList, "case".toList], ["-----------------".toList], ["&system".toList], ["ibrav".toList, "=".toList, "0".toList]] ++
        celldm.zipIdx.map (fun q => ["celldm(".toList ++ strNat (q.2 + 1) ++ ")".toList, "=".toList, rep q.1]) ++
        [["nat".toList, "=".toList, strNat s.symbols.length], ["ntyp".toList, "=".toList, strNat (ntypes s.symbols)], ["/".toList]] ++
        [["CELL_PARAMETERS".toList, "alat".toList]] ++
        s.cell.map (fun r => r.map fun x => fmt (x / s.cc.headD 0)) ++
        [[], ["celldm1".toList, "=".toList, "1".toList, "case,".toList, "no".toList, "celldm(1)".toList, "needed".toList], ["-------------------------------------".toList], ["&system".toList], ["ibrav".toList, "=".toList, "0".toList], ["nat".toList, "=".toList, strNat s.symbols.length], ["ntyp".toList, "=".toList, strNat (ntypes s.symbols)], ["/".toList]] ++
        [["CELL_PARAMETERS".toList, "angstrom".toList]] ++
        s.cell.map (fun r => r.map fun x => fmt (x * bohr / ang)) ++
        [[]],
      [[]] ++
        [["ATOMIC_SPECIES".toList]] ++
        (uniqs s.symbols).map (fun x => [x, mass x, x ++ ".UPF".toList]) ++
        [["ATOMIC_POSITIONS".toList, "crystal".toList]] ++
        (s.symbols.zip s.frac).map (fun a => a.1 :: a.2.map fmt), hW.trans ?_, ?_, .inr (.inl rfl)⟩
    · simp only [List.append_assoc, List.cons_append, List.nil_append, List.append_nil, List.map_cons, List.map_nil]
    · simp only [List.mem_append, List.map_cons, List.map_nil, not_or]
      exact ⟨⟨⟨⟨⟨⟨⟨⟨(by simp), cC "bohr"⟩, (by simp)⟩, (by simp)⟩, nC (fun x => x / s.cc.headD 0) "bohr"⟩, (by simp)⟩, (by simp)⟩, nC (fun x => x * bohr / ang) "bohr"⟩, (by simp)⟩
  have p3 : PwCard txt ["ATOMIC_SPECIES"] ((uniqs s.symbols).map (fun x => [x, mass x, x ++ ".UPF".toList])) := by
    refine ⟨[["celldm1".toList, "!=".toList, "1".toList, "case".toList], ["-----------------".toList], ["&system".toList], ["ibrav".toList, "=".toList, "0".toList]] ++
        celldm.zipIdx.map (fun q => ["celldm(".toList ++ strNat (q.2 + 1) ++ ")".toList, "=".toList, rep q.1]) ++
        [["nat".toList, "=".toList, strNat s.symbols.length], ["ntyp".toList, "=".toList, strNat (ntypes s.symbols)], ["/".toList]] ++
        [["CELL_PARAMETERS".toList, "alat".toList]] ++
        s.cell.map (fun r => r.map fun x => fmt (x / s.cc.headD 0)) ++
        [[], ["celldm1".toList, "=".toList, "1".toList, "case,".toList, "no".toList, "celldm(1)".toList, "needed".toList], ["-------------------------------------".toList], ["&system".toList], ["ibrav".toList, "=".toList, "0".toList], ["nat".toList, "=".toList, strNat s.symbols.length], ["ntyp".toList, "=".toList, strNat (ntypes s.symbols)], ["/".toList]] ++
        [["CELL_PARAMETERS".toList, "angstrom".toList]] ++
        s.cell.map (fun r => r.map fun x => fmt (x * bohr / ang)) ++
        [[]] ++
        [["CELL_PARAMETERS".toList, "bohr".toList]] ++
        s.cell.map (fun r => r.map fmt) ++
        [[]],
      [["ATOMIC_POSITIONS".toList, "crystal".toList]] ++
        (s.symbols.zip s.frac).map (fun a => a.1 :: a.2.map fmt), hW.trans ?_, ?_, .inr (.inr rfl)⟩
    · simp only [List.append_assoc, List.cons_append, List.nil_append, List.append_nil, List.map_cons, List.map_nil]
    · simp only [List.mem_append, List.map_cons, List.map_nil, not_or]
      exact ⟨⟨⟨⟨⟨⟨⟨⟨⟨⟨⟨(by simp), cA⟩, (by simp)⟩, (by simp)⟩, nA (fun x => x / s.cc.headD 0)⟩, (by simp)⟩, (by simp)⟩, nA (fun x => x * bohr / ang)⟩, (by simp)⟩, (by simp)⟩, nA (fun x => x)⟩, (by simp)⟩
  have p4 : PwCard txt ["ATOMIC_POSITIONS", "crystal"] ((s.symbols.zip s.frac).map (fun a => a.1 :: a.2.map fmt)) := by
    refine ⟨[["celldm1".toList, "!=".toList, "1".toList, "case".toList], ["-----------------".toList], ["&system".toList], ["ibrav".toList, "=".toList, "0".toList]] ++
        celldm.zipIdx.map (fun q => ["celldm(".toList ++ strNat (q.2 + 1) ++ ")".toList, "=".toList, rep q.1]) ++
        [["nat".toList, "=".toList, strNat s.symbols.length], ["ntyp".toList, "=".toList, strNat (ntypes s.symbols)], ["/".toList]] ++
        [["CELL_PARAMETERS".toList, "alat".toList]] ++
        s.cell.map (fun r => r.map fun x => fmt (x / s.cc.headD 0)) ++
        [[], ["celldm1".toList, "=".toList, "1".toList, "case,".toList, "no".toList, "celldm(1)".toList, "needed".toList], ["-------------------------------------".toList], ["&system".toList], ["ibrav".toList, "=".toList, "0".toList], ["nat".toList, "=".toList, strNat s.symbols.length], ["ntyp".toList, "=".toList, strNat (ntypes s.symbols)], ["/".toList]] ++
        [["CELL_PARAMETERS".toList, "angstrom".toList]] ++
        s.cell.map (fun r => r.map fun x => fmt (x * bohr / ang)) ++
        [[]] ++
        [["CELL_PARAMETERS".toList, "bohr".toList]] ++
        s.cell.map (fun r => r.map fmt) ++
        [[]] ++
        [["ATOMIC_SPECIES".toList]] ++
        (uniqs s.symbols).map (fun x => [x, mass x, x ++ ".UPF".toList]),
      [], hW.trans ?_, ?_, .inl rfl⟩
    · simp only [List.append_assoc, List.cons_append, List.nil_append, List.append_nil, List.map_cons, List.map_nil]
    · simp only [List.mem_append, List.map_cons, List.map_nil, not_or]
      exact ⟨⟨⟨⟨⟨⟨⟨⟨⟨⟨⟨⟨⟨(by simp), cP⟩, (by simp)⟩, (by simp)⟩, nP (fun x => x / s.cc.headD 0)⟩, (by simp)⟩, (by simp)⟩, nP (fun x => x * bohr / ang)⟩, (by simp)⟩, (by simp)⟩, nP (fun x => x)⟩, (by simp)⟩, (by simp)⟩, (by simp)⟩
  refine ⟨p0, p1, p2, p3, p4, ?_⟩
  unfold assigns
  rw [show (linesOf txt).map splitWs = _ from hW]
  have f1 : ∀ g : K → K, (s.cell.map fun r => r.map fun x => fmt (g x)).filterMap asAssign = [] := by
    intro g
    rw [List.filterMap_eq_nil_iff]
    intro w hw
    obtain ⟨r, -, rfl⟩ := List.mem_map.1 hw
    exact row_noassign _ (fun x => hf (g x)) r
  have f2 : (celldm.zipIdx.map (fun q => ["celldm(".toList ++ strNat (q.2 + 1) ++ ")".toList, "=".toList, rep q.1])).filterMap asAssign =
      celldm.zipIdx.map (fun q => ("celldm(".toList ++ strNat (q.2 + 1) ++ ")".toList, rep q.1)) := by
    rw [List.filterMap_map]
    generalize celldm.zipIdx = l
    induction l with
    | nil => rfl
    | cons q l ih =>
      rw [List.filterMap_cons, List.map_cons, ← ih]
      rfl
  have f3 : ((uniqs s.symbols).map (fun x => [x, mass x, x ++ ".UPF".toList])).filterMap asAssign = [] := by
    rw [List.filterMap_eq_nil_iff]
    intro w hw
    obtain ⟨y, -, rfl⟩ := List.mem_map.1 hw
    simp only [asAssign]
    rw [if_neg]
    intro h
    obtain ⟨-, c, hc, hd⟩ := hm y
    rw [h] at hc
    injection hc with hc
    subst hc
    revert hd
    decide
  have f4 : ((s.symbols.zip s.frac).map (fun a => a.1 :: a.2.map fmt)).filterMap asAssign = [] := by
    rw [List.filterMap_eq_nil_iff]
    intro w hw
    obtain ⟨a, -, rfl⟩ := List.mem_map.1 hw
    exact num_noassign fmt hf _ _
  have f5 : (s.cell.map fun r => r.map fmt).filterMap asAssign = [] := f1 fun x => x
  simp only [List.filterMap_append, f1 (fun x => x / s.cc.headD 0), f1 (fun x => x * bohr / ang), f5, f2, f3, f4]
  simp only [List.append_nil, List.append_assoc]
  rfl

/-! ## The numbers -/

/-- The lattice constants in Bohr. -/
noncomputable def ccBohr (bohr ang : ℝ) (cc : Cry.CrystConst) : Cry.CrystConst := ⟨cc.a * (ang / bohr), cc.b * (ang / bohr), cc.c * (ang / bohr), cc.alpha, cc.beta, cc.gamma⟩

theorem cc2cell_scale (cc : Cry.CrystConst) (u : ℝ) (hu : 0 < u) (i j : Fin 3) :
    Cry.cc2cell ⟨cc.a * u, cc.b * u, cc.c * u, cc.alpha, cc.beta, cc.gamma⟩ i j = Cry.cc2cell cc i j * u := by
  have hz : ∀ x y c : ℝ, Real.sqrt ((c * u) ^ 2 - (y * u) ^ 2 - (x * u) ^ 2) = Real.sqrt (c ^ 2 - y ^ 2 - x ^ 2) * u := by
    intro x y c
    rw [show (c * u) ^ 2 - (y * u) ^ 2 - (x * u) ^ 2 = (c ^ 2 - y ^ 2 - x ^ 2) * u ^ 2 by ring, Real.sqrt_mul' _ (sq_nonneg u), Real.sqrt_sq hu.le]
  unfold Cry.cc2cell
  fin_cases i <;> fin_cases j <;> simp [Matrix.of_apply] <;> try (ring; done)
  rw [← hz]
  congr 1
  ring

theorem valid_scale (cc : Cry.CrystConst) (h : Cry.ValidCC cc) (u : ℝ) (hu : 0 < u) : Cry.ValidCC ⟨cc.a * u, cc.b * u, cc.c * u, cc.alpha, cc.beta, cc.gamma⟩ :=
  ⟨mul_pos h.a hu, mul_pos h.b hu, mul_pos h.c hu, h.alpha, h.beta, h.gamma, h.root⟩

theorem rows_ofFn (c : Cry.Cell) : cellRows c = List.ofFn fun i => List.ofFn fun k => c i k := by
  simp [cellRows, List.ofFn_succ]

/-- **C137** The numbers in the sections, for a file with the lattice constants `cc` (Angstrom, degree): CP2K gets those of the file; the cell of PWscf in Angstrom is the one of these constants; the
cell in Bohr has the constants in Bohr which ABINIT and CPMD get; the cell in units of the first constant, times `celldm(1)`, is the one in Bohr; and `celldm` says the same as the constants. -/
theorem C137_numbers (bohr ang : ℝ) (hb : 0 < bohr) (ha : 0 < ang) (cc : Cry.CrystConst) (h : Cry.ValidCC cc) (symbols : List Text) (frac : List (List ℝ)) :
    let s := crystal bohr ang cc symbols frac
    (s.cc.take 3).map (fun x => x * bohr / ang) = [cc.a, cc.b, cc.c] ∧ s.cc.drop 3 = [cc.alpha, cc.beta, cc.gamma] ∧
    s.cell.map (fun r => r.map fun x => x * bohr / ang) = List.ofFn (fun i => List.ofFn fun k => Cry.cc2cell cc i k) ∧
    (∃ c : Cry.Cell, s.cell = List.ofFn (fun i => List.ofFn fun k => c i k) ∧ Cry.cell2cc c = ccBohr bohr ang cc) ∧
    s.cell.map (fun r => r.map fun x => x / s.cc.headD 0 * (celldmList (ccBohr bohr ang cc)).headD 0) = s.cell ∧
    ∃ d : Cry.Celldm, celldmList (ccBohr bohr ang cc) = [d.d1, d.d2, d.d3, d.d4, d.d5, d.d6] ∧ Cry.celldm2cc d 1 = ccBohr bohr ang cc := by
  intro s
  simp only [← rows_ofFn]
  have hu : 0 < ang / bohr := div_pos ha hb
  have hv := valid_scale cc h _ hu
  have hx : ∀ x : ℝ, x * (ang / bohr) * bohr / ang = x := fun x => by field_simp
  refine ⟨?_, rfl, ?_, ⟨_, rfl, Cry.C41_cc_roundtrip _ hv⟩, ?_, ⟨_, rfl, ?_⟩⟩
  · simp [s, crystal, hx]
  · simp only [s, crystal, cellRows, List.map_cons, List.map_nil, cc2cell_scale cc _ hu, hx]
  · have h0 : cc.a * (ang / bohr) ≠ 0 := hv.a.ne'
    simp only [s, crystal, cellRows, List.map_cons, List.map_nil, List.headD_cons, celldmList, ccBohr, Cry.cc2celldm, mul_one, div_mul_cancel₀ _ h0]
  · have := Cry.C42_cc_roundtrip (ccBohr bohr ang cc) 1 one_ne_zero hv.a.ne' ⟨h.alpha.1.le, h.alpha.2.le⟩ ⟨h.beta.1.le, h.beta.2.le⟩ ⟨h.gamma.1.le, h.gamma.2.le⟩
    rwa [div_one] at this

/-! ## Examples -/

/-- A format for fractions: different numbers have different words. -/
def fracFmt (x : ℚ) : Text := (if x < 0 then ['-'] else []) ++ (strNat x.num.natAbs ++ '/' :: strNat x.den)

theorem fracFmt_num (x : ℚ) : NumWord (fracFmt x) := by
  obtain ⟨⟨h1, h2⟩, c, hc, hd⟩ := nat_word x.num.natAbs
  refine ⟨⟨by simp [fracFmt], ?_⟩, ?_⟩
  · intro d hd
    unfold fracFmt at hd
    simp only [List.mem_append, List.mem_cons] at hd
    rcases hd with h | h | rfl | h
    · split at h
      · rw [List.mem_singleton.1 h]; decide
      · cases h
    · exact h2 d h
    · decide
    · exact (nat_word x.den).1.2 d h
  · unfold fracFmt
    by_cases hx : x < 0
    · exact ⟨'-', by simp [hx], .inr rfl⟩
    · refine ⟨c, ?_, hd⟩
      rw [if_neg hx, List.nil_append, List.head?_append, hc]
      rfl

/-- Aluminium nitride. -/
def aln : Crystal ℚ :=
  ⟨["Al".toList, "Al".toList, "N".toList, "N".toList], [[1/3, 2/3, 0], [2/3, 1/3, 1/2], [1/3, 2/3, 2/5], [2/3, 1/3, 9/10]], [6, 6, 9, 90, 90, 120], [[6, 0, 0], [-3, 5, 0], [0, 0, 9]]⟩

theorem aln_sym : ∀ x ∈ aln.symbols, SymWord x := by
  intro x hx
  simp only [aln, List.mem_cons, List.not_mem_nil, or_false] at hx
  rcases hx with rfl | rfl | rfl | rfl
  all_goals first
    | exact ⟨⟨by decide, by decide⟩, 'A', rfl, by decide⟩
    | exact ⟨⟨by decide, by decide⟩, 'N', rfl, by decide⟩

example : ∃ txt atoms, cpmd fracFmt fracFmt id aln = some txt ∧ CpmdInput txt (aln.cc.map fracFmt) atoms ∧ atoms.length = 4 := by
  obtain ⟨txt, atoms, h1, h2, h3, -⟩ := C137_cpmd fracFmt fracFmt fracFmt_num fracFmt_num id (fun _ h => h) aln aln_sym rfl
  exact ⟨txt, atoms, h1, h2, h3.length_eq⟩

example : Cp2kInput (cp2k fracFmt (1/2) 1 aln) (["3/1", "3/1", "9/2"].map String.toList) (["90/1", "90/1", "120/1"].map String.toList) ((aln.symbols.zip aln.frac).map fun a => (a.1, a.2.map fracFmt))
    ["Al".toList, "N".toList] := by
  have h := C137_cp2k fracFmt fracFmt_num (1/2) 1 aln aln_sym
  have e : uniqs aln.symbols = ["Al".toList, "N".toList] := uniqs_aln
  rw [e] at h
  have e1 : (aln.cc.take 3).map (fun x => fracFmt (x * (1/2) / 1)) = ["3/1", "3/1", "9/2"].map String.toList := by decide +kernel
  have e2 : (aln.cc.drop 3).map fracFmt = ["90/1", "90/1", "120/1"].map String.toList := by decide +kernel
  rw [e1, e2] at h
  exact h

example : PwCard (pwscf fracFmt fracFmt (fun _ => "1.0".toList) [6] (1/2) 1 aln) ["CELL_PARAMETERS", "alat"] ([["1/1", "0/1", "0/1"], ["-1/2", "5/6", "0/1"], ["0/1", "0/1", "3/2"]].map fun r => r.map String.toList) := by
  have h := (C137_pwscf fracFmt fracFmt fracFmt_num fracFmt_num (fun _ => "1.0".toList) (fun _ => ⟨⟨by decide, by decide⟩, '1', rfl, .inl (by decide)⟩) [6] (1/2) 1 aln aln_sym).1
  have e : (aln.cell.map fun r => r.map fun x => fracFmt (x / aln.cc.headD 0)) = [["1/1", "0/1", "0/1"], ["-1/2", "5/6", "0/1"], ["0/1", "0/1", "3/2"]].map fun r => r.map String.toList := by
    decide +kernel
  rw [e] at h
  exact h

/-- The hypotheses of `C137_numbers` for a cubic crystal. -/
example : Cry.ValidCC ⟨4, 4, 4, 90, 90, 90⟩ := by
  refine ⟨by norm_num, by norm_num, by norm_num, by norm_num, by norm_num, by norm_num, ?_⟩
  have e : (90 : ℝ) * Real.pi / 180 = Real.pi / 2 := by ring
  simp [Cry.ccRoot, e]

end Pwtools.Cif2any
