import Verif.Model.PwText
import Verif.Spec.PwText
import Verif.Props.Common
import Mathlib.Tactic.Ring
import Mathlib.Tactic.NormNum
/-!
# C73, C75, C76, C84, C85: text files for and from pw.x, matdyn.x, xcrysden
-/
namespace Pwtools.Pw
open Pwtools.Spec

/-! ## C76 k-points -/

theorem strInt_noChar (ch : Char) (h1 : ch ≠ '-') (h2 : ch.isDigit = false) (i : Int) : ch ∉ strInt i := by
  intro h
  cases i with
  | ofNat n =>
    have := strNat_digits n ch h
    rw [h2] at this; cases this
  | negSucc n =>
    simp only [strInt, List.mem_cons] at h
    rcases h with h | h
    · exact h1 h
    · have := strNat_digits _ ch h
      rw [h2] at this; cases this

theorem strNat_noChar (ch : Char) (h2 : ch.isDigit = false) (i : Nat) : ch ∉ strNat i := by
  intro h
  have := strNat_digits _ ch h
  rw [h2] at this; cases this

/-- **C76**. Split at the commas, `kpoints_str(lst, base)` has one item per entry of `lst`, the `i`-th being
`base`, `i+1`, `=`, the entry. -/
theorem C76_kpoints_str (lst : List Int) (base : Text) (hne : lst ≠ []) (hb : ',' ∉ base) :
    (splitSepAux ',' [] [] (kpointsStr lst base)).length = lst.length ∧
    ∀ (i : Nat) (h : i < lst.length), (splitSepAux ',' [] [] (kpointsStr lst base))[i]? =
      some (base ++ strNat (i + 1) ++ ['='] ++ strInt lst[i]) := by
  have key : splitSepAux ',' [] [] (kpointsStr lst base) =
      lst.zipIdx.map fun q => base ++ strNat (q.2 + 1) ++ ['='] ++ strInt q.1 := by
    unfold kpointsStr
    rw [splitSepAux_join]
    · intro h
      simp at h
      exact hne h
    · intro t ht
      obtain ⟨q, _, rfl⟩ := List.mem_map.1 ht
      simp only [List.mem_append, not_or]
      refine ⟨⟨⟨hb, strNat_noChar _ (by decide) _⟩, by decide⟩, strInt_noChar _ (by decide) (by decide) _⟩
  rw [key]
  refine ⟨by simp, fun i h => ?_⟩
  simp [h]

/-- **C76**. The mesh can be read off the string: equal strings come from equal lists. -/
theorem C76_kpoints_str_injective (l l' : List Int) (base : Text) (hb : ',' ∉ base) (hne : l ≠ []) (hne' : l' ≠ [])
    (h : kpointsStr l base = kpointsStr l' base) : l = l' := by
  obtain ⟨a1, a2⟩ := C76_kpoints_str l base hne hb
  obtain ⟨b1, b2⟩ := C76_kpoints_str l' base hne' hb
  rw [h] at a1 a2
  have hl : l.length = l'.length := a1.symm.trans b1
  refine List.ext_getElem hl fun i h1 h2 => ?_
  have := (a2 i h1).symm.trans (b2 i h2)
  simp only [Option.some.injEq, List.append_cancel_left_eq] at this
  have e := congrArg parseInt this
  rwa [parseInt_strInt, parseInt_strInt, Option.some.injEq] at e

/-- **C76**. `kpoints_str_pwin_full` returns `K_POINTS gamma` exactly for a sequence `1, 1, 1` with `gamma=True` or for the
string `'gamma'`. -/
theorem C76_gamma (lst : KArg) (shift : PySeq) (gamma : Bool) :
    kpointsStrPwinFull lst shift gamma = some "K_POINTS gamma".toList ↔
      (lst = .str "gamma".toList ∨
        ((lst = .seq (.list [1, 1, 1]) ∨ lst = .seq (.tuple [1, 1, 1]) ∨ lst = .seq (.array [1, 1, 1])) ∧ gamma = true)) := by
  cases lst with
  | str t =>
    simp only [kpointsStrPwinFull]
    split
    · rename_i h; simp [h]
    · rename_i h
      simp only [reduceCtorEq, KArg.str.injEq, false_iff, not_or]
      exact ⟨h, by simp⟩
  | seq s =>
    have hs : s.toList = [1, 1, 1] ↔ (s = .list [1, 1, 1] ∨ s = .tuple [1, 1, 1] ∨ s = .array [1, 1, 1]) := by
      cases s <;> simp [PySeq.toList]
    simp only [kpointsStrPwinFull, KArg.seq.injEq, reduceCtorEq, false_or, ← hs]
    split
    · rename_i h; simp [h]
    · rename_i h
      simp only [h, iff_false, Option.map_eq_some_iff, not_exists, not_and]
      intro t _ e
      have := congrArg (fun l : Text => l.length) e
      have h10 := congrArg (fun l : Text => l[9]?) e
      simp at h10

/-- **C76**. In all other cases of a sequence with a list of shifts the result is `K_POINTS automatic`, a line feed, and the
numbers followed by the shifts as words. -/
theorem C76_automatic (s : PySeq) (shift : List Int) (gamma : Bool) (h : ¬ (s.toList = [1, 1, 1] ∧ gamma = true)) :
    ∃ t, kpointsStrPwinFull (.seq s) (.list shift) gamma = some ("K_POINTS automatic\n".toList ++ t) ∧
      '\n' ∉ t ∧ mapE parseInt (splitWs t) = some (s.toList ++ shift) := by
  refine ⟨joinSep [' '] ((s.toList ++ shift).map strInt), ?_, ?_, ?_⟩
  · simp only [kpointsStrPwinFull, if_neg h, kpointsStrPwin, PySeq.add, Option.map_some]
  · generalize s.toList ++ shift = l
    induction l with
    | nil => simp [joinSep]
    | cons a l ih =>
      cases l with
      | nil => simpa [joinSep] using strInt_noChar '\n' (by decide) (by decide) a
      | cons b l =>
        simp only [List.map_cons, joinSep, List.mem_append, not_or] at ih ⊢
        exact ⟨⟨strInt_noChar '\n' (by decide) (by decide) a, by decide⟩, ih⟩
  · rw [splitWs_join [' '] (by simp) (by decide)]
    · exact mapE_map _ _ _ fun a _ => parseInt_strInt a
    · intro t ht
      obtain ⟨a, _, rfl⟩ := List.mem_map.1 ht
      refine ⟨?_, fun c hc => ?_⟩
      · cases a with
        | ofNat n => exact strNat_ne_nil n
        | negSucc n => simp [strInt]
      · cases a with
        | ofNat n => exact isPySpace_digit c (strNat_digits n c hc)
        | negSucc n =>
          simp only [strInt, List.mem_cons] at hc
          rcases hc with rfl | hc
          · decide
          · exact isPySpace_digit c (strNat_digits _ c hc)

/-- **C76**. Any other string is refused. -/
theorem C76_refused (t : Text) (shift : PySeq) (gamma : Bool) (h : t ≠ "gamma".toList) :
    kpointsStrPwinFull (.str t) shift gamma = none := by
  simp only [kpointsStrPwinFull, if_neg h]

/-- **C76**, disagreement: `kpoints_str_pwin` documents `lst` as a sequence, but adds the shift to a numpy array
instead of appending it, and fails for a tuple. -/
theorem C76_pwin_counterexample :
    kpointsStrPwin (.list [3, 3, 3]) (.list [1, 1, 1]) = some "3 3 3 1 1 1".toList ∧
    kpointsStrPwin (.array [3, 3, 3]) (.list [1, 1, 1]) = some "4 4 4".toList ∧
    kpointsStrPwin (.tuple [3, 3, 3]) (.list [1, 1, 1]) = none := by
  refine ⟨by decide, by decide, rfl⟩

example : kpointsStr [3, 4, -5] "nk".toList = "nk1=3,nk2=4,nk3=-5".toList := by decide
example : kpointsStrPwinFull (.seq (.array [1, 1, 1])) (.list [0, 0, 0]) true = some "K_POINTS gamma".toList ∧
    kpointsStrPwinFull (.seq (.list [1, 1, 1])) (.list [0, 0, 0]) false = some "K_POINTS automatic\n1 1 1 0 0 0".toList := by
  decide

/-! ## Lines and words -/

theorem isLines_flatMap {α : Type} (l : List α) (txt : α → Text) (ls : α → List Text) (h : ∀ a ∈ l, IsLines (txt a) (ls a)) :
    IsLines (l.map txt).flatten (l.map ls).flatten := by
  refine ⟨?_, ?_⟩
  · induction l with
    | nil => rfl
    | cons a l ih =>
      simp only [List.map_cons, List.flatten_cons, List.map_append, List.flatten_append]
      rw [← ih fun b hb => h b (by simp [hb]), ← (h a (by simp)).1]
  · intro x hx
    simp only [List.mem_flatten, List.mem_map] at hx
    obtain ⟨_, ⟨a, ha, rfl⟩, hx⟩ := hx
    exact (h a ha).2 x hx

theorem isLines_append {t1 t2 : Text} {l1 l2 : List Text} (h1 : IsLines t1 l1) (h2 : IsLines t2 l2) :
    IsLines (t1 ++ t2) (l1 ++ l2) := by
  refine ⟨by simp [h1.1, h2.1], fun l hl => ?_⟩
  rcases List.mem_append.1 hl with h | h
  · exact h1.2 l h
  · exact h2.2 l h

theorem isLines_one (l : Text) (h : '\n' ∉ l) : IsLines (l ++ ['\n']) [l] := by
  refine ⟨by simp, by simpa using h⟩

/-- Block `i` of blocks of the same length. -/
theorem take_drop_flatten {α : Type} (b : Nat) (L : List (List α)) (h : ∀ l ∈ L, l.length = b) (i : Nat) (hi : i < L.length) :
    (L.flatten.drop (i * b)).take b = L[i] := by
  induction L generalizing i with
  | nil => simp at hi
  | cons a L ih =>
    have ha := h a (by simp)
    cases i with
    | zero => simp [← ha]
    | succ i =>
      rw [List.flatten_cons, show (i + 1) * b = a.length + i * b by rw [ha]; ring, List.drop_append, List.drop_of_length_le (by omega)]
      simp only [Nat.add_sub_cancel_left, List.nil_append, List.getElem_cons_succ]
      exact ih (fun l hl => h l (by simp [hl])) i (by simpa using hi)

theorem length_flatten_const {α : Type} (b : Nat) (L : List (List α)) (h : ∀ l ∈ L, l.length = b) :
    L.flatten.length = L.length * b := by
  induction L with
  | nil => simp
  | cons a L ih =>
    simp only [List.flatten_cons, List.length_append, h a (by simp), ih fun l hl => h l (by simp [hl]), List.length_cons]
    ring

theorem joinSep_noNl (sep : Text) (hs : '\n' ∉ sep) (l : List Text) (h : ∀ t ∈ l, '\n' ∉ t) : '\n' ∉ joinSep sep l := by
  induction l with
  | nil => simp [joinSep]
  | cons a l ih =>
    cases l with
    | nil => simpa [joinSep] using h
    | cons b l =>
      simp only [joinSep, List.mem_append, not_or]
      exact ⟨⟨h a (by simp), hs⟩, ih fun t ht => h t (by simp [ht])⟩

theorem word_noNl {t : Text} (h : IsWord t) : '\n' ∉ t := by
  intro hc
  have := h.2 _ hc
  revert this
  decide

/-! ## C75 write_xyz -/

theorem u32_short {t : Text} (h : t.length ≤ 32) : u32 t = t := List.take_of_length_le h

/-- The lines of `atpos_str_fast`. -/
theorem atposStrFast_lines (npstr : Rat → Text) (symbols : List Text) (coords : List (List Rat))
    (hs : symbols.length = coords.length) (hsw : ∀ s ∈ symbols, IsWord s ∧ s.length ≤ 32)
    (hn : ∀ x, IsWord (npstr x) ∧ (npstr x).length ≤ 32) :
    ∃ txt rows, atposStrFast npstr symbols coords = some txt ∧ IsLines txt rows ∧
      rows.map splitWs = List.zipWith (fun s row => s :: row.map npstr) symbols coords := by
  refine ⟨((List.zipWith (fun s row => joinSep [' ', ' '] (s :: row.map npstr)) symbols coords).map fun l => l ++ ['\n']).flatten,
    List.zipWith (fun s row => joinSep [' ', ' '] (s :: row.map npstr)) symbols coords, ?_, ?_, ?_⟩
  rotate_left
  · refine ⟨?_, ?_⟩
    rotate_left
    · intro l hl
      obtain ⟨q, hq, rfl⟩ := List.mem_map.1 (by rw [← List.map_uncurry_zip_eq_zipWith] at hl; exact hl)
      have hq' := List.of_mem_zip hq
      apply joinSep_noNl _ (by decide)
      intro t ht
      rcases List.mem_cons.1 ht with rfl | ht
      · exact word_noNl (hsw _ hq'.1).1
      · obtain ⟨x, _, rfl⟩ := List.mem_map.1 ht
        exact word_noNl (hn x).1
    · rfl
  · rw [List.map_zipWith]
    rw [← List.map_uncurry_zip_eq_zipWith, ← List.map_uncurry_zip_eq_zipWith]
    refine List.map_congr_left fun q hq => ?_
    have hq' := List.of_mem_zip hq
    simp only [Function.uncurry]
    apply splitWs_join _ (by simp) (by decide)
    intro t ht
    rcases List.mem_cons.1 ht with rfl | ht
    · exact (hsw _ hq'.1).1
    · obtain ⟨x, _, rfl⟩ := List.mem_map.1 ht
      exact (hn x).1
  · simp only [atposStrFast, bcast, if_pos hs, Option.map_some, Option.some.injEq]
    rw [List.map_zipWith]
    congr 1
    rw [← List.map_uncurry_zip_eq_zipWith, ← List.map_uncurry_zip_eq_zipWith]
    refine List.map_congr_left fun q hq => ?_
    have hq' := List.of_mem_zip hq
    simp only [Function.uncurry, u32_short (hsw _ hq'.1).2]
    congr 3
    exact List.map_congr_left fun x _ => u32_short (hn x).2

theorem xyzLoop_eq (npstr : Rat → Text) (t : Tr) (name : Text) (cs : List (List (List Rat))) (f : Nat → List (List Rat) → Text)
    (n : Nat) (hf : ∀ (i : Nat) (c : List (List Rat)), c ∈ cs → xyzStep npstr t name i c = some (f i c)) (acc : Text) :
    xyzLoop npstr t name n cs acc = some (acc ++ ((cs.zipIdx n).map fun q => f q.2 q.1).flatten) := by
  induction cs generalizing n acc with
  | nil => simp [xyzLoop]
  | cons c cs ih =>
    simp only [xyzLoop, hf n c (by simp)]
    rw [ih (n + 1) fun i c hc => hf i c (by simp [hc])]
    simp

/-- **C75**. For a trajectory whose symbols and number texts are words of at most 32 characters, `write_xyz` writes
`nstep` blocks of `natoms+2` lines. Block `i` begins with the number of atoms and the name with the step number `i+1`; the
words of its other lines are symbol and coordinates of the atoms in step `i`, in order. -/
theorem C75_write_xyz (npstr : Rat → Text) (t : Tr) (name : Text) (hname : '\n' ∉ name)
    (hsym : t.symbols.length = t.natoms) (hco : ∀ c ∈ t.coords, c.length = t.natoms)
    (hsw : ∀ s ∈ t.symbols, IsWord s ∧ s.length ≤ 32) (hn : ∀ x, IsWord (npstr x) ∧ (npstr x).length ≤ 32) :
    ∃ txt lines, writeXyz npstr t name = some txt ∧ IsLines txt lines ∧
      lines.length = t.coords.length * (t.natoms + 2) ∧
      ∀ (i : Nat) (hi : i < t.coords.length), ∃ rows,
        (lines.drop (i * (t.natoms + 2))).take (t.natoms + 2) =
          strNat t.natoms :: (name ++ ['.'] ++ strNat (i + 1)) :: rows ∧
        rows.map splitWs = List.zipWith (fun s row => s :: row.map npstr) t.symbols t.coords[i] := by
  classical
  have H : ∀ c : List (List Rat), c.length = t.natoms → ∃ txt rows, atposStrFast npstr t.symbols c = some txt ∧ IsLines txt rows ∧
      rows.map splitWs = List.zipWith (fun s row => s :: row.map npstr) t.symbols c :=
    fun c hc => atposStrFast_lines npstr t.symbols c (by rw [hsym, hc]) hsw hn
  have H' : ∀ c : List (List Rat), ∃ txt, ∃ rows, c.length = t.natoms → (atposStrFast npstr t.symbols c = some txt ∧ IsLines txt rows ∧
      rows.map splitWs = List.zipWith (fun s row => s :: row.map npstr) t.symbols c) := by
    intro c
    by_cases hc : c.length = t.natoms
    · obtain ⟨a, b, h⟩ := H c hc
      exact ⟨a, b, fun _ => h⟩
    · exact ⟨[], [], fun h => absurd h hc⟩
  choose tx rw' hH using H'
  let bl : Nat → List (List Rat) → List Text := fun i c => strNat t.natoms :: (name ++ ['.'] ++ strNat (i + 1)) :: rw' c
  have hlenr : ∀ c : List (List Rat), c.length = t.natoms → (rw' c).length = t.natoms := by
    intro c hc
    have := congrArg List.length (hH c hc).2.2
    simpa [hsym, hc] using this
  let L : List (List Text) := t.coords.zipIdx.map fun q => bl q.2 q.1
  have hL : ∀ l ∈ L, l.length = t.natoms + 2 := by
    intro l hl
    obtain ⟨q, hq, rfl⟩ := List.mem_map.1 hl
    have hq' := List.fst_mem_of_mem_zipIdx hq
    simp [bl, hlenr _ (hco _ hq')]
  refine ⟨_, L.flatten, xyzLoop_eq npstr t name t.coords
    (fun i c => strNat t.natoms ++ ['\n'] ++ (name ++ ['.'] ++ strNat (i + 1)) ++ ['\n'] ++ tx c) 0 ?_ [], ?_, ?_, ?_⟩
  · intro i c hc
    simp only [xyzStep, (hH c (hco c hc)).1, Option.map_some]
  · rw [List.nil_append]
    apply isLines_flatMap
    intro q hq
    have hq' := List.fst_mem_of_mem_zipIdx hq
    have h3 := (hH q.1 (hco _ hq')).2.1
    have h1 := isLines_one (strNat t.natoms) (strNat_noChar _ (by decide) _)
    have h2 := isLines_one (name ++ ['.'] ++ strNat (q.2 + 1)) (by
      simp only [List.mem_append, not_or]
      exact ⟨⟨hname, by decide⟩, strNat_noChar _ (by decide) _⟩)
    have := isLines_append h1 (isLines_append h2 h3)
    simpa [bl, List.append_assoc] using this
  · rw [length_flatten_const _ _ hL]
    simp [L]
  · intro i hi
    refine ⟨rw' t.coords[i], ?_, (hH _ (hco _ (List.getElem_mem hi))).2.2⟩
    rw [take_drop_flatten _ _ hL i (by simpa [L] using hi)]
    simp [L, bl]

/-- **C75**. Symbols that match neither the number of atoms nor a single one are refused. -/
theorem C75_refused (npstr : Rat → Text) (t : Tr) (name : Text) (h1 : t.symbols.length ≠ t.natoms) (h2 : t.symbols.length ≠ 1)
    (hco : ∀ c ∈ t.coords, c.length = t.natoms) (hne : t.coords ≠ []) : writeXyz npstr t name = none := by
  cases hc : t.coords with
  | nil => exact absurd hc hne
  | cons c cs =>
    have hl := hco c (by rw [hc]; simp)
    have : bcast t.symbols c.length = none := by
      unfold bcast
      rw [if_neg (by rw [hl]; exact h1)]
      split
      · rename_i s h; rw [h] at h2; simp at h2
      · rfl
    simp only [writeXyz, hc, xyzLoop, xyzStep, atposStrFast, this, Option.map_none]

private def exTr : Tr :=
  ⟨2, ["Al".toList, "N".toList], [[[1, 2, 3], [4, 5, 6]], [[7, 8, 9], [1, 2, 3]]], [[[1]], [[1]]], none⟩
private def exNum (x : Rat) : Text := (strInt x.num).take 32

example : writeXyz exNum exTr "mol".toList =
    some "2\nmol.1\nAl  1  2  3\nN  4  5  6\n2\nmol.2\nAl  7  8  9\nN  1  2  3\n".toList := by decide +kernel

/-! ## C85 text blocks -/

theorem strArr1_words (num : Rat → Text) (hn : ∀ x, IsWord (num x)) (delim : Text) (hd : delim ≠ []) (hd' : Blank delim)
    (eps : Rat) (row : List Rat) :
    splitWs (strArr1 num delim eps row) = row.map fun x => num (if 0 < eps ∧ |x| ≤ eps then 0 else x) := by
  unfold strArr1
  rw [splitWs_join delim hd hd']
  · by_cases he : 0 < eps
    · simp [he, fixEps]
    · simp [he]
  · intro t ht
    obtain ⟨x, _, rfl⟩ := List.mem_map.1 ht
    exact hn x

theorem strArr1_noNl (num : Rat → Text) (hn : ∀ x, IsWord (num x)) (delim : Text) (hd : '\n' ∉ delim) (eps : Rat) (row : List Rat) :
    '\n' ∉ strArr1 num delim eps row := by
  unfold strArr1
  apply joinSep_noNl _ hd
  intro t ht
  obtain ⟨x, _, rfl⟩ := List.mem_map.1 ht
  exact word_noNl (hn x)

theorem strArr2_eq (num : Rat → Text) (delim : Text) (eps : Rat) (arr : List (List Rat)) :
    strArr2 num delim eps arr = joinSep ['\n'] (arr.map (strArr1 num delim eps)) := by
  unfold strArr2 strArr1
  by_cases he : 0 < eps <;> simp [he, Function.comp_def]

/-- **C85**. `str_arr` of a 2d array has one line per row; its words are the formatted entries of the row, entries with
`|x| ≤ eps` written as zero if `eps > 0`. -/
theorem C85_str_arr (num : Rat → Text) (hn : ∀ x, IsWord (num x)) (delim : Text) (hd : delim ≠ []) (hd' : Blank delim)
    (hnl : '\n' ∉ delim) (eps : Rat) (arr : List (List Rat)) (hne : arr ≠ []) :
    (splitSepAux '\n' [] [] (strArr2 num delim eps arr)).map splitWs =
      arr.map fun row => row.map fun x => num (if 0 < eps ∧ |x| ≤ eps then 0 else x) := by
  rw [strArr2_eq, splitSepAux_join _ _ _ (by simpa using hne), List.map_map]
  · refine List.map_congr_left fun row _ => ?_
    exact strArr1_words num hn delim hd hd' eps row
  · intro t ht
    obtain ⟨row, _, rfl⟩ := List.mem_map.1 ht
    exact strArr1_noNl num hn delim hnl eps row

/-- **C85**. `str_arr` of a 1d array is one line with these words. -/
theorem C85_str_arr_1d (num : Rat → Text) (hn : ∀ x, IsWord (num x)) (delim : Text) (hd : delim ≠ []) (hd' : Blank delim)
    (hnl : '\n' ∉ delim) (eps : Rat) (row : List Rat) :
    '\n' ∉ strArr1 num delim eps row ∧
    splitWs (strArr1 num delim eps row) = row.map fun x => num (if 0 < eps ∧ |x| ≤ eps then 0 else x) :=
  ⟨strArr1_noNl num hn delim hnl eps row, strArr1_words num hn delim hd hd' eps row⟩

/-- **C85**. `atpos_str` refuses lists of different length; otherwise there is one line per atom, its words are the symbol and
the formatted coordinates. -/
theorem C85_atpos_str (num : Rat → Text) (hn : ∀ x, IsWord (num x)) (delim : Text) (hd : delim ≠ []) (hd' : Blank delim)
    (hnl : '\n' ∉ delim) (eps : Rat) (symbols : List Text) (hs : ∀ s ∈ symbols, IsWord s) (coords : List (List Rat))
    (hne : symbols ≠ []) :
    (symbols.length ≠ coords.length → atposStr num delim eps symbols coords = none) ∧
    (symbols.length = coords.length → ∃ txt, atposStr num delim eps symbols coords = some txt ∧
      (splitSepAux '\n' [] [] txt).map splitWs =
        List.zipWith (fun s row => s :: row.map fun x => num (if 0 < eps ∧ |x| ≤ eps then 0 else x)) symbols coords) := by
  refine ⟨fun h => by simp [atposStr, h], fun h => ⟨_, by rw [atposStr, if_pos h], ?_⟩⟩
  rw [splitSepAux_join]
  · rw [List.map_zipWith, ← List.map_uncurry_zip_eq_zipWith, ← List.map_uncurry_zip_eq_zipWith]
    refine List.map_congr_left fun q hq => ?_
    have hq' := List.of_mem_zip hq
    simp only [Function.uncurry]
    rw [← strArr1_words num hn delim hd hd' eps q.2]
    obtain ⟨hw1, hw2⟩ := hs _ hq'.1
    unfold splitWs
    rw [List.append_assoc, splitWsAux_tok _ hw2, List.nil_append]
    obtain ⟨d, ds, rfl⟩ := List.exists_cons_of_ne_nil hd
    rw [List.cons_append, splitWsAux, hd' d (by simp)]
    simp only [if_true, if_neg hw1]
    rw [splitWsAux_sep ds fun c hc => hd' c (by simp [hc])]
  · intro e
    have := congrArg List.length e
    simp only [List.length_zipWith, List.length_nil, ← h, Nat.min_self, List.length_eq_zero_iff] at this
    exact hne this
  · intro t ht
    rw [← List.map_uncurry_zip_eq_zipWith] at ht
    obtain ⟨q, hq, rfl⟩ := List.mem_map.1 ht
    have hq' := List.of_mem_zip hq
    simp only [Function.uncurry, List.mem_append, not_or]
    exact ⟨⟨word_noNl (hs _ hq'.1), hnl⟩, strArr1_noNl num hn delim hnl eps q.2⟩

/-- **C85**. `atspec_str` refuses lists of different length; otherwise line `i` has the three fields symbol, mass and
pseudopotential of atom type `i`, separated by tabs. -/
theorem C85_atspec_str (symbols masses pseudos : List Text) (hne : symbols ≠ [])
    (h : ∀ l ∈ [symbols, masses, pseudos], ∀ t ∈ l, '\n' ∉ t ∧ '\t' ∉ t) :
    (¬ (symbols.length = masses.length ∧ symbols.length = pseudos.length) → atspecStr symbols masses pseudos = none) ∧
    (symbols.length = masses.length → symbols.length = pseudos.length → ∃ txt, atspecStr symbols masses pseudos = some txt ∧
      (splitSepAux '\n' [] [] txt).map (splitSepAux '\t' [] []) =
        (symbols.zip (masses.zip pseudos)).map fun q => [q.1, q.2.1, q.2.2]) := by
  refine ⟨fun hh => ?_, fun h1 h2 => ⟨_, by rw [atspecStr, if_pos ⟨h1, by omega⟩], ?_⟩⟩
  · rw [atspecStr, if_neg]
    rintro ⟨a, b⟩
    exact hh ⟨a, a.trans b⟩
  · have key : ∀ q ∈ symbols.zip (masses.zip pseudos), ('\n' ∉ q.1 ∧ '\t' ∉ q.1) ∧ ('\n' ∉ q.2.1 ∧ '\t' ∉ q.2.1) ∧
        ('\n' ∉ q.2.2 ∧ '\t' ∉ q.2.2) := by
      intro q hq
      have a := List.of_mem_zip hq
      have b := List.of_mem_zip a.2
      exact ⟨h symbols (by simp) _ a.1, h masses (by simp) _ b.1, h pseudos (by simp) _ b.2⟩
    rw [splitSepAux_join]
    · rw [List.map_map]
      refine List.map_congr_left fun q hq => ?_
      obtain ⟨k1, k2, k3⟩ := key q hq
      have := splitSepAux_join '\t' [] [q.1, q.2.1, q.2.2] (by simp) (by
        intro t ht
        simp only [List.mem_cons, List.not_mem_nil, or_false] at ht
        rcases ht with rfl | rfl | rfl
        · exact k1.2
        · exact k2.2
        · exact k3.2)
      simpa [joinSep] using this
    · intro e
      have := congrArg List.length e
      simp only [List.length_map, List.length_zip, ← h1, ← h2, Nat.min_self, List.length_nil, List.length_eq_zero_iff] at this
      exact hne this
    · intro t ht
      obtain ⟨q, hq, rfl⟩ := List.mem_map.1 ht
      obtain ⟨k1, k2, k3⟩ := key q hq
      simp only [List.mem_append, not_or]
      exact ⟨⟨⟨⟨k1.1, by decide⟩, k2.1⟩, by decide⟩, k3.1⟩

example : atposStr exNum "  ".toList 1 ["Al".toList, "N".toList] [[1, 2, 3], [-4, 5, 6]] = some "Al  0  2  3\nN  -4  5  6".toList := by
  decide +kernel
example : atspecStr ["Al".toList, "N".toList] ["1.2".toList, "3".toList] ["a".toList, "b".toList] = some "Al\t1.2\ta\nN\t3\tb".toList := by
  decide +kernel

/-! ## C84 write_axsf -/

theorem joinSep_lines (rows : List Text) (hne : rows ≠ []) (h : ∀ t ∈ rows, '\n' ∉ t) : IsLines (joinSep ['\n'] rows ++ ['\n']) rows := by
  refine ⟨?_, h⟩
  clear h
  induction rows with
  | nil => exact absurd rfl hne
  | cons a l ih =>
    cases l with
    | nil => simp [joinSep]
    | cons b l =>
      have := ih (by simp)
      simp only [joinSep, List.append_assoc, List.map_cons, List.flatten_cons] at this ⊢
      rw [this]

theorem axsfLoop_eq (num npstr : Rat → Text) (eps : Rat) (t : Tr) (cs : List (List (List Rat) × List (List Rat)))
    (f : Nat → List (List Rat) × List (List Rat) → Text) (n : Nat)
    (hf : ∀ (i : Nat) (c : List (List Rat) × List (List Rat)), c ∈ cs → axsfStep num npstr eps t i c.1 c.2 = some ('\n' :: f i c)) (acc : Text) :
    ∃ r, axsfLoop num npstr eps t n cs acc = some r ∧
      r ++ ['\n'] = acc ++ ['\n'] ++ ((cs.zipIdx n).map fun q => f q.2 q.1 ++ ['\n']).flatten := by
  induction cs generalizing n acc with
  | nil => exact ⟨acc, rfl, by simp⟩
  | cons c cs ih =>
    simp only [axsfLoop, hf n c (by simp)]
    obtain ⟨r, h1, h2⟩ := ih (n + 1) (fun i c hc => hf i c (by simp [hc])) (acc ++ '\n' :: f n c)
    exact ⟨r, h1, by rw [h2]; simp⟩

theorem axsf_general (num npstr : Rat → Text) (eps conv : Rat) (heps : 0 < eps) (t : Tr)
    (hsym : t.symbols.length = t.natoms) (hcell : t.cell.length = t.coords.length) (hc3 : ∀ c ∈ t.cell, c.length = 3)
    (hlen : (ccf conv t).length = t.coords.length) (hco : ∀ c ∈ ccf conv t, c.length = t.natoms)
    (hsw : ∀ s ∈ t.symbols, IsWord s ∧ s.length ≤ 32) (hn : ∀ x, IsWord (npstr x) ∧ (npstr x).length ≤ 32)
    (hnum : ∀ x, IsWord (num x)) :
    ∃ txt lines, writeAxsf num npstr eps conv t = some txt ∧ IsLines (txt ++ ['\n']) lines ∧
      lines.length = 2 + t.coords.length * (t.natoms + 7) ∧
      lines.take 2 = ["ANIMSTEPS ".toList ++ strNat t.coords.length, "CRYSTAL".toList] ∧
      ∀ (i : Nat) (hi : i < t.coords.length), ∃ cellRows rows,
        (lines.drop (2 + i * (t.natoms + 7))).take (t.natoms + 7) =
          ("PRIMVEC ".toList ++ strNat (i + 1)) :: (cellRows ++ ("PRIMCOORD ".toList ++ strNat (i + 1)) ::
            (strNat t.natoms ++ " 1".toList) :: (rows ++ [[]])) ∧
        cellRows.map splitWs = (t.cell[i]'(by omega)).map (fun row => row.map fun x => num (if |x| ≤ eps then 0 else x)) ∧
        rows.map splitWs = List.zipWith (fun s row => s :: row.map npstr) t.symbols ((ccf conv t)[i]'(by omega)) := by
  classical
  have H' : ∀ c : List (List Rat), ∃ txt, ∃ rows, c.length = t.natoms → (atposStrFast npstr t.symbols c = some txt ∧ IsLines txt rows ∧
      rows.map splitWs = List.zipWith (fun s row => s :: row.map npstr) t.symbols c) := by
    intro c
    by_cases hc : c.length = t.natoms
    · obtain ⟨a, b, h⟩ := atposStrFast_lines npstr t.symbols c (by rw [hsym, hc]) hsw hn
      exact ⟨a, b, fun _ => h⟩
    · exact ⟨[], [], fun h => absurd h hc⟩
  choose tx rw' hH using H'
  have hlenr : ∀ c : List (List Rat), c.length = t.natoms → (rw' c).length = t.natoms := by
    intro c hc
    have := congrArg List.length (hH c hc).2.2
    simpa [hsym, hc] using this
  let cr : List (List Rat) → List Text := fun c => c.map (strArr1 num (List.replicate 4 ' ') eps)
  let bl : Nat → List (List Rat) × List (List Rat) → List Text := fun i c =>
    ("PRIMVEC ".toList ++ strNat (i + 1)) :: (cr c.1 ++ ("PRIMCOORD ".toList ++ strNat (i + 1)) ::
            (strNat t.natoms ++ " 1".toList) :: (rw' c.2 ++ [[]]))
  let Z := t.cell.zip (ccf conv t)
  have hZ : ∀ c ∈ Z, c.1.length = 3 ∧ c.2.length = t.natoms := by
    intro c hc
    have := List.of_mem_zip hc
    exact ⟨hc3 _ this.1, hco _ this.2⟩
  have hZl : Z.length = t.coords.length := by simp [Z, hcell, hlen]
  let L : List (List Text) := Z.zipIdx.map fun q => bl q.2 q.1
  have hL : ∀ l ∈ L, l.length = t.natoms + 7 := by
    intro l hl
    obtain ⟨q, hq, rfl⟩ := List.mem_map.1 hl
    have hq' := hZ _ (List.fst_mem_of_mem_zipIdx hq)
    simp only [bl, cr, List.length_cons, List.length_append, List.length_map, hlenr _ hq'.2, hq'.1, List.length_nil]
    omega
  obtain ⟨r, hr1, hr2⟩ := axsfLoop_eq num npstr eps t Z (fun i c => "PRIMVEC ".toList ++ strNat (i + 1) ++ ['\n'] ++
    strArr2 num (List.replicate 4 ' ') eps c.1 ++
    "\nPRIMCOORD ".toList ++ strNat (i + 1) ++ ['\n'] ++ strNat t.natoms ++ " 1\n".toList ++ tx c.2) 0 (by
      intro i c hc
      simp only [axsfStep, (hH c.2 (hZ c hc).2).1, Option.map_some]
      rfl) ("ANIMSTEPS ".toList ++ strNat t.coords.length ++ "\nCRYSTAL".toList)
  have hnd : ∀ i, '\n' ∉ strNat i := strNat_noChar _ (by decide)
  refine ⟨r, ["ANIMSTEPS ".toList ++ strNat t.coords.length, "CRYSTAL".toList] ++ L.flatten, hr1, ?_, ?_, ?_, ?_⟩
  · rw [hr2]
    apply isLines_append
    · have h1 := isLines_one ("ANIMSTEPS ".toList ++ strNat t.coords.length) (by
        simp only [List.mem_append, not_or]; exact ⟨by decide, hnd _⟩)
      have h2 := isLines_one "CRYSTAL".toList (by decide)
      have := isLines_append h1 h2
      simpa [List.append_assoc] using this
    · apply isLines_flatMap
      intro q hq
      have hq' := hZ _ (List.fst_mem_of_mem_zipIdx hq)
      have h1 := isLines_one ("PRIMVEC ".toList ++ strNat (q.2 + 1)) (by
        simp only [List.mem_append, not_or]; exact ⟨by decide, hnd _⟩)
      have h2 := joinSep_lines (cr q.1.1) (by
        intro e; have := congrArg List.length e; simp [cr, hq'.1] at this) (by
        intro x hx
        obtain ⟨row, _, rfl⟩ := List.mem_map.1 hx
        exact strArr1_noNl num hnum _ (by decide) eps row)
      have h3 := isLines_one ("PRIMCOORD ".toList ++ strNat (q.2 + 1)) (by
        simp only [List.mem_append, not_or]; exact ⟨by decide, hnd _⟩)
      have h4 := isLines_one (strNat t.natoms ++ " 1".toList) (by
        simp only [List.mem_append, not_or]; exact ⟨hnd _, by decide⟩)
      have h5 := (hH q.1.2 hq'.2).2.1
      have h6 := isLines_one [] (by simp)
      have := isLines_append h1 (isLines_append h2 (isLines_append h3 (isLines_append h4 (isLines_append h5 h6))))
      rw [strArr2_eq]
      convert this using 1
      · simp [cr, List.append_assoc]
      · rfl
  · rw [List.length_append, length_flatten_const _ _ hL]
    simp [L, hZl]
  · rfl
  · intro i hi
    refine ⟨cr (t.cell[i]'(by omega)), rw' ((ccf conv t)[i]'(by omega)), ?_, ?_, (hH _ (hco _ (List.getElem_mem _))).2.2⟩
    · rw [← List.drop_drop]
      have : (["ANIMSTEPS ".toList ++ strNat t.coords.length, "CRYSTAL".toList] ++ L.flatten).drop 2 = L.flatten := rfl
      rw [this, take_drop_flatten _ _ hL i (by simpa [L, hZl] using hi)]
      simp [L, bl, Z]
    · simp only [cr, List.map_map]
      refine List.map_congr_left fun row _ => ?_
      simp only [Function.comp]
      rw [strArr1_words num hnum _ (by simp) (by
        intro c hc
        rw [List.mem_replicate] at hc
        rw [hc.2]; decide)]
      simp [heps]

/-- **C84**. Without forces: `write_axsf` writes (with a final line feed added) the two header lines and `nstep` blocks of
`natoms+7` lines. Block `i` is `PRIMVEC i+1`, three lines with the cell of step `i` (entries `|x| ≤ eps` as zero),
`PRIMCOORD i+1`, `natoms 1`, one line for each atom with symbol and coordinates in step `i`, and an empty line. -/
theorem C84_write_axsf (num npstr : Rat → Text) (eps conv : Rat) (heps : 0 < eps) (t : Tr)
    (hsym : t.symbols.length = t.natoms) (hcell : t.cell.length = t.coords.length) (hc3 : ∀ c ∈ t.cell, c.length = 3)
    (hco : ∀ c ∈ t.coords, c.length = t.natoms) (hf : t.forces = none)
    (hsw : ∀ s ∈ t.symbols, IsWord s ∧ s.length ≤ 32) (hn : ∀ x, IsWord (npstr x) ∧ (npstr x).length ≤ 32)
    (hnum : ∀ x, IsWord (num x)) :
    ∃ txt lines, writeAxsf num npstr eps conv t = some txt ∧ IsLines (txt ++ ['\n']) lines ∧
      lines.length = 2 + t.coords.length * (t.natoms + 7) ∧
      lines.take 2 = ["ANIMSTEPS ".toList ++ strNat t.coords.length, "CRYSTAL".toList] ∧
      ∀ (i : Nat) (hi : i < t.coords.length), ∃ cellRows rows,
        (lines.drop (2 + i * (t.natoms + 7))).take (t.natoms + 7) =
          ("PRIMVEC ".toList ++ strNat (i + 1)) :: (cellRows ++ ("PRIMCOORD ".toList ++ strNat (i + 1)) ::
            (strNat t.natoms ++ " 1".toList) :: (rows ++ [[]])) ∧
        cellRows.map splitWs = (t.cell[i]'(by omega)).map (fun row => row.map fun x => num (if |x| ≤ eps then 0 else x)) ∧
        rows.map splitWs = List.zipWith (fun s row => s :: row.map npstr) t.symbols t.coords[i] := by
  have e : ccf conv t = t.coords := by simp [ccf, hf]
  have := axsf_general num npstr eps conv heps t hsym hcell hc3 (by rw [e]) (by rw [e]; exact hco) hsw hn hnum
  simpa only [e] using this

/-- **C84**. With forces: the same, each atom line having the forces of the atom in step `i`, converted, behind the
coordinates. -/
theorem C84_write_axsf_forces (num npstr : Rat → Text) (eps conv : Rat) (heps : 0 < eps) (t : Tr) (fs : List (List (List Rat)))
    (hsym : t.symbols.length = t.natoms) (hcell : t.cell.length = t.coords.length) (hc3 : ∀ c ∈ t.cell, c.length = 3)
    (hco : ∀ c ∈ t.coords, c.length = t.natoms) (hf : t.forces = some fs) (hfl : fs.length = t.coords.length)
    (hfn : ∀ f ∈ fs, f.length = t.natoms)
    (hsw : ∀ s ∈ t.symbols, IsWord s ∧ s.length ≤ 32) (hn : ∀ x, IsWord (npstr x) ∧ (npstr x).length ≤ 32)
    (hnum : ∀ x, IsWord (num x)) :
    ∃ txt lines, writeAxsf num npstr eps conv t = some txt ∧ IsLines (txt ++ ['\n']) lines ∧
      lines.length = 2 + t.coords.length * (t.natoms + 7) ∧
      lines.take 2 = ["ANIMSTEPS ".toList ++ strNat t.coords.length, "CRYSTAL".toList] ∧
      ∀ (i : Nat) (hi : i < t.coords.length), ∃ cellRows rows,
        (lines.drop (2 + i * (t.natoms + 7))).take (t.natoms + 7) =
          ("PRIMVEC ".toList ++ strNat (i + 1)) :: (cellRows ++ ("PRIMCOORD ".toList ++ strNat (i + 1)) ::
            (strNat t.natoms ++ " 1".toList) :: (rows ++ [[]])) ∧
        cellRows.map splitWs = (t.cell[i]'(by omega)).map (fun row => row.map fun x => num (if |x| ≤ eps then 0 else x)) ∧
        rows.map splitWs = List.zipWith (fun s row => s :: row.map npstr) t.symbols
          (List.zipWith (fun c f => c ++ f.map fun x => x * conv) t.coords[i] (fs[i]'(by omega))) := by
  have e : ccf conv t = List.zipWith (fun c f => List.zipWith (ccfRow conv) c f) t.coords fs := by simp [ccf, hf]
  have := axsf_general num npstr eps conv heps t hsym hcell hc3 (by rw [e]; simp [hfl]) (by
    rw [e]
    intro c hc
    rw [← List.map_uncurry_zip_eq_zipWith] at hc
    obtain ⟨q, hq, rfl⟩ := List.mem_map.1 hc
    have hq' := List.of_mem_zip hq
    simp [Function.uncurry, hco _ hq'.1, hfn _ hq'.2]) hsw hn hnum
  simp only [e, List.getElem_zipWith] at this
  exact this

private def exTr2 : Tr :=
  ⟨1, ["Al".toList], [[[1, 2, 3]], [[7, 8, 9]]], [[[1, 0, 0], [0, 2, 0], [0, 0, 3]], [[4, 0, 0], [0, 5, 0], [0, 0, 6]]],
    some [[[1, 1, 1]], [[2, 2, 2]]]⟩

example : writeAxsf exNum exNum (1 / 10) 3 exTr2 =
    some ("ANIMSTEPS 2\nCRYSTAL\nPRIMVEC 1\n1    0    0\n0    2    0\n0    0    3\nPRIMCOORD 1\n1 1\nAl  1  2  3  3  3  3\n" ++
    "\nPRIMVEC 2\n4    0    0\n0    5    0\n0    0    6\nPRIMCOORD 2\n1 1\nAl  7  8  9  6  6  6\n").toList := by decide +kernel

/-! ## C73 read_matdyn_freq -/

theorem splitWsAux_space (cur l rest : Text) : splitWsAux cur (l ++ ' ' :: rest) = splitWsAux cur l ++ splitWsAux [] rest := by
  induction l generalizing cur with
  | nil =>
    have : isPySpace ' ' = true := by decide
    simp only [List.nil_append, splitWsAux, this, if_true]
    split <;> simp_all
  | cons c l ih =>
    simp only [List.cons_append, splitWsAux]
    split
    · split
      · exact ih []
      · rw [ih []]; rfl
    · exact ih _

theorem splitWs_lines (ls : List Text) : splitWs (joinSep [' '] ls) = ls.flatMap splitWs := by
  induction ls with
  | nil => rfl
  | cons a l ih =>
    cases l with
    | nil => simp [joinSep]
    | cons b l =>
      simp only [joinSep, List.append_assoc]
      have : a ++ ([' '] ++ joinSep [' '] (b :: l)) = a ++ ' ' :: joinSep [' '] (b :: l) := rfl
      rw [this, splitWs, splitWsAux_space]
      rw [List.flatMap_cons, ← ih]
      rfl

theorem skipLit_eq (w : Text) (hw : Blank w) (p : Text) (c : Char) (cs : Text) (hp : p = c :: cs) (hc : isPySpace c = false) (rest : Text) :
    skipLit p (w ++ (p ++ rest)) = some rest := by
  have h : (w ++ (p ++ rest)).dropWhile isPySpace = p ++ rest := by
    rw [List.dropWhile_append_of_pos hw, hp, List.cons_append, List.dropWhile_cons_of_neg (by simp [hc])]
  simp only [skipLit, h, List.drop_left]
  rw [if_pos (List.isPrefixOf_iff_prefix.2 ⟨rest, rfl⟩)]

theorem skipNum_eq (w : Text) (hw : Blank w) (n : Nat) (rest : Text) (hr : ∀ c, rest.head? = some c → c.isDigit = false) :
    skipNum (w ++ (strNat n ++ rest)) = some (n, rest) := by
  obtain ⟨d, ds, hd⟩ := List.exists_cons_of_ne_nil (strNat_ne_nil n)
  have hdd : isPySpace d = false := isPySpace_digit d (strNat_digits n d (by rw [hd]; simp))
  have h : (w ++ (strNat n ++ rest)).dropWhile isPySpace = strNat n ++ rest := by
    rw [List.dropWhile_append_of_pos hw, hd, List.cons_append, List.dropWhile_cons_of_neg (by simp [hdd])]
  have ht : rest.takeWhile Char.isDigit = [] ∧ rest.dropWhile Char.isDigit = rest := by
    cases rest with
    | nil => exact ⟨rfl, rfl⟩
    | cons c r =>
      have := hr c rfl
      exact ⟨List.takeWhile_cons_of_neg (by simp [this]), List.dropWhile_cons_of_neg (by simp [this])⟩
  have h1 : (strNat n ++ rest).takeWhile Char.isDigit = strNat n := by
    rw [List.takeWhile_append_of_pos (strNat_digits n), ht.1, List.append_nil]
  have h2 : (strNat n ++ rest).dropWhile Char.isDigit = rest := by
    rw [List.dropWhile_append_of_pos (strNat_digits n), ht.2]
  simp only [skipNum, h, h1, h2, if_neg (strNat_ne_nil n)]
  simp [strNat]

theorem skipLit_mem (p s s' : Text) (h : skipLit p s = some s') (c : Char) (hc : c ∈ p) : c ∈ s := by
  simp only [skipLit] at h
  split at h
  · rename_i hp
    obtain ⟨r, hr⟩ := List.isPrefixOf_iff_prefix.1 hp
    have : c ∈ s.dropWhile isPySpace := by rw [← hr]; simp [hc]
    exact (List.dropWhile_sublist _).subset this
  · cases h

theorem hdrAt_b (s : Text) (r : Nat × Nat) (h : hdrAt s = some r) : 'b' ∈ s := by
  unfold hdrAt at h
  split at h
  · cases h
  · split at h
    · rw [Option.bind_eq_bind, Option.bind_eq_some_iff] at h
      obtain ⟨s', h1, _⟩ := h
      exact skipLit_mem _ _ _ h1 'b' (by decide)
    · cases h

theorem hdr_noB (s : Text) (h : 'b' ∉ s) : hdr s = none := by
  induction s with
  | nil => rfl
  | cons c s ih =>
    simp only [hdr, ih fun hh => h (by simp [hh])]
    cases e : hdrAt (c :: s) with
    | none => rfl
    | some r => exact absurd (hdrAt_b _ r e) h

theorem hdr_pre (pre s : Text) (r : Nat × Nat) (h : hdr s = some r) : hdr (pre ++ s) = some r := by
  induction pre with
  | nil => exact h
  | cons c p ih => simp only [List.cons_append, hdr, ih]

theorem hdr_w0 (w : Text) (hw : w ≠ []) (hb : Blank w) (T : Text) (hT : 'b' ∉ T) (r : Nat × Nat)
    (h : ∀ c w', isPySpace c = true → Blank w' → hdrAt (c :: (w' ++ ("nbnd".toList ++ T))) = some r) :
    hdr (w ++ ("nbnd".toList ++ T)) = some r := by
  induction w with
  | nil => exact absurd rfl hw
  | cons c w ih =>
    have hc := hb c (by simp)
    have hb' : Blank w := fun x hx => hb x (by simp [hx])
    cases w with
    | nil =>
      have h0 : hdr ("nbnd".toList ++ T) = none := by
        have e : "nbnd".toList ++ T = 'n' :: 'b' :: 'n' :: 'd' :: T := rfl
        have n1 : isPySpace 'n' = false := by decide
        have n2 : isPySpace 'b' = false := by decide
        have n3 : isPySpace 'd' = false := by decide
        rw [e]
        simp [hdr, hdr_noB T hT, hdrAt, n1, n2, n3]
      simp only [List.cons_append, List.nil_append, hdr, h0]
      exact h c [] hc hb'
    | cons d w =>
      have := ih (by simp) hb'
      rw [List.cons_append, hdr, this]

theorem hdr_header {line : Text} {nbnd nks : Nat} (H : Header line nbnd nks) : hdr line = some (nbnd, nks) := by
  rw [H.eq]
  apply hdr_pre
  have nob : ∀ i, 'b' ∉ H.w i := by
    intro i hm
    have := H.blank i _ hm
    revert this; decide
  have nobn : ∀ n, 'b' ∉ strNat n := strNat_noChar _ (by decide)
  apply hdr_w0 _ H.w0 (H.blank 0)
  · simp only [List.mem_append, List.mem_cons, not_or]
    exact ⟨nob _, by decide, nob _, nobn _, nob _, by decide, nob _, by decide, nob _, by decide, nob _, nobn _, nob _, by decide, H.post_b⟩
  · intro c w' hc hb'
    have hd : ∀ (w : Text) (x : Char) (r : Text), Blank w → x.isDigit = false → ∀ c, (w ++ x :: r).head? = some c → c.isDigit = false := by
      intro w x r hw hx c hcc
      cases w with
      | nil => simp only [List.nil_append, List.head?_cons, Option.some.injEq] at hcc; rw [← hcc]; exact hx
      | cons d w =>
        simp only [List.cons_append, List.head?_cons, Option.some.injEq] at hcc
        subst hcc
        have h1 := hw d (by simp)
        cases h2 : d.isDigit with
        | false => rfl
        | true => rw [isPySpace_digit d h2] at h1; cases h1
    have s1 := fun rest => skipLit_eq (c :: w') (by
      intro x hx
      rcases List.mem_cons.1 hx with rfl | hx
      · exact hc
      · exact hb' x hx) "nbnd".toList 'n' _ rfl (by decide) rest
    have sl : ∀ (i : Fin 9) (x : Char) (rest : Text), isPySpace x = false → skipLit [x] (H.w i ++ (x :: rest)) = some rest :=
      fun i x rest hx => skipLit_eq (H.w i) (H.blank i) [x] x [] rfl hx rest
    have sk : ∀ (i : Fin 9) (rest : Text), skipLit "nks".toList (H.w i ++ ("nks".toList ++ rest)) = some rest :=
      fun i rest => skipLit_eq (H.w i) (H.blank i) "nks".toList 'n' _ rfl (by decide) rest
    simp only [hdrAt, hc, if_true]
    rw [← List.cons_append, s1]
    simp only [Option.bind_eq_bind, Option.bind_some]
    rw [sl 1 '=' _ (by decide)]
    simp only [Option.bind_some]
    rw [skipNum_eq _ (H.blank 2) _ _ (hd _ _ _ (H.blank 3) (by decide))]
    simp only [Option.bind_some]
    rw [sl 3 ',' _ (by decide)]
    simp only [Option.bind_some]
    rw [sk 4]
    simp only [Option.bind_some]
    rw [sl 5 '=' _ (by decide)]
    simp only [Option.bind_some]
    rw [skipNum_eq _ (H.blank 6) _ _ (hd _ _ _ (H.blank 7) (by decide))]
    simp only [Option.bind_some]
    rw [sl 7 '/' _ (by decide)]
    rfl

theorem freqLoop_eq (items : List Rat) (nbnd nks : Nat) (kf : Rows × Rows) (n : Nat) (hn : n ≤ nks) :
    freqLoop items nbnd nks kf n = some
      (fun i => if i < n then (items.drop (i * (3 + nbnd))).take 3 else kf.1 i,
       fun i => if i < n then (items.drop (i * (3 + nbnd) + 3)).take nbnd else kf.2 i) := by
  induction n with
  | zero => simp [freqLoop]
  | succ n ih =>
    rw [freqLoop, ih (by omega)]
    simp only [if_pos (show n < nks by omega), Option.some.injEq, Prod.mk.injEq]
    constructor <;> funext i <;> by_cases h : i = n
    · subst h; simp
    · rw [Function.update_of_ne h]; congr 1; exact propext (by omega)
    · subst h; simp
    · rw [Function.update_of_ne h]; congr 1; exact propext (by omega)

theorem freqLoop_none (items : List Rat) (nbnd nks : Nat) (kf : Rows × Rows) (n : Nat) (hn : nks < n) :
    freqLoop items nbnd nks kf n = none := by
  induction n with
  | zero => omega
  | succ n ih =>
    rw [freqLoop]
    by_cases h : nks < n
    · rw [ih h]
    · rw [freqLoop_eq _ _ _ _ _ (by omega)]
      simp only [if_neg (show ¬ n < nks by omega)]

/-- What is read from a file with `rows.length` complete records followed by an incomplete one. -/
theorem readMatdyn_general (tofloat : Text → Option Rat) (junkK junkF : Rows) (line : Text) (nbnd nks : Nat)
    (H : Header line nbnd nks) (data : List Text) (rows : List (List Rat × List Rat)) (extra : List Rat)
    (hx : extra.length < 3 + nbnd) (hr : ∀ r ∈ rows, r.1.length = 3 ∧ r.2.length = nbnd)
    (hw : mapE tofloat (data.flatMap splitWs) = some ((rows.map fun r => r.1 ++ r.2).flatten ++ extra)) :
    (nks < rows.length → readMatdynFreq tofloat junkK junkF (line :: data) = none) ∧
    (rows.length ≤ nks → ∃ k f, readMatdynFreq tofloat junkK junkF (line :: data) = some (nks, nbnd, k, f) ∧
      (∀ (i : Nat) (h : i < rows.length), k i = rows[i].1 ∧ f i = rows[i].2) ∧
      ∀ i : Nat, rows.length ≤ i → k i = junkK i ∧ f i = junkF i) := by
  have hL : ∀ l ∈ rows.map (fun r => r.1 ++ r.2), l.length = 3 + nbnd := by
    intro l hl
    obtain ⟨r, hr', rfl⟩ := List.mem_map.1 hl
    simp [hr r hr']
  have hlen := length_flatten_const _ _ hL
  have hdiv : ((rows.map fun r => r.1 ++ r.2).flatten ++ extra).length / (3 + nbnd) = rows.length := by
    rw [List.length_append, hlen, List.length_map, Nat.mul_comm, Nat.mul_add_div (by omega), Nat.div_eq_of_lt hx, Nat.add_zero]
  simp only [readMatdynFreq, hdr_header H, splitWs_lines, hw, hdiv]
  refine ⟨fun h => by rw [freqLoop_none _ _ _ _ _ h]; rfl, fun h => ?_⟩
  rw [freqLoop_eq _ _ _ _ _ h]
  refine ⟨_, _, rfl, fun i hi => ?_, fun i hi => ?_⟩
  · simp only [if_pos hi]
    have hb : ((((rows.map fun r => r.1 ++ r.2).flatten ++ extra).drop (i * (3 + nbnd))).take (3 + nbnd)) = rows[i].1 ++ rows[i].2 := by
      have : i * (3 + nbnd) + (3 + nbnd) ≤ (rows.map fun r => r.1 ++ r.2).flatten.length := by
        rw [hlen, List.length_map]
        calc i * (3 + nbnd) + (3 + nbnd) = (i + 1) * (3 + nbnd) := by ring
          _ ≤ _ := Nat.mul_le_mul_right _ hi
      rw [List.drop_append_of_le_length (by omega), List.take_append_of_le_length (by rw [List.length_drop]; omega)]
      rw [take_drop_flatten _ _ hL i (by simpa using hi)]
      simp
    obtain ⟨r1, r2⟩ := hr _ (List.getElem_mem hi)
    constructor
    · have := congrArg (List.take 3) hb
      rwa [List.take_take, Nat.min_eq_left (by omega), List.take_append_of_le_length (by omega), List.take_of_length_le (l := rows[i].1) (by omega)] at this
    · have := congrArg (List.drop 3) hb
      rw [List.drop_take, List.drop_drop, List.drop_append_of_le_length (l₁ := rows[i].1) (by omega), List.drop_of_length_le (l := rows[i].1) (by omega),
        List.nil_append] at this
      rw [← this]
      congr 1
      omega
  · simp only [if_neg (show ¬ i < rows.length by omega), and_self]

/-- **C73**. If the first line is a header with `nbnd` bands and `nks` k-points and the words of the other lines, however they
are distributed over lines, are the numbers of `nks` records (3 coordinates and `nbnd` frequencies), then
`read_matdyn_freq` returns exactly these tables. -/
theorem C73_read_matdyn_freq (tofloat : Text → Option Rat) (junkK junkF : Rows) (line : Text) (nbnd : Nat) (data : List Text)
    (rows : List (List Rat × List Rat)) (H : Header line nbnd rows.length) (hr : ∀ r ∈ rows, r.1.length = 3 ∧ r.2.length = nbnd)
    (hw : mapE tofloat (data.flatMap splitWs) = some (rows.map fun r => r.1 ++ r.2).flatten) :
    ∃ k f, readMatdynFreq tofloat junkK junkF (line :: data) = some (rows.length, nbnd, k, f) ∧
      ∀ (i : Nat) (h : i < rows.length), k i = rows[i].1 ∧ f i = rows[i].2 := by
  obtain ⟨k, f, h1, h2, _⟩ := (readMatdyn_general tofloat junkK junkF line nbnd rows.length H data rows [] (by simp) hr (by simpa using hw)).2 le_rfl
  exact ⟨k, f, h1, h2⟩

/-- **C73**. More complete records than the header says are refused. -/
theorem C73_too_many (tofloat : Text → Option Rat) (junkK junkF : Rows) (line : Text) (nbnd nks : Nat) (data : List Text)
    (rows : List (List Rat × List Rat)) (extra : List Rat) (H : Header line nbnd nks)
    (hr : ∀ r ∈ rows, r.1.length = 3 ∧ r.2.length = nbnd) (hx : extra.length < 3 + nbnd) (hlt : nks < rows.length)
    (hw : mapE tofloat (data.flatMap splitWs) = some ((rows.map fun r => r.1 ++ r.2).flatten ++ extra)) :
    readMatdynFreq tofloat junkK junkF (line :: data) = none :=
  (readMatdyn_general tofloat junkK junkF line nbnd nks H data rows extra hx hr hw).1 hlt

/-- **C73**. An empty file, a first line without a `b` (so without `nbnd`), or a word that is not a number: refused. -/
theorem C73_refused (tofloat : Text → Option Rat) (junkK junkF : Rows) (line : Text) (data : List Text) :
    readMatdynFreq tofloat junkK junkF [] = none ∧
    ('b' ∉ line → readMatdynFreq tofloat junkK junkF (line :: data) = none) ∧
    ((∃ w ∈ data.flatMap splitWs, tofloat w = none) → readMatdynFreq tofloat junkK junkF (line :: data) = none) := by
  refine ⟨rfl, fun h => by simp only [readMatdynFreq, hdr_noB _ h], fun h => ?_⟩
  have : mapE tofloat (data.flatMap splitWs) = none := by
    obtain ⟨w, hw, he⟩ := h
    generalize data.flatMap splitWs = l at hw
    induction l with
    | nil => simp at hw
    | cons a l ih =>
      rcases List.mem_cons.1 hw with rfl | hw
      · simp [mapE, he]
      · simp only [mapE, ih hw]
        cases tofloat a <;> rfl
  simp only [readMatdynFreq, splitWs_lines, this]
  cases hdr line <;> rfl

/-- **C73**, disagreement: a truncated file (fewer complete records than the header says, perhaps an incomplete one at the
end) is not refused. The rows of the missing records have arbitrary content. -/
theorem C73_truncated_counterexample (tofloat : Text → Option Rat) (junkK junkF : Rows) (line : Text) (nbnd nks : Nat) (data : List Text)
    (rows : List (List Rat × List Rat)) (extra : List Rat) (H : Header line nbnd nks)
    (hr : ∀ r ∈ rows, r.1.length = 3 ∧ r.2.length = nbnd) (hx : extra.length < 3 + nbnd) (hlt : rows.length < nks)
    (hw : mapE tofloat (data.flatMap splitWs) = some ((rows.map fun r => r.1 ++ r.2).flatten ++ extra)) :
    ∃ k f, readMatdynFreq tofloat junkK junkF (line :: data) = some (nks, nbnd, k, f) ∧
      (∀ (i : Nat) (h : i < rows.length), k i = rows[i].1 ∧ f i = rows[i].2) ∧
      ∀ i : Nat, rows.length ≤ i → k i = junkK i ∧ f i = junkF i :=
  (readMatdyn_general tofloat junkK junkF line nbnd nks H data rows extra hx hr hw).2 hlt.le

private def exHeader : Header " &plot nbnd=   2, nks= 3 /".toList 2 3 where
  pre := " &plot".toList
  post := []
  w := fun i => match i with | 0 => [' '] | 2 => [' ', ' ', ' '] | 4 => [' '] | 6 => [' '] | 7 => [' '] | _ => []
  blank := by unfold Blank; decide
  w0 := by decide
  eq := by decide
  post_b := by decide

private def exFloat (t : Text) : Option Rat := (parseInt t).map fun i => (i : Rat)

example : mapE exFloat ((["  1 0 0 ".toList, "5".toList, "6 0 1 0 7 8".toList, "2 2 2 -3 4".toList]).flatMap splitWs) =
    some ([([1, 0, 0], [5, 6]), ([0, 1, 0], [7, 8]), ([2, 2, 2], [-3, 4])].map fun r : List Rat × List Rat => r.1 ++ r.2).flatten := by
  decide +kernel

/-- C85: a Fortran program reads the text of `bool2str` as the same value, and it is one word. -/
theorem C85_bool (x : Bool) : fortranLogical (bool2str x) = some x ∧ IsWord (bool2str x) := by
  cases x
  · exact ⟨by decide, by decide, by decide⟩
  · exact ⟨by decide, by decide, by decide⟩

end Pwtools.Pw
