import Verif.Model.PolyStr
import Verif.Spec.PolyStr
import Verif.Props.Poly
import Verif.Props.Common
/-!
# C151: `poly_str` writes the polynomial that `polyval` evaluates
-/
namespace Pwtools.PolyStr
open Pwtools Pwtools.Poly Pwtools.Spec

theorem cut_none (c : Char) (t : Text) (h : c ∉ t) : cutAtChar c t = [t] := by
  induction t with
  | nil => rfl
  | cons x t ih =>
    simp only [List.mem_cons, not_or] at h
    simp [cutAtChar, ih h.2, Ne.symm h.1]

theorem cut_tok (c : Char) (t rest : Text) (h : c ∉ t) : cutAtChar c (t ++ c :: rest) = t :: cutAtChar c rest := by
  induction t with
  | nil => simp [cutAtChar]
  | cons x t ih =>
    simp only [List.mem_cons, not_or] at h
    simp [cutAtChar, ih h.2, Ne.symm h.1]

theorem cut_join (c : Char) (ts : List Text) (hne : ts ≠ []) (h : ∀ t ∈ ts, c ∉ t) : cutAtChar c (joinSep [c] ts) = ts := by
  induction ts with
  | nil => exact absurd rfl hne
  | cons p ts ih =>
    cases ts with
    | nil => rw [joinSep]; exact cut_none c p (h p (by simp))
    | cons q qs =>
      rw [joinSep, List.append_assoc, List.singleton_append, cut_tok c p _ (h p (by simp)),
        ih (by simp) (fun t ht => h t (List.mem_cons_of_mem _ ht))]

theorem digit_ne {c : Char} {n : Nat} (hc : c.isDigit = false) : c ∉ strNat n := fun h => by
  rw [strNat_digits n c h] at hc; cases hc

theorem decimal_strNat (n : Nat) : decimalNat (strNat n) = some n := by
  have h1 : strNat n ≠ [] := by unfold strNat; exact Nat.toDigits_ne_nil
  have h2 := Nat.ofDigitChars_ten_toDigits (n := n)
  rw [Nat.ofDigitChars_eq_foldl] at h2
  unfold decimalNat
  rw [if_pos ⟨h1, strNat_digits n⟩]
  exact congrArg some h2

theorem allSome_map {α β : Type} (f : α → Option β) (g : α → β) (l : List α) (h : ∀ a ∈ l, f a = some (g a)) :
    allSome (l.map f) = some (l.map g) := by
  induction l with
  | nil => rfl
  | cons a l ih =>
    rw [List.map_cons, h a (by simp)]
    simp [allSome, ih fun b hb => h b (List.mem_cons_of_mem _ hb)]

theorem factor_value (a x : List ℝ) (i n : Nat) (v : ℝ) (h : x[i]? = some v) :
    factorValue a x (factorStr i n) = some (v ^ n) := by
  have e : factorStr i n = 'x' :: (strNat i ++ '^' :: strNat n) := rfl
  rw [e, factorValue, cut_tok '^' _ _ (digit_ne (by decide)), cut_none '^' _ (digit_ne (by decide))]
  simp [decimal_strNat, h]

theorem coef_value (a x : List ℝ) (i : Nat) (v : ℝ) (h : a[i]? = some v) : factorValue a x ('a' :: strNat i) = some v := by
  simp [factorValue, decimal_strNat, h]

theorem factor_clean (c : Char) (h : c.isDigit = false) (h1 : c ≠ 'x') (h2 : c ≠ '^') (i n : Nat) : c ∉ factorStr i n := by
  simp [factorStr, h1, h2, digit_ne h]

theorem mem_join (c : Char) (sep : Text) (ls : List Text) (h : ∀ l ∈ ls, c ∉ l) (hs : c ∉ sep) : c ∉ joinSep sep ls := by
  induction ls with
  | nil => simp [joinSep]
  | cons p ls ih =>
    cases ls with
    | nil => rw [joinSep]; exact h p (by simp)
    | cons q qs =>
      rw [joinSep]
      simp only [List.mem_append, not_or]
      exact ⟨⟨h p (by simp), hs⟩, ih fun t ht => h t (List.mem_cons_of_mem _ ht)⟩

theorem term_clean (c : Char) (h : c.isDigit = false) (h1 : c ≠ 'x') (h2 : c ≠ '^') (h3 : c ≠ 'a') (h4 : c ≠ '*') (ii : Nat)
    (p : List Nat) : c ∉ termStr ii p := by
  unfold termStr
  simp only [List.cons_append, List.mem_cons, List.mem_append, not_or]
  refine ⟨h3, digit_ne h, h4, mem_join c _ _ ?_ (by simpa using h4)⟩
  intro l hl
  rw [List.mem_map] at hl
  obtain ⟨e, -, rfl⟩ := hl
  exact factor_clean c h h1 h2 _ _

theorem term_cut (ii : Nat) (p : List Nat) (hp : p ≠ []) :
    cutAtChar '*' (termStr ii p) = ('a' :: strNat ii) :: p.zipIdx.map fun e => factorStr e.2 e.1 := by
  unfold termStr
  rw [cut_tok '*' _ _ (by simp [digit_ne (c := '*') (by decide)]), cut_join]
  · simpa using hp
  · intro t ht
    rw [List.mem_map] at ht
    obtain ⟨e, -, rfl⟩ := ht
    exact factor_clean _ (by decide) (by decide) (by decide) _ _

/-- The loop joins the summands. -/
theorem polyStr_join (ndim deg : Nat) : polyStr ndim deg =
    joinSep " + ".toList ((polyPowers ndim deg).zipIdx.map fun e => termStr e.2 e.1) := by
  have hne : ∀ i p, termStr i p ≠ [] := fun i p => by simp [termStr]
  have key : ∀ (l : List (List Nat × Nat)) (st : Text), st ≠ [] →
      l.foldl (fun st e => addTerm st (termStr e.2 e.1)) st = joinSep " + ".toList (st :: l.map fun e => termStr e.2 e.1) := by
    intro l
    induction l with
    | nil => intro st _; rfl
    | cons e l ih =>
      intro st hst
      rw [List.foldl_cons, addTerm, if_neg hst, ih _ (by simp [hst])]
      cases l with
      | nil => simp [joinSep]
      | cons e' l' => simp [joinSep]
  unfold polyStr
  cases h : (polyPowers ndim deg).zipIdx with
  | nil => rfl
  | cons e l =>
    rw [List.foldl_cons, addTerm, if_pos rfl, key _ _ (hne _ _)]
    rfl

theorem filter_join (ts : List Text) (h : ∀ t ∈ ts, ' ' ∉ t) :
    (joinSep " + ".toList ts).filter (· ≠ ' ') = joinSep ['+'] ts := by
  induction ts with
  | nil => rfl
  | cons p ts ih =>
    have hp : p.filter (· ≠ ' ') = p := List.filter_eq_self.2 fun c hc => by
      have : c ≠ ' ' := by rintro rfl; exact h p (by simp) hc
      simpa using this
    cases ts with
    | nil => rw [joinSep, joinSep]; exact hp
    | cons q qs =>
      rw [joinSep, joinSep, List.filter_append, List.filter_append, hp,
        ih fun t ht => h t (List.mem_cons_of_mem _ ht)]
      rfl

/-- The summands of the formula. -/
theorem polyStr_cut (ndim deg : Nat) : cutAtChar '+' ((polyStr ndim deg).filter (· ≠ ' ')) =
    (polyPowers ndim deg).zipIdx.map fun e => termStr e.2 e.1 := by
  have hlen : (polyPowers ndim deg) ≠ [] := by
    intro h
    have h3 := (C28_poly_powers ndim deg).2.2
    rw [h, List.length_nil] at h3
    exact absurd h3 (Nat.ne_of_lt (by positivity))
  rw [polyStr_join, filter_join, cut_join]
  · simpa using hlen
  · intro t ht
    rw [List.mem_map] at ht
    obtain ⟨e, -, rfl⟩ := ht
    exact term_clean _ (by decide) (by decide) (by decide) (by decide) (by decide) _ _
  · intro t ht
    rw [List.mem_map] at ht
    obtain ⟨e, -, rfl⟩ := ht
    exact term_clean _ (by decide) (by decide) (by decide) (by decide) (by decide) _ _

variable {d : Nat}

theorem prod_zipIdx (y : Fin d → ℝ) (p : List Nat) (hp : p.length = d) :
    (p.zipIdx.map fun e => ((List.ofFn y).getD e.2 0) ^ e.1).prod = ∏ j : Fin d, y j ^ (p.getD j 0) := by
  subst hp
  rw [← List.prod_ofFn]
  congr 1
  apply List.ext_getElem
  · simp
  · intro i h1 h2
    simp at h1
    simp [List.getD_eq_getElem?_getD, h1]

theorem term_value (a : List ℝ) (y : Fin d → ℝ) (hd : d ≠ 0) (ii : Nat) (p : List Nat) (hp : p.length = d) (v : ℝ) (h : a[ii]? = some v) :
    summandValue a (List.ofFn y) (termStr ii p) = some (v * ∏ j : Fin d, y j ^ (p.getD j 0)) := by
  have hne : p ≠ [] := by rintro rfl; simp at hp; exact hd hp.symm
  unfold summandValue
  rw [term_cut ii p hne, List.map_cons, coef_value a _ ii v h, List.map_map]
  rw [show allSome (some v :: List.map (factorValue a (List.ofFn y) ∘ fun e : Nat × Nat => factorStr e.2 e.1) p.zipIdx)
    = (allSome (List.map (factorValue a (List.ofFn y) ∘ fun e : Nat × Nat => factorStr e.2 e.1) p.zipIdx)).map (v :: ·) from rfl]
  rw [allSome_map _ (fun e : Nat × Nat => ((List.ofFn y).getD e.2 0) ^ e.1)]
  · simp only [Option.map_some, List.prod_cons]
    rw [prod_zipIdx y p hp]
  · intro e he
    have hi : e.2 < d := by
      obtain ⟨k, hk, rfl⟩ := List.getElem_of_mem he
      simp at hk ⊢; omega
    exact factor_value a _ e.2 e.1 _ (by simp [List.getD_eq_getElem?_getD, hi])

theorem sum_zipIdx {α : Type} (P : List α) (cs : List ℝ) (f : α → ℝ) (h : P.length = cs.length) :
    (P.zipIdx.map fun e => cs.getD e.2 0 * f e.1).sum = dot (P.map f) cs := by
  unfold dot
  congr 1
  apply List.ext_getElem
  · simp [h]
  · intro i h1 h2
    have hi : i < P.length := by simpa using h1
    simp only [List.getElem_map, List.getElem_zipIdx, List.getElem_zipWith, Nat.zero_add]
    rw [List.getD_eq_getElem?_getD, List.getElem?_eq_getElem (h ▸ hi), Option.getD_some, mul_comm]

/-- **C151**. For a polynomial in at least one variable the text of `poly_str(ndim, deg)`, read as a formula with the
coefficients of the fit and the scaled coordinates of the point, has the value from which `polyval` makes its result: the
value of the fit is that number times the scale of the values plus their offset. In particular every name in the text
has a value, and without scaling the formula is the fit function itself. -/
theorem C151_poly_str (fit : Fit d) (hd : 1 ≤ d) (hl : fit.coeffs.length = (fit.deg + 1) ^ d) (x : Fin d → ℝ) :
    ∃ p, formulaValue fit.coeffs (List.ofFn fun j => (x j - fit.pmin j) / fit.pscale j) (polyStr d fit.deg) = some p ∧
      polyval fit x = p * fit.vscale + fit.vmin := by
  have hP := C28_poly_powers d fit.deg
  refine ⟨_, ?_, rfl⟩
  set y : Fin d → ℝ := fun j => (x j - fit.pmin j) / fit.pscale j
  unfold formulaValue
  rw [polyStr_cut, List.map_map,
    allSome_map _ (fun e : List Nat × Nat => fit.coeffs.getD e.2 0 * ∏ j : Fin d, y j ^ (e.1.getD j 0))]
  · simp only [Option.map_some, Option.some.injEq]
    exact sum_zipIdx _ _ (fun p : List Nat => ∏ j : Fin d, y j ^ (p.getD j 0)) (by rw [hP.2.2, hl])
  · intro e he
    obtain ⟨k, hk, rfl⟩ := List.getElem_of_mem he
    have hk' : k < (polyPowers d fit.deg).length := by simpa using hk
    have hk2 : k < fit.coeffs.length := by rw [hl, ← hP.2.2]; exact hk'
    simp only [Function.comp_apply, List.getElem_zipIdx, Nat.zero_add]
    apply term_value _ _ (by omega)
    · exact ((hP.1 _).1 (List.getElem_mem hk')).1
    · rw [List.getD_eq_getElem?_getD, List.getElem?_eq_getElem hk2, Option.getD_some]

/-- Non-vacuity, and the text of a plane. -/
example : polyStr 2 1 = "a0*x0^0*x1^0 + a1*x0^0*x1^1 + a2*x0^1*x1^0 + a3*x0^1*x1^1".toList := by decide +kernel
example : ∃ fit : Fit 2, fit.coeffs.length = (fit.deg + 1) ^ 2 := ⟨⟨[1, 2, 3, 4], 1, 1, 1, 0, 0⟩, rfl⟩

/-- **C151** (the text tells the shape). Different numbers of variables, or different degrees, give different texts. -/
theorem C151_injective (n1 n2 deg1 deg2 : Nat) (h1 : 1 ≤ n1) (h2 : 1 ≤ n2) (h : polyStr n1 deg1 = polyStr n2 deg2) :
    n1 = n2 ∧ deg1 = deg2 := by
  have hc := congrArg (fun t => cutAtChar '+' (t.filter (· ≠ ' '))) h
  simp only [polyStr_cut] at hc
  have hlen := congrArg List.length hc
  have hP1 := C28_poly_powers n1 deg1
  have hP2 := C28_poly_powers n2 deg2
  simp only [List.length_map, List.length_zipIdx, hP1.2.2, hP2.2.2] at hlen
  have l1 : 0 < (polyPowers n1 deg1).length := by rw [hP1.2.2]; positivity
  have l2 : 0 < (polyPowers n2 deg2).length := by rw [hP2.2.2]; positivity
  have hh := congrArg (fun l : List Text => (l[0]?).map fun t => (cutAtChar '*' t).length) hc
  have q1 := ((hP1.1 _).1 (List.getElem_mem l1)).1
  have q2 := ((hP2.1 _).1 (List.getElem_mem l2)).1
  have e1 : (polyPowers n1 deg1)[0] ≠ [] := by intro e; rw [e] at q1; simp at q1; omega
  have e2 : (polyPowers n2 deg2)[0] ≠ [] := by intro e; rw [e] at q2; simp at q2; omega
  simp only [List.getElem?_map, List.getElem?_zipIdx, List.getElem?_eq_getElem l1, List.getElem?_eq_getElem l2, Option.map_some,
    term_cut _ _ e1, term_cut _ _ e2, List.length_cons, List.length_map, List.length_zipIdx, q1, q2, Option.some.injEq] at hh
  have hn : n1 = n2 := by omega
  subst hn
  refine ⟨rfl, ?_⟩
  have := Nat.pow_left_injective (n := n1) (by omega) hlen
  omega

/-- **C151** (no variables). With `ndim = 0` the text is `a0*`, which is no formula. -/
theorem C151_no_variables (deg : Nat) : polyStr 0 deg = "a0*".toList ∧ ∀ a x : List ℝ, formulaValue a x (polyStr 0 deg) = none := by
  have h : polyStr 0 deg = "a0*".toList := by
    have : polyPowers 0 deg = [[]] := rfl
    unfold polyStr
    rw [this]
    decide +kernel
  refine ⟨h, fun a x => ?_⟩
  rw [h]
  have e1 : cutAtChar '+' ("a0*".toList.filter (· ≠ ' ')) = ["a0*".toList] := by decide +kernel
  have e2 : cutAtChar '*' "a0*".toList = ["a0".toList, []] := by decide +kernel
  unfold formulaValue
  rw [e1]
  simp only [List.map_cons, List.map_nil, summandValue, e2]
  have e3 : factorValue a x [] = none := rfl
  rw [e3]
  cases factorValue a x "a0".toList <;> rfl

end Pwtools.PolyStr
