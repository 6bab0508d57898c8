import Verif.Model.Sgroup
import Verif.Spec.Sgroup
import Verif.Props.PwHead
/-!
# C124: `sgroup` reads what `wien_sgroup_input` writes
-/
namespace Pwtools.Sg
open Spec
variable {K : Type}

theorem noComment_text (a b : Text) (ha : '/' ∉ a) : sgNoComment false (a ++ b) = a ++ sgNoComment false b := by
  induction a with
  | nil => rfl
  | cons c a ih =>
    have hc : c ≠ '/' := fun e => ha (by simp [e])
    have := ih fun h => ha (by simp [h])
    rw [List.cons_append, sgNoComment]
    split
    · next h => rw [this, h]; rfl
    · simp [hc, this]

theorem noComment_comment (a b : Text) (ha : '\n' ∉ a) : sgNoComment false (('/' :: a) ++ ('\n' :: b)) = '\n' :: sgNoComment false b := by
  have h : ∀ a : Text, '\n' ∉ a → sgNoComment true (a ++ ('\n' :: b)) = '\n' :: sgNoComment false b := by
    intro a ha
    induction a with
    | nil => rw [List.nil_append, sgNoComment, if_pos rfl]
    | cons c a ih =>
      have hc : c ≠ '\n' := fun e => ha (by simp [e])
      rw [List.cons_append, sgNoComment, if_neg hc]
      simpa using ih fun h => ha (by simp [h])
  rw [List.cons_append, sgNoComment, if_neg (by decide)]
  simpa using h a ha

theorem words_sep (a b : Text) (c : Char) (hc : isPySpace c = true) : splitWs (a ++ c :: b) = splitWs a ++ splitWs b := by
  have : ∀ cur, splitWsAux cur (a ++ c :: b) = splitWsAux cur a ++ splitWsAux [] b := by
    induction a with
    | nil =>
      intro cur
      simp only [List.nil_append, splitWsAux, hc, if_true]
      split <;> simp
    | cons d a ih =>
      intro cur
      simp only [List.cons_append, splitWsAux]
      split
      · split <;> simp [ih]
      · exact ih _
  exact this []

theorem skip_comment (C a t : Text) (hC : C = '/' :: (a ++ ['\n'])) (ha : '\n' ∉ a) : splitWs (sgNoComment false (C ++ t)) = splitWs (sgNoComment false t) := by
  have := noComment_comment a t ha
  rw [hC, List.cons_append, List.append_assoc, List.singleton_append]
  rw [List.cons_append] at this
  rw [this]
  exact words_sep [] _ '\n' (by decide)

theorem take_word (w t : Text) (hw : '/' ∉ w) : splitWs (sgNoComment false (w ++ ("\n\n".toList ++ t))) = splitWs w ++ splitWs (sgNoComment false t) := by
  rw [noComment_text w _ hw, noComment_text "\n\n".toList _ (by decide)]
  have e : "\n\n".toList ++ sgNoComment false t = '\n' :: ('\n' :: sgNoComment false t) := rfl
  rw [e, words_sep _ _ '\n' (by decide)]
  congr 1

theorem words_row (fmt : K → Text) (r : List K) (hf : ∀ x, SgWord (fmt x)) : splitWs (joinSep [' '] (r.map fmt)) = r.map fmt := by
  apply splitWs_join [' '] (by simp) (by simp; decide)
  intro t ht
  obtain ⟨x, -, rfl⟩ := List.mem_map.1 ht
  exact (hf x).1

theorem slash_join (sep : Text) (hs : '/' ∉ sep) (ws : List Text) (h : ∀ w ∈ ws, '/' ∉ w) : '/' ∉ joinSep sep ws := by
  induction ws with
  | nil => simp [joinSep]
  | cons w ws ih =>
    cases ws with
    | nil => simpa [joinSep] using h w (by simp)
    | cons v ws =>
      have := ih fun x hx => h x (by simp [hx])
      simp only [joinSep, List.mem_append, not_or]
      exact ⟨⟨h w (by simp), hs⟩, this⟩

theorem slash_row (fmt : K → Text) (r : List K) (hf : ∀ x, SgWord (fmt x)) : '/' ∉ joinSep [' '] (r.map fmt) := by
  apply slash_join _ (by simp)
  intro w hw
  obtain ⟨x, -, rfl⟩ := List.mem_map.1 hw
  exact (hf x).2

theorem word_self (w : Text) (h : WordText w) : splitWs w = [w] := by
  have := PwHead.splitWs_word [] w [] (by intro c hc; cases hc) h (by intro c hc; cases hc)
  simpa using this

theorem atoms_words (fmt : K → Text) (hf : ∀ x, SgWord (fmt x)) (atoms : List (Text × List K)) (ha : ∀ a ∈ atoms, SgWord a.1) :
    splitWs (sgNoComment false (atoms.flatMap fun x => atomText fmt x.1 x.2)) = atoms.flatMap fun x => x.2.map fmt ++ [x.1] := by
  induction atoms with
  | nil => rfl
  | cons a as ih =>
    have h1 := ha a (by simp)
    rw [List.flatMap_cons, List.flatMap_cons, noComment_text _ _ (by
      unfold atomText
      simp only [List.mem_append, not_or]
      exact ⟨⟨⟨slash_row fmt _ hf, by simp⟩, h1.2⟩, by simp⟩)]
    have e : ∀ t, atomText fmt a.1 a.2 ++ t = joinSep [' '] (a.2.map fmt) ++ '\n' :: (a.1 ++ '\n' :: t) := by
      intro t
      simp [atomText]
    rw [e, words_sep _ _ '\n' (by decide), words_sep _ _ '\n' (by decide), words_row fmt _ hf, word_self _ h1.1, ih fun x hx => ha x (by simp [hx])]
    simp

theorem atoms_read {S : Type} (num : Text → Option S) (fmt : K → Text) (rnd : K → S) (hn : ∀ x, num (fmt x) = some (rnd x)) (atoms : List (Text × List K)) (h3 : ∀ a ∈ atoms, a.2.length = 3) :
    sgAtoms num atoms.length (atoms.flatMap fun x => x.2.map fmt ++ [x.1]) = some (atoms.map fun a => (a.1, a.2.map rnd)) := by
  induction atoms with
  | nil => rfl
  | cons a as ih =>
    obtain ⟨s, r⟩ := a
    obtain ⟨x, y, z, rfl⟩ := List.length_eq_three.1 (h3 (s, r) (by simp))
    have := ih fun b hb => h3 b (by simp [hb])
    simp only [List.flatMap_cons, List.map_cons, List.map_nil, List.cons_append, List.nil_append, List.length_cons, sgAtoms, hn, this]
    rfl

/-- **C124** Reading the file the way `sgroup` does gives the lattice symbol, the cell constants and all atoms with their names, in order; each number is the one which is read from
the printed text (`rnd`). -/
theorem C124_sgroup_rounded {S : Type} (num : Text → Option S) (fmt : K → Text) (rnd : K → S) (hf : ∀ x, SgWord (fmt x)) (hn : ∀ x, num (fmt x) = some (rnd x)) (lat : Text) (hl : SgWord lat)
    (cc : List K) (h6 : cc.length = 6) (atoms : List (Text × List K)) (ha : ∀ a ∈ atoms, SgWord a.1 ∧ a.2.length = 3) :
    sgRead num (sgroupInput fmt lat ⟨cc, atoms.length, atoms.map (·.1), atoms.map (·.2)⟩) = some (lat, cc.map rnd, atoms.map fun a => (a.1, a.2.map rnd)) := by
  have hz : (atoms.map (·.1)).zip (atoms.map (·.2)) = atoms := by
    rw [List.zip_map']
    simp
  have hs : '/' ∉ strNat atoms.length := fun h => by
    have := strNat_digits _ _ h
    revert this
    decide
  have hw : splitWs (sgNoComment false (sgroupInput fmt lat ⟨cc, atoms.length, atoms.map (·.1), atoms.map (·.2)⟩)) =
      lat :: (cc.map fmt ++ strNat atoms.length :: atoms.flatMap fun x => x.2.map fmt ++ [x.1]) := by
    unfold sgroupInput
    simp only [hz, List.append_assoc]
    rw [skip_comment _ " lattice type symbol".toList _ (by decide) (by decide), take_word lat _ hl.2,
      skip_comment _ " a b c alpha beta gamma".toList _ (by decide) (by decide), take_word _ _ (slash_row fmt cc hf),
      skip_comment _ " number of atoms".toList _ (by decide) (by decide), take_word _ _ hs,
      skip_comment _ " atom list (crystal cooords)".toList _ (by decide) (by decide), word_self _ hl.1, words_row fmt _ hf,
      word_self (strNat _) ⟨strNat_ne_nil _, fun c hc => isPySpace_digit c (strNat_digits _ c hc)⟩, atoms_words fmt hf atoms fun a h => (ha a h).1]
    rfl
  obtain ⟨a, b, c, al, be, ga, rfl⟩ : ∃ a b c al be ga, cc = [a, b, c, al, be, ga] := by
    match cc, h6 with
    | [a, b, c, al, be, ga], _ => exact ⟨a, b, c, al, be, ga, rfl⟩
  unfold sgRead
  rw [hw]
  simp only [List.map_cons, List.map_nil, List.cons_append, List.nil_append, List.mapM_cons, List.mapM_nil, hn, parseInt_strNat, Int.toNat_natCast]
  have := atoms_read num fmt rnd hn atoms fun a h => (ha a h).2
  simp only [Option.pure_def, Option.bind_eq_bind, Option.bind_some, Int.toNat_natCast, this]

/-- **C124** Reading the file the way `sgroup` does gives the lattice symbol, the cell constants and all atoms with their names, in order, for every way to write numbers which can be
read back. -/
theorem C124_sgroup (num : Text → Option K) (fmt : K → Text) (hf : ∀ x, SgWord (fmt x)) (hn : ∀ x, num (fmt x) = some x) (lat : Text) (hl : SgWord lat)
    (cc : List K) (h6 : cc.length = 6) (atoms : List (Text × List K)) (ha : ∀ a ∈ atoms, SgWord a.1 ∧ a.2.length = 3) :
    sgRead num (sgroupInput fmt lat ⟨cc, atoms.length, atoms.map (·.1), atoms.map (·.2)⟩) = some (lat, cc, atoms) := by
  have h := C124_sgroup_rounded num fmt id hf hn lat hl cc h6 atoms ha
  simpa using h

/-- Non-vacuity: integers as numbers. -/
example : (∀ x : Nat, SgWord (strNat x)) ∧ SgWord "P".toList ∧ SgWord "Al".toList := by
  refine ⟨fun x => ⟨⟨strNat_ne_nil x, fun c hc => isPySpace_digit c (strNat_digits _ c hc)⟩, fun h => ?_⟩, ?_, ?_⟩
  · have := strNat_digits _ _ h
    revert this
    decide
  · unfold SgWord WordText; decide
  · unfold SgWord WordText; decide

end Pwtools.Sg
