import Verif.Props.PhononEx
import Verif.Props.PwHead
/-!
# Frequency lines which are not complete (C94)
-/
namespace Pwtools.Ph
open Pwtools.Gr Pwtools.Spec Pwtools.Lmp Pwtools.PwOut

variable {K : Type} {num : Text → Option K}

theorem fromString_stop (ws : List Text) (v : List K) (w : Text) (rest : List Text) (h : ws.map num = v.map some) (hw : num w = none) :
    fromString num (ws ++ w :: rest) = v := by
  induction ws generalizing v with
  | nil =>
    cases v with
    | nil => simp [fromString, hw]
    | cons _ _ => simp at h
  | cons x ws ih =>
    cases v with
    | nil => simp at h
    | cons y v =>
      simp only [List.map_cons, List.cons.injEq] at h
      simp only [List.cons_append, fromString, h.1, ih v h.2]

theorem splitLast_some {c : Char} {t a b : Text} (h : splitLast c t = some (a, b)) : t = a ++ c :: b := by
  induction t generalizing a with
  | nil => simp [splitLast] at h
  | cons x t ih =>
    simp only [splitLast] at h
    cases hs : splitLast c t with
    | some p =>
      obtain ⟨u, v⟩ := p
      rw [hs] at h
      simp only [Option.some.injEq, Prod.mk.injEq] at h
      obtain ⟨rfl, rfl⟩ := h
      rw [ih hs]
      rfl
    | none =>
      rw [hs] at h
      simp only at h
      split at h
      · rename_i hx
        simp only [Option.some.injEq, Prod.mk.injEq] at h
        obtain ⟨rfl, rfl⟩ := h
        rw [hx]
        rfl
      · simp at h

/-- A line with one value only (one `[`) is not changed by `sed`. -/
theorem sedOmega_one {l : Text} (h : ∀ a b c, l ≠ a ++ '[' :: (b ++ '[' :: c)) : sedOmega l = l := by
  unfold sedOmega
  cases h1 : splitLast '[' l with
  | none => rfl
  | some p =>
    obtain ⟨u, e⟩ := p
    simp only
    cases h2 : splitLast '=' u with
    | none => rfl
    | some q =>
      obtain ⟨p, g⟩ := q
      simp only
      rw [if_neg]
      intro hc
      obtain ⟨a, t, hp, ht⟩ := (hasSeq_cons _ _ _).1 hc
      obtain ⟨b, c, d, hd⟩ := (Cp2k.hasSeq_two _ _ _).1 ht
      have e1 := splitLast_some h1
      have e2 := splitLast_some h2
      refine h (a ++ "omega".toList ++ b ++ "=".toList ++ c) (d ++ '=' :: g) e ?_
      rw [e1, e2, hp, hd]
      simp

theorem omega_words (P : List Text) (vals : List K)
    (h : Interleaved (fun l x => OmegaLine num l x) (fun l => ¬ Has "omega".toList l) P vals) :
    (((P.filter isOmega).flatMap fun l => splitWs (sedOmega l))).map num = vals.map some := by
  induction h with
  | nil => rfl
  | other hq _ ih => rw [List.filter_cons, isOmega_false hq]; simpa using ih
  | hit hp _ ih =>
    obtain ⟨-, -, h3, h4⟩ := omega_line hp
    rw [List.filter_cons, h3, if_pos rfl, List.flatMap_cons, List.map_append, h4, ih]
    rfl

theorem chunks_join {A : Type} (m : Nat) (xs : List A) (n : Nat) (h : xs.length = n * m) : (chunks m xs n).flatten = xs := by
  have key : ∀ n, (chunks m xs n).flatten = xs.take (n * m) := by
    intro n
    unfold chunks
    induction n with
    | zero => simp
    | succ n ih =>
      rw [List.range_succ, List.map_append, List.flatten_append, ih, Nat.succ_mul, List.take_add]
      simp
  rw [key, ← h, List.take_length]

/-- A frequency line with a value in one unit only: the frequencies of this and of all following lines are not read. `read_dyn` returns
what comes before without notice; `read_matdyn_modes` returns only if there is nothing to come. -/
theorem C94_one_unit (P : List Text) (l : Text) (S : List Text) (vals : List K) (na : Option Nat)
    (hP : Interleaved (fun l x => OmegaLine num l x) (fun l => ¬ Has "omega".toList l) P vals)
    (hl : Has "omega".toList l) (h1 : ∀ a b c, l ≠ a ++ '[' :: (b ++ '[' :: c))
    (hw : ∃ w ws, splitWs l = w :: ws ∧ num w = none) :
    (∀ m, readDyn num (P ++ l :: S) na = .ok m → m.freqs = vals) ∧
    (∀ m, readMatdynModes num (P ++ l :: S) na = .ok m → m.freqs.flatten = vals) := by
  have ho : omegas num (P ++ l :: S) = vals := by
    obtain ⟨w, ws, hw, hn⟩ := hw
    have hl : isOmega l = true := (has_iff _ _).2 hl
    unfold omegas
    rw [List.filter_append, List.filter_cons, hl, if_pos rfl, List.flatMap_append, List.flatMap_cons, sedOmega_one h1, hw, List.cons_append]
    exact fromString_stop _ _ _ _ (omega_words P vals hP) hn
  constructor
  · intro m hm
    unfold readDyn at hm
    cases na with
    | none => simp at hm
    | some na =>
      dsimp only at hm
      repeat' split at hm
      all_goals first
        | (cases hm; done)
        | (have hm := Except.ok.inj hm
           rw [← hm]
           exact ho)
  · intro m hm
    unfold readMatdynModes at hm
    cases na with
    | none => simp at hm
    | some na =>
      simp only [ho] at hm
      split at hm
      · simp at hm
      · simp at hm
      · split at hm
        · simp at hm
        · split at hm
          · simp at hm
          · split at hm
            · simp at hm
            · rename_i fr hf
              simp only [Except.ok.injEq] at hm
              rw [← hm]
              unfold reshape2 at hf
              split at hf
              · rename_i hlen
                simp only [Except.ok.injEq] at hf
                rw [← hf]
                exact chunks_join _ _ _ hlen
              · simp at hf

/-- Three modes of one atom; the second frequency is given in THz only: one frequency and three vectors are returned. -/
example : (readDyn parseInt (["q = ( 0 0 0 )", "omega( 1) = 7 [THz] = 33 [cm-1]", "( 1 0 2 0 3 0 )", "omega( 2) = 8 [THz]",
    "( 1 0 2 0 3 0 )", "omega( 3) = 9 [THz] = 44 [cm-1]", "( 1 0 2 0 3 0 )"].map String.toList) (some 1)).toOption.map
      (fun m => (m.freqs, m.vecs.length)) = some ([33], 3) := by decide +kernel

end Pwtools.Ph
