import Verif.Model.AtomicData
import Verif.Spec.AtomicData
/-!
# C83: the periodic table
-/
namespace Pwtools.Atomic
open Pwtools.Spec

theorem fill_spec (l : List String) (hl : l.Nodup) : ∀ (n : Nat) (d : String → Option Nat) (s : String)
    (z : Nat), (s ∉ l → fill n l d s = d s) ∧
      (s ∈ l → (fill n l d s = some z ↔ ∃ j, l[j]? = some s ∧ z = n + j)) := by
  induction l with
  | nil => intro n d s z; exact ⟨fun _ => rfl, fun h => by cases h⟩
  | cons a as ih =>
    intro n d s z
    have hn := List.nodup_cons.1 hl
    have ih1 := ih hn.2 (n + 1) (fun s => if s = a then some n else d s) s z
    constructor
    · intro hs
      have h1 : s ∉ as := fun h => hs (by simp [h])
      have h2 : s ≠ a := fun h => hs (by simp [h])
      simp only [fill]
      rw [ih1.1 h1, if_neg h2]
    · intro hs
      simp only [fill]
      by_cases h1 : s ∈ as
      · rw [ih1.2 h1]
        constructor
        · rintro ⟨j, hj, rfl⟩; exact ⟨j + 1, by simpa using hj, by omega⟩
        · rintro ⟨j, hj, rfl⟩
          cases j with
          | zero => simp at hj; exact absurd (hj ▸ h1) hn.1
          | succ j => exact ⟨j, by simpa using hj, by omega⟩
      · have h2 : s = a := by
          rcases List.mem_cons.1 hs with h | h
          · exact h
          · exact absurd h h1
        rw [ih1.1 h1, if_pos h2]
        subst h2
        simp only [Option.some.injEq]
        constructor
        · rintro rfl; exact ⟨0, rfl, by omega⟩
        · rintro ⟨j, hj, rfl⟩
          cases j with
          | zero => rfl
          | succ j => exact absurd (List.mem_of_getElem? (by simpa using hj)) h1

set_option maxRecDepth 4000 in
theorem symbols_nodup : symbols.Nodup := by decide

set_option maxRecDepth 4000 in
theorem symbols_elements : symbols.take 117 = elements.take 117 := by decide

/-- C83: `numbers[sym]` is the position of the symbol in the table, for all symbols in the table,
and `sym` is not a key otherwise; the table of masses has an entry for every number. -/
theorem C83_numbers (s : String) (z : Nat) :
    (numbers s = some z ↔ symbols[z]? = some s) ∧ (numbers s = some z → z < nmasses) := by
  have key : numbers s = some z ↔ symbols[z]? = some s := by
    have h := fill_spec symbols symbols_nodup 0 (fun _ => none) s z
    by_cases hs : s ∈ symbols
    · unfold numbers
      rw [h.2 hs]
      constructor
      · rintro ⟨j, hj, rfl⟩; simpa using hj
      · intro hz; exact ⟨z, hz, by omega⟩
    · unfold numbers
      rw [h.1 hs]
      constructor
      · intro h; cases h
      · intro hz; exact absurd (List.mem_of_getElem? hz) hs
  refine ⟨key, fun h => ?_⟩
  have hz := key.1 h
  apply Decidable.byContradiction
  intro hc
  rw [List.getElem?_eq_none (by
    have : symbols.length = 118 := rfl
    unfold nmasses at hc
    omega)] at hz
  cases hz

/-- C83, the part which holds: for all elements up to 116 the number is the atomic number. Missing:
the last entry, see `C83_counterexample`. -/
theorem C83_atomic_number_partial (s : String) (z : Nat) (h : z < 117) :
    numbers s = some z ↔ IsAtomicNumber s z := by
  rw [(C83_numbers s z).1]
  unfold IsAtomicNumber
  have h1 : symbols[z]? = (symbols.take 117)[z]? := by rw [List.getElem?_take, if_pos h]
  have h2 : elements[z]? = (elements.take 117)[z]? := by rw [List.getElem?_take, if_pos h]
  rw [h1, h2, symbols_elements]

/-- C83 is false for the last entry: the table has no element 117, so that element 118 (`Uuo`) gets
the number 117. -/
theorem C83_counterexample : numbers "Uuo" = some 117 ∧ IsAtomicNumber "Uuo" 118 :=
  ⟨((C83_numbers "Uuo" 117).1).2 rfl, rfl⟩

example : numbers "Fe" = some 26 := ((C83_numbers "Fe" 26).1).2 rfl

end Pwtools.Atomic
