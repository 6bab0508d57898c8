import Mathlib.Data.Real.Basic
/-!
# Specification for C151

How a person reads a formula such as `a0*x0^0*x1^0 + a1*x0^0*x1^1`: leave out the blanks, cut at the plus signs
into summands, cut each summand at the stars into factors; a factor is `a` and a number (a coefficient) or `x` and a
number, `^`, and a number (a power of a variable). A name without a value, or anything else, has no meaning (`none`).
-/
namespace Pwtools.Spec

/-- The pieces of `t` between the occurrences of `c`. -/
def cutAtChar (c : Char) : List Char → List (List Char)
  | [] => [[]]
  | x :: t =>
    if x = c then [] :: cutAtChar c t
    else match cutAtChar c t with
      | [] => [[x]]
      | w :: ws => (x :: w) :: ws

/-- The decimal number `t`. -/
def decimalNat (t : List Char) : Option Nat :=
  if t ≠ [] ∧ ∀ c ∈ t, c.isDigit = true then some (t.foldl (fun n c => 10 * n + (c.toNat - '0'.toNat)) 0) else none

/-- All of them, if all exist. -/
def allSome {α : Type} : List (Option α) → Option (List α)
  | [] => some []
  | none :: _ => none
  | some v :: l => (allSome l).map (v :: ·)

/-- The value of a factor, with coefficients `a` and variables `x`. -/
noncomputable def factorValue (a x : List ℝ) : List Char → Option ℝ
  | 'a' :: t => (decimalNat t).bind fun i => a[i]?
  | 'x' :: t => match cutAtChar '^' t with
    | [i, n] => (decimalNat i).bind fun i => (decimalNat n).bind fun n => x[i]?.map (· ^ n)
    | _ => none
  | _ => none

/-- The value of a summand. -/
noncomputable def summandValue (a x : List ℝ) (t : List Char) : Option ℝ :=
  (allSome ((cutAtChar '*' t).map (factorValue a x))).map List.prod

/-- The value of a formula. -/
noncomputable def formulaValue (a x : List ℝ) (t : List Char) : Option ℝ :=
  (allSome ((cutAtChar '+' (t.filter (· ≠ ' '))).map (summandValue a x))).map List.sum

end Pwtools.Spec
