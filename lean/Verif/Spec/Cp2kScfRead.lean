import Verif.Model.Cp2kScfRead
import Verif.Spec.ScfOut
import Verif.Spec.ParserUnits
/-!
# Specification for C134: the output of a CP2K single point calculation
-/
namespace Pwtools.Spec
open Units
variable {K : Type}

/-- A line with `ENERGY ... Total ... energy ... :`. -/
abbrev Cp2kEnergyLike (l : Text) : Prop := HasInOrder ["ENERGY".toList, "Total".toList, "energy".toList, ":".toList] l

/-- The output `out` has one table of forces [Ha/Bohr], for the atoms with these symbols, one total energy [Ha] and one stress tensor [GPa]. -/
structure IsCp2kScf (num : Text → Option K) (symbols : List Text) (forces : List (List K)) (etot : K) (stress : List (List K)) (out : List Text) : Prop where
  atoms0 : symbols ≠ []
  forces : ∃ x pre title g gap head blank1 rows blank2 sum post,
    out = x :: pre ++ title :: (g :: gap ++ head :: (blank1 ++ rows ++ blank2 ++ sum :: post)) ∧
    (∀ l ∈ pre, ¬ HasText "ATOMIC FORCES".toList l) ∧ HasText "ATOMIC FORCES".toList title ∧
    (∀ l ∈ gap, ¬ HasSpaced3 "Atom".toList "Kind".toList "Element".toList l) ∧ HasSpaced3 "Atom".toList "Kind".toList "Element".toList head ∧
    (∀ l ∈ rows, ¬ HasText "SUM OF ATOMIC FORCES".toList l) ∧ HasText "SUM OF ATOMIC FORCES".toList sum ∧
    (∀ l ∈ blank1, WhiteLine l) ∧ (∀ l ∈ blank2, WhiteLine l) ∧ rows.length = symbols.length ∧ rows.length = forces.length ∧
    ∀ (i : Nat) (l : Text) (s : Text) (r : List K), rows[i]? = some l → symbols[i]? = some s → forces[i]? = some r → AtomLine num 2 l s r ∧ r.length = 3
  etot : ∃ A p w n B, out = A ++ (p ++ ':' :: w) :: B ∧ (∀ l ∈ A ++ B, ¬ Cp2kEnergyLike l) ∧ Cp2kEnergyLike (p ++ ':' :: w) ∧ ':' ∉ w ∧
    splitWs w = [n] ∧ num n = some etot
  stress : ∃ A title other head rx ry rz vx vy vz B, out = A ++ [title, other, head, rx, ry, rz] ++ B ∧ stress = [vx, vy, vz] ∧
    (∀ l ∈ A ++ B, ¬ StressTitle l) ∧ (StressTitle title ∧ NoAxis title) ∧ (¬ StressTitle other ∧ NoAxis other) ∧ (XYZTitle head ∧ ¬ StressTitle head) ∧
    AxisLine 'X' rx ∧ AxisLine 'Y' ry ∧ AxisLine 'Z' rz ∧ (∀ l ∈ [rx, ry, rz], ¬ StressTitle l) ∧
    (∃ a, AtomLine num 0 rx a vx) ∧ (∃ a, AtomLine num 0 ry a vy) ∧ (∃ a, AtomLine num 0 rz a vz) ∧
    vx.length = 3 ∧ vy.length = 3 ∧ vz.length = 3

/-- The parsers of CP2K runs with more than one step. -/
def Cp2kSteps (k : Kind) : Prop := k = .cp2kMd ∨ k = .cp2kRelax ∨ k = .cp2kDcd

end Pwtools.Spec
