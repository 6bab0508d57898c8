import Verif.Spec.Num
/-!
# Specification for C147
-/
namespace Pwtools.Spec

/-- Length of the way along the points from the first to point number `i`. -/
noncomputable def wayLength {d : Nat} (ks : List (Fin d → ℝ)) : Nat → ℝ
  | 0 => 0
  | i + 1 => wayLength ks i +
      match ks[i]?, ks[i + 1]? with
      | some a, some b => euclid a b
      | _, _ => 0

/-- A label with coordinates: the symbol, below it the three numbers in brackets. -/
def labelWithCoords (fmt : ℝ → List Char) (sym : List Char) (k : Fin 3 → ℝ) : List Char :=
  sym ++ "\n[".toList ++ fmt (k 0) ++ ",".toList ++ fmt (k 1) ++ ",".toList ++ fmt (k 2) ++ "]".toList

end Pwtools.Spec
