import Verif.Spec.Poly
import Verif.Spec.PolyInv
import Mathlib.Analysis.Calculus.Deriv.Basic
/-!
# Specification for C164
-/
namespace Pwtools.Spec

/-- `e` is the polynomial of degree at most `deg` with the smallest sum of squared deviations from the data. -/
def BestPoly (deg : Nat) (x y : List ℝ) (e : ℝ → ℝ) : Prop :=
  IsPoly deg (fun v : Fin 1 → ℝ => e (v 0)) ∧
  ∀ h : (Fin 1 → ℝ) → ℝ, IsPoly deg h → sumSq (fun v : Fin 1 → ℝ => e (v 0)) (x.map (fun v _ => v)) y ≤ sumSq h (x.map (fun v _ => v)) y

/-- The thermodynamics of a body with energy `e(V)` under the pressures `P`: volumes `V`, enthalpies `H` and bulk moduli `B`. `conv` is
the unit of pressure, the volumes are looked for in `[a, b]`. -/
structure PressureResponse (e : ℝ → ℝ) (a b conv : ℝ) (P : List ℝ) (V H B : Nat → ℝ) : Prop where
  /-- the volume lies between the given volumes -/
  inside : ∀ p < P.length, a ≤ V p ∧ V p ≤ b
  /-- the pressure of the body is the external one: `-dE/dV = P` -/
  equilibrium : ∀ p (hp : p < P.length), -deriv e (V p) * conv = P[p]
  /-- `H = E + PV` -/
  enthalpy : ∀ p (hp : p < P.length), H p = e (V p) + P[p] * V p / conv
  /-- `B = V d²E/dV²` -/
  bulk : ∀ p < P.length, B p = V p * deriv (deriv e) (V p) * conv
  /-- a mechanically stable body has its smallest enthalpy at the volume -/
  minimum : MonotoneOn (deriv e) (Set.Icc a b) → ∀ p (hp : p < P.length), ∀ v, a ≤ v → v ≤ b → H p ≤ e v + P[p] * v / conv
  /-- and is compressed by pressure -/
  compress : StrictMonoOn (deriv e) (Set.Icc a b) → ∀ p (hp : p < P.length) q (hq : q < P.length), P[p] < P[q] → V q < V p
  /-- the enthalpy changes by `∫ V dP`: the change lies between `V_q ΔP` and `V_p ΔP` -/
  work : MonotoneOn (deriv e) (Set.Icc a b) → ∀ p (hp : p < P.length) q (hq : q < P.length),
    V q * (P[q] - P[p]) / conv ≤ H q - H p ∧ H q - H p ≤ V p * (P[q] - P[p]) / conv

/-- The same as `BestPoly` for two axes. -/
def BestPoly2 (deg : Nat) (x : List (Fin 2 → ℝ)) (y : List ℝ) (e : (Fin 2 → ℝ) → ℝ) : Prop :=
  IsPoly deg e ∧ ∀ h, IsPoly deg h → sumSq e x y ≤ sumSq h x y

end Pwtools.Spec
