import Verif.Model.Peaks
import Verif.Spec.Fit1D
import Verif.Spec.Signal
import Mathlib.Analysis.Calculus.Deriv.Basic
/-!
# Specification for C145
-/
namespace Pwtools.Spec
open Fit Peaks

/-- What is known about interpolating splines of order `k ≥ 2`: they need more than `k` points, exist for increasing abscissas, go through the points, and have a continuous derivative. -/
structure GoodSpline (k : Nat) (mk : MkSpline) : Prop where
  short : ∀ xs ys, xs.length ≤ k → mk xs ys = none
  data : ∀ xs ys fit, mk xs ys = some fit → fit.x = xs ∧ fit.y = ys
  interpolates : ∀ xs ys fit, mk xs ys = some fit → ∀ (i : Nat) u v, xs[i]? = some u → ys[i]? = some v → fit.f u = v
  smooth : ∀ xs ys fit, mk xs ys = some fit → (∀ x, HasDerivAt fit.f (fit.df x) x) ∧ Continuous fit.df
  total : ∀ xs ys, k < xs.length → xs.length = ys.length → xs.Pairwise (· < ·) → ∃ fit, mk xs ys = some fit

/-- The entries at most `spread` places before or after place `i`. -/
def around {α : Type} (l : List α) (i spread : Nat) : List α := (l.take (i + spread + 1)).drop (i - spread)

end Pwtools.Spec
