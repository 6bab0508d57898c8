import Verif.Model.SplineDeriv
import Verif.Spec.Fit1D
import Mathlib.Algebra.Polynomial.Derivative
/-!
# Specification for C183: derivatives, minima and roots of splines through data
-/
namespace Pwtools.Spec
open Pwtools.SplD

/-- What is known about `splrep`: the order is the given one, more than `k` points are needed, and with `s=0` there is a spline for increasing
abscissas, it goes through the points, and it is the polynomial itself if the points are those of a polynomial of degree at most `k`. -/
structure GoodSplrep (rep : Splrep) : Prop where
  order : ∀ s k xs ys t, rep s k xs ys = some t → t.k = k
  short : ∀ s k xs ys, xs.length ≤ k → rep s k xs ys = none
  total : ∀ k xs ys, 1 ≤ k → k ≤ 5 → k < xs.length → xs.length = ys.length → xs.Pairwise (· < ·) → ∃ t, rep 0 k xs ys = some t
  interpolates : ∀ k xs ys t, rep 0 k xs ys = some t → ∀ p ∈ List.zip xs ys, t.ev 0 p.1 = p.2
  reproduces : ∀ k xs (P : Polynomial ℝ) t, rep 0 k xs (xs.map (fun u => P.eval u)) = some t → P.natDegree ≤ k →
    ∀ n ≤ k, ∀ u, t.ev n u = (Polynomial.derivative^[n] P).eval u

end Pwtools.Spec
