import Mathlib.Analysis.SpecialFunctions.Exp
import Mathlib.Analysis.SpecialFunctions.Pow.NNReal
import Mathlib.LinearAlgebra.Matrix.Determinant.Basic
/-!
# Model of `src/pwtools/rbf/core.py`: `Rbf`

Exact arithmetic; numpy mode (`JAX_MODE` false). `M` training points in `N` dimensions; arrays of evaluation
points are evaluated row by row (`predict`: one row of `np.dot(G, ..)`, `deriv`: the loop over `zz`), so a
single point is modelled. An exception, and a result which is not a finite number (`nan`, `inf`), is
`none`. The attribute `distsq` (a cached `squared_dists(points, points)`) is not stored.
-/
namespace Pwtools.Rbf

variable {M N : Nat}

/-- Squared distance of two points: an entry of `squared_dists`, `rbf/core.py:112-116`. -/
def sqd (a b : Fin N → ℝ) : ℝ := ∑ k, (a k - b k) ^ 2

/-- The names in `rbf_dct`, `rbf/core.py:79-83`. -/
inductive Kind | gauss | multi | invMulti
deriving DecidableEq

/-- `rbf_gauss`, `rbf_multi`, `rbf_inv_multi`, `rbf/core.py:40-76`. `none`: `0/0` or `1/0`; the Gaussian with
`p=0` is `exp(-inf)=0` away from the center. -/
noncomputable def Kind.ev (k : Kind) (rsq p : ℝ) : Option ℝ :=
  match k with
  | .gauss =>
    if p = 0 then (if rsq = 0 then none else some 0)
    else some (Real.exp (-(1 / 2) * rsq / p ^ 2))
  | .multi => some (√(rsq + p ^ 2))
  | .invMulti => if √(rsq + p ^ 2) = 0 then none else some (1 / √(rsq + p ^ 2))

/-- A row (matrix) all of whose entries are finite. -/
def allSome {ι : Type*} (f : ι → Option ℝ) : Prop := ∀ i, f i ≠ none

/-- The attributes of an `Rbf` object before the fit. -/
structure Obj (M N : Nat) where
  points : Fin M → Fin N → ℝ
  values : Fin M → ℝ
  rbf : Kind
  r : Option ℝ
  p : ℝ

/-- The argument `p`. -/
inductive PArg | mean | scipy | otherStr | num (p : ℝ)

/-- `np.sqrt(self.distsq).mean()`, `rbf/core.py:257`; also `estimate_p(points, 'mean')`, `rbf/core.py:139`. -/
noncomputable def meanDist (c : Fin M → Fin N → ℝ) : ℝ :=
  (∑ i, ∑ j, √(sqd (c i) (c j))) / ((M : ℝ) * M)

/-- `Rbf.__init__` without the fit, `rbf/core.py:223-264`. The result of `estimate_p(points, 'scipy')` is the
argument `scipyP`. `none`: `ValueError`. (`values` has length `M`, the shape assertions hold.) -/
noncomputable def init (points : Fin M → Fin N → ℝ) (values : Fin M → ℝ) (rbf : Kind) (r : Option ℝ) (p : PArg)
    (scipyP : ℝ) : Option (Obj M N) :=
  match p with
  | .mean => some ⟨points, values, rbf, r, meanDist points⟩
  | .scipy => some ⟨points, values, rbf, r, scipyP⟩
  | .otherStr => none
  | .num p => some ⟨points, values, rbf, r, p⟩

namespace Obj
variable (o : Obj M N)

/-- A row of `self.rbf(self.get_distsq(points=points), self.p)`. -/
noncomputable def row (x : Fin N → ℝ) (j : Fin M) : Option ℝ := o.rbf.ev (sqd x (o.points j)) o.p

/-- `G = self.rbf(self.get_distsq(), self.p)`, `rbf/core.py:350` (finite entries). -/
noncomputable def gram : Matrix (Fin M) (Fin M) ℝ := fun i j => (o.row (o.points i) j).getD 0

open Classical in
/-- `fit`, `rbf/core.py:350-360`, and `_solve`, `_solve_lstsq`. The solvers are parameters; scipy's refuse matrices
that are not finite. The result is `self.w`. -/
noncomputable def fit (solve : Matrix (Fin M) (Fin M) ℝ → (Fin M → ℝ) → Option (Fin M → ℝ))
    (lstsq : Matrix (Fin M) (Fin M) ℝ → (Fin M → ℝ) → Fin M → ℝ) : Option (Fin M → ℝ) :=
  if ∀ i, allSome (o.row (o.points i)) then
    match o.r with
    | none => some (lstsq o.gram o.values)
    | some r =>
      if r = 0 then solve o.gram o.values
      else solve (o.gram + r • (1 : Matrix (Fin M) (Fin M) ℝ)) o.values
  else none

/-- `np.abs(self.w).max()*1.0`, `rbf/core.py:430`. -/
noncomputable def maxw (w : Fin M → ℝ) : ℝ := (Finset.univ.sup fun i => Real.nnabs (w i) : NNReal)

open Classical in
/-- `predict`, `rbf/core.py:409-432`, of one point with `N'` coordinates. With `maxw` zero `self.w / maxw` is
`nan`. -/
noncomputable def predict (w : Fin M → ℝ) {N' : Nat} (x : Fin N' → ℝ) : Option ℝ :=
  if h : N' = N then
    let g := o.row (fun k => x (Fin.cast h.symm k))
    if allSome g ∧ maxw w ≠ 0 then
      some ((∑ j, (g j).getD 0 * (w j / maxw w)) * maxw w)
    else none
  else none

open Classical in
/-- `deriv`, `rbf/core.py:540-594`, of one point with `N'` coordinates. -/
noncomputable def deriv (w : Fin M → ℝ) {N' : Nat} (x : Fin N' → ℝ) : Option (Fin N → ℝ) :=
  if h : N' = N then
    let x' := fun k => x (Fin.cast h.symm k)
    let g := o.row x'
    if allSome g ∧ maxw w ≠ 0 then
      match o.rbf with
      | .multi =>
        if ∀ j, (g j).getD 0 ≠ 0 then
          some fun k => -(∑ j, (o.points j k - x' k) / (g j).getD 0 * (w j / maxw w)) * maxw w
        else none
      | .invMulti => some fun k => (∑ j, (o.points j k - x' k) * (g j).getD 0 ^ 3 * (w j / maxw w)) * maxw w
      | .gauss =>
        if o.p = 0 then none
        else some fun k => 1 / o.p ^ 2 * (∑ j, (o.points j k - x' k) * (g j).getD 0 * (w j / maxw w)) * maxw w
    else none
  else none

/-- `__call__`, `rbf/core.py:602-640`, of one point; `der` is the keyword, `none` if it is not given. The result:
the value or the gradient. -/
noncomputable def call (w : Fin M → ℝ) {N' : Nat} (x : Fin N' → ℝ) (der : Option Int) : Option (ℝ ⊕ (Fin N → ℝ)) :=
  match der with
  | some d => if d ≠ 1 then none else (o.deriv w x).map .inr
  | none => (o.predict w x).map .inl

open Classical in
/-- `fit_error`, `rbf/core.py:596-600`, with `L` points. -/
noncomputable def fitError (w : Fin M → ℝ) {L : Nat} (points : Fin L → Fin N → ℝ) (values : Fin L → ℝ) : Option ℝ :=
  if L ≠ 0 ∧ allSome (fun l => o.predict w (points l)) then
    let res := fun l => values l - (o.predict w (points l)).getD 0
    let err := (∑ l, res l * res l) / (L : ℝ)
    some (if o.p < 0 then Real.exp |err| else err)
  else none

end Obj
end Pwtools.Rbf
