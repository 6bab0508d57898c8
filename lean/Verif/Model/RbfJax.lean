import Verif.Model.Rbf
/-!
# Model of `Rbf` with and without jax, `src/pwtools/rbf/core.py`

Exact arithmetic as in `Model/Rbf`. `jax` is `JAX_MODE` (`config.use_jax` at the time of the import). The distances are the same in both
modes (C149). jax does not raise if a result is not finite; such a result is `none` here, like an exception.
-/
namespace Pwtools.Rbf.Obj

variable {M N : Nat} (o : Obj M N)

/-- `_solve`, `rbf/core.py:366-402`: the solver for positive definite matrices of jax (`sym_pos=True`, a Cholesky decomposition)
or the one for symmetric matrices of scipy. -/
def modeSolve (jax : Bool) (cho sym : Matrix (Fin M) (Fin M) ℝ → (Fin M → ℝ) → Option (Fin M → ℝ)) :
    Matrix (Fin M) (Fin M) ℝ → (Fin M → ℝ) → Option (Fin M → ℝ) := if jax then cho else sym

/-- `fit`, `rbf/core.py:350-364`; the least squares solver is that of scipy in both modes. -/
noncomputable def fitMode (jax : Bool) (cho sym : Matrix (Fin M) (Fin M) ℝ → (Fin M → ℝ) → Option (Fin M → ℝ))
    (lstsq : Matrix (Fin M) (Fin M) ℝ → (Fin M → ℝ) → Fin M → ℝ) : Option (Fin M → ℝ) := o.fit (modeSolve jax cho sym) lstsq

/-- `deriv_jax`, `rbf/core.py:434-472`, of one point; `ad` is `jax.grad`. `none` without jax is `NotImplementedError`. -/
noncomputable def derivJax (jax : Bool) (ad : ((Fin N → ℝ) → Option ℝ) → (Fin N → ℝ) → Option (Fin N → ℝ)) (w : Fin M → ℝ) {N' : Nat}
    (x : Fin N' → ℝ) : Option (Fin N → ℝ) :=
  if jax then
    if h : N' = N then ad (fun y => o.predict w y) (fun k => x (Fin.cast h.symm k)) else none
  else none

/-- `__call__`, `rbf/core.py:628-640`, in both modes. -/
noncomputable def callMode (jax : Bool) (ad : ((Fin N → ℝ) → Option ℝ) → (Fin N → ℝ) → Option (Fin N → ℝ)) (w : Fin M → ℝ) {N' : Nat}
    (x : Fin N' → ℝ) (der : Option Int) : Option (ℝ ⊕ (Fin N → ℝ)) :=
  match der with
  | some d => if d ≠ 1 then none else if jax then (o.derivJax jax ad w x).map .inr else (o.deriv w x).map .inr
  | none => (o.predict w x).map .inl

end Pwtools.Rbf.Obj
