import Mathlib.Data.Real.Basic
/-!
# `rbf.hyperopt.FitError`: fit errors with and without cross validation

`Rbf` is a function `build p r other points values` which gives a model (`none` for exceptions: shapes, singular matrix), with a method
`fit_error`. Its details are in `Model/Rbf.lean`.
-/
namespace Pwtools.Cv

/-- Exceptions of `FitError`. -/
inductive VErr where
  | assertion | params | index | model
  deriving DecidableEq, Repr

/-- `rbf_kwds`: `p` and `r` if present, and the rest. `V` are the values of parameters, with `None` among them. -/
structure RbfKw (V O : Type) where
  /-- `p` -/
  p : Option V
  /-- `r` -/
  r : Option V
  /-- `rbf`, `fit` -/
  other : O

/-- The class `Rbf`. -/
structure Fitter (V O P M : Type) where
  /-- `Rbf(points, values, p=p, r=r, **other)` -/
  build : V → V → O → List P → List ℝ → Option M
  /-- `fit_error(points, values)` -/
  fitError : M → List P → List ℝ → Option ℝ
  /-- default of `r` in `Rbf.__init__`, `core.py:223`: 0 -/
  rDefault : V

variable {V O P M : Type}

/-- `FitError._get_rbfi`, `hyperopt.py:91-107`. -/
def getRbfi (F : Fitter V O P M) (kw : RbfKw V O) (params : List V) (points : List P) (values : List ℝ) : Except VErr M :=
  match params with
  | [p] =>
    if kw.p.isSome then .error .assertion
    else match F.build p (kw.r.getD F.rDefault) kw.other points values with
      | some m => .ok m
      | none => .error .model
  | [p, r] =>
    if kw.p.isSome || kw.r.isSome then .error .assertion
    else match F.build p r kw.other points values with
      | some m => .ok m
      | none => .error .model
  | _ => .error .params

/-- `arr[idxs, ...]`. -/
def pick {A : Type} (arr : List A) (idxs : List Nat) : Except VErr (List A) :=
  match idxs.mapM fun i => arr[i]? with
  | some l => .ok l
  | none => .error .index

/-- The body of the loop of `FitError.cv`, `hyperopt.py:137-145`. -/
def cvStep (F : Fitter V O P M) (kw : RbfKw V O) (params : List V) (points : List P) (values : List ℝ) (train test : List Nat) : Except VErr ℝ := do
  let ptrain ← pick points train
  let vtrain ← pick values train
  let m ← getRbfi F kw params ptrain vtrain
  let ptest ← pick points test
  let vtest ← pick values test
  match F.fitError m ptest vtest with
  | some e => .ok e
  | none => .error .model

/-- The loop of `FitError.cv`; `errs` is the array, `i` the position. -/
def cvLoop (F : Fitter V O P M) (kw : RbfKw V O) (params : List V) (points : List P) (values : List ℝ) :
    List (List Nat × List Nat) → Nat → List ℝ → Except VErr (List ℝ)
  | [], _, errs => .ok errs
  | s :: rest, i, errs => do
    let e ← cvStep F kw params points values s.1 s.2
    if i < errs.length then cvLoop F kw params points values rest (i + 1) (errs.set i e) else .error .index

/-- `FitError.cv`, `hyperopt.py:109-146`. `junk` is the array of `np.empty`, of length `get_n_splits`. -/
def cv (F : Fitter V O P M) (kw : RbfKw V O) (params : List V) (points : List P) (values : List ℝ) (splits : List (List Nat × List Nat)) (junk : List ℝ) :
    Except VErr (List ℝ) := cvLoop F kw params points values splits 0 junk

/-- `.mean()` -/
noncomputable def mean (l : List ℝ) : ℝ := l.sum / l.length

/-- `FitError.err_cv`, `hyperopt.py:148-150`. -/
noncomputable def errCv (F : Fitter V O P M) (kw : RbfKw V O) (params : List V) (points : List P) (values : List ℝ) (splits : List (List Nat × List Nat))
    (junk : List ℝ) : Except VErr ℝ := (cv F kw params points values splits junk).map mean

/-- `FitError.err_direct`, `hyperopt.py:152-159`. -/
def errDirect (F : Fitter V O P M) (kw : RbfKw V O) (params : List V) (points : List P) (values : List ℝ) : Except VErr ℝ := do
  let m ← getRbfi F kw params points values
  match F.fitError m points values with
  | some e => .ok e
  | none => .error .model

/-- `FitError.__call__`, `hyperopt.py:73,85-89`. `splits` is `none` if `cv` and `cv_kwds` are `None`; it also has the junk. -/
noncomputable def call (F : Fitter V O P M) (kw : RbfKw V O) (params : List V) (points : List P) (values : List ℝ)
    (splits : Option (List (List Nat × List Nat) × List ℝ)) : Except VErr ℝ :=
  match splits with
  | some s => errCv F kw params points values s.1 s.2
  | none => errDirect F kw params points values

end Pwtools.Cv
