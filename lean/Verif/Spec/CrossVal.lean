import Verif.Model.CrossVal
/-!
# Specification for C116
-/
namespace Pwtools.Spec
open Cv
variable {V O P M : Type}

/-- The part of an array at the given indices. -/
def IsPart {A : Type} (arr : List A) (idxs : List Nat) (part : List A) : Prop :=
  part.length = idxs.length ∧ ∀ k i : Nat, idxs[k]? = some i → ∃ a, arr[i]? = some a ∧ part[k]? = some a

/-- `params` is `[p]` with `r` from the keywords, or its default, or `[p, r]`; no parameter is given twice. -/
inductive ParamsMean (rDefault : V) (kw : RbfKw V O) : List V → V → V → Prop
  | one (p : V) (h : kw.p = none) : ParamsMean rDefault kw [p] p (kw.r.getD rDefault)
  | two (p r : V) (h : kw.p = none) (h' : kw.r = none) : ParamsMean rDefault kw [p, r] p r

/-- `m` is the model with these parameters for the points with the indices `train`. -/
def TrainedOn (F : Fitter V O P M) (kw : RbfKw V O) (params : List V) (points : List P) (values : List ℝ) (train : List Nat) (m : M) : Prop :=
  ∃ p r ps vs, ParamsMean F.rDefault kw params p r ∧ IsPart points train ps ∧ IsPart values train vs ∧ F.build p r kw.other ps vs = some m

/-- `e` is the error of the model `m` on the points with the indices `test`. -/
def TestedOn (F : Fitter V O P M) (points : List P) (values : List ℝ) (test : List Nat) (m : M) (e : ℝ) : Prop :=
  ∃ ps vs, IsPart points test ps ∧ IsPart values test vs ∧ F.fitError m ps vs = some e

end Pwtools.Spec
