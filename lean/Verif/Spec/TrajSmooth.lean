import Verif.Model.TrajSmooth
/-!
# Specification for C169: smoothed trajectories
-/
namespace Pwtools.Spec
open Pwtools.Sig Pwtools.Tr

variable {K : Type} [Field K] [DecidableEq K]

/-- Every scalar time series in `b` is the corresponding series of `a`, smoothed with `signal.smooth(series, kern)`. -/
def SeriesSmoothed (kern : List K) : Att K → Att K → Prop
  | .d1 a, .d1 b => smooth a kern "m" true = some b
  | .d2 m a, .d2 m' b => ∃ h : m = m', a.length = b.length ∧
      ∀ j, smooth (a.map fun row => row j) kern "m" true = some (b.map fun row => row (h ▸ j))
  | .d3 n m a, .d3 n' m' b => ∃ (h : n = n') (h' : m = m'), a.length = b.length ∧
      ∀ j k, smooth (a.map fun row => row j k) kern "m" true = some (b.map fun row => row (h ▸ j) (h' ▸ k))
  | _, _ => False

/-- The number of time steps of an array, `none` if it is not of 1 to 3 dimensions. -/
def attSteps : Att K → Option Nat
  | .d1 a => some a.length
  | .d2 _ a => some a.length
  | .d3 _ _ a => some a.length
  | .other => none

/-- The array has a place for at least one number in each time step. -/
def attNonempty : Att K → Prop
  | .d1 _ => True
  | .d2 m _ => 0 < m
  | .d3 n m _ => 0 < n ∧ 0 < m
  | .other => True

/-- `coords = coords_frac · cell` in one time step (rows are atoms, rows of the cell are the basis vectors). -/
def fracToCart {n : Nat} (cell : Fin 3 → Fin 3 → K) (frac : Fin n → Fin 3 → K) : Fin n → Fin 3 → K :=
  fun i k => ∑ l, frac i l * cell l k

end Pwtools.Spec
