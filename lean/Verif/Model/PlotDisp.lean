import Verif.Model.PwText
import Verif.Model.Num
/-!
# Model of `bin/plot_dispersion.py`

`plt.plot(x, Y)` with an array of two axes draws one curve per column of `Y`; a curve is its list of points. Colours and the window are not modelled.
-/
namespace Pwtools.Pw
open Pwtools.Num

/-- `kpoints` of `read_matdyn_freq` as vectors, `plot_dispersion.py:67`. -/
def kVecs (nks : Nat) (k : Rows) : List (Fin 3 → ℝ) := (List.range nks).map fun i : Nat => fun c : Fin 3 => (((k i).getD c.val 0 : Rat) : ℝ)

/-- `plt.plot(path_norm, freqs, 'k')`, `plot_dispersion.py:70`. -/
def drawn (nks nbnd : Nat) (x : List ℝ) (f : Rows) : List (List (ℝ × ℝ)) :=
  (List.range nbnd).map fun j : Nat => List.zip x ((List.range nks).map fun i : Nat => (((f i).getD j 0 : Rat) : ℝ))

/-- `bin/plot_dispersion.py:49-71`: the curves. `none`: an exception. `argv[0]` is the name of the script; a second argument only gives a warning. -/
noncomputable def plotDispersion (tofloat : Text → Option Rat) (junkK junkF : Rows) (files : Text → Option (List Text)) (argv : List Text) :
    Option (List (List (ℝ × ℝ))) :=
  match argv[1]? with
  | none => none
  | some fn =>
    match files fn with
    | none => none
    | some lines =>
      match readMatdynFreq tofloat junkK junkF lines with
      | none => none
      | some (nks, nbnd, k, f) =>
        match getPathNorm (kVecs nks k) with
        | none => none
        | some x => some (drawn nks nbnd x f)

end Pwtools.Pw
