import Verif.Model.Cp2k
import Verif.Model.Cell
/-!
# Model of `bin/matdyn2fqha.py`

Real numbers. `fmt` is `'%f' % x`, `num` is how numbers are read, `integ` is `scipy.integrate.simpson` (`dos`, then `freq`). The messages on stderr are not modelled.
-/
namespace Pwtools.Fqha
open Cry Gr

/-- The lines of a file. -/
def fileLines (txt : Text) : List Text := splitSepAux '\n' [] [] txt

/-- The second line of the header, `matdyn2fqha.py:60`. -/
def header2 (fmt : ℝ → Text) (inatom : Int) (nstep : Nat) (emax de : ℝ) : Text :=
  strInt inatom ++ "  ".toList ++ strNat nstep ++ "  ".toList ++ fmt emax ++ "  ".toList ++ fmt de

/-- `matdyn2fqha.py:39-61`: what is printed for a file with this text. -/
noncomputable def fqha (fmt : ℝ → Text) (num : Text → Option ℝ) (integ : List ℝ → List ℝ → ℝ) (content : Text) : Except PErr Text :=
  match Cp2k.loadtxt num (fileLines content) with
  | .error e => .error e
  | .ok rows =>
    match Cp2k.column 0 rows 0, Cp2k.column 0 rows 1 with
    | .ok freq, .ok dos =>
      let natom := integ dos freq / 3
      let nstep := freq.length
      let emax := freq.getLastD 0
      let de := freq.getD 1 0 - freq.getD 0 0
      let inatom := npRound natom
      .ok (strInt inatom ++ ['\n'] ++ header2 fmt inatom nstep emax de ++ ['\n'] ++ content ++ ['\n'])
    | .error e, _ => .error e
    | _, .error e => .error e

end Pwtools.Fqha
