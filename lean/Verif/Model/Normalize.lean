import Verif.Model.Signal
import Mathlib.Data.Complex.Basic
/-!
# Model of `num.normalize`
-/
namespace Pwtools.Sig

/-- `num.normalize` for real arrays, `num.py:32-45`. `none`: no values (`ValueError`), or the maximum is 0 and values are `nan` or infinite. -/
def normalize {K : Type} [Field K] [LinearOrder K] (a : List K) : Option (List K) :=
  if a = [] then none else if listMax a = 0 then none else some (a.map (fun v => v / listMax a))

open Classical in
/-- `a.max()` of a complex array, `num.py:45`: the larger real part, for equal real parts the larger imaginary part (numpy's order of complex numbers). -/
noncomputable def maxC : List ℂ → ℂ
  | [] => 0
  | [z] => z
  | z :: w :: rest =>
    let m := maxC (w :: rest)
    if m.re < z.re ∨ (m.re = z.re ∧ m.im ≤ z.im) then z else m

open Classical in
/-- `num.normalize` for complex arrays, `num.py:32-45`. -/
noncomputable def normalizeC (a : List ℂ) : Option (List ℂ) :=
  if a = [] then none else if maxC a = 0 then none else some (a.map (fun v => v / maxC a))

end Pwtools.Sig
