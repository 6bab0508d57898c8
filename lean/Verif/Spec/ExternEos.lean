import Verif.Model.ExternEos
/-!
# Specification for C114
-/
namespace Pwtools.Spec
open Eos2
variable {D S : Type}

/-- What `fit` promises: arrays of the program for the data of the object, the bulk modulus from `P(V)` or `E(V)`, and splines through
these arrays. -/
structure Fitted (sp : Splines S) (fac : ℝ) (tool : D → Tab × Tab) (st : St D S) : Prop where
  ev : st.ev = some (tool st.data).1
  pv : st.pv = some (tool st.data).2
  bv : ∃ bv, st.bv = some bv ∧ st.splBv = some (sp.interp bv) ∧
    match st.method with
    | .ev => bv = (tool st.data).1.map fun r => (r.1, r.1 * sp.ev (sp.interp (tool st.data).1) 2 r.1 * fac)
    | .pv => bv = (tool st.data).2.map fun r => (r.1, -r.1 * sp.ev (sp.interp (tool st.data).2) 1 r.1)
    | .other => False
  splEv : st.splEv = some (sp.interp (tool st.data).1)
  splPv : st.splPv = some (sp.interp (tool st.data).2)

end Pwtools.Spec
