import Verif.Spec.Pbc
import Verif.Model.Pbc
/-!
# C162: the crystal which a structure describes
-/
namespace Pwtools.Spec
open Pwtools.Cry

/-- The atoms of a structure: cartesian positions with their symbols. -/
noncomputable def atomList (st : Struct) : List (V3 × String) :=
  (st.coordsFrac.map (frac2cart st.cell)).zip (st.symbols.getD [])

/-- An atom of symbol `e` sits at `r` in the infinite crystal: at some atom of the structure plus some
lattice vector of its cell. -/
def InCrystal (st : Struct) (e : String) (r : V3) : Prop :=
  ∃ r0, (r0, e) ∈ atomList st ∧ ∃ n : Fin 3 → Int, r = translate st.cell n r0

/-- As many symbols as atoms. -/
def SymbolsComplete (st : Struct) : Prop := ∃ syms, st.symbols = some syms ∧ syms.length = st.coordsFrac.length

end Pwtools.Spec
