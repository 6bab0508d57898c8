import Verif.Model.Derived
import Mathlib.Algebra.Order.Floor.Ring
/-!
# Model of the conversion between `Structure` and ASE's `Atoms`

ASE itself is not part of the repository: `Atoms`, its constructor and `get_scaled_positions` are modelled as documented there (positions are stored Cartesian; scaled positions are wrapped into the cell
in the directions with `pbc`). Of the keywords for the constructor only `pbc` is modelled. Real numbers.
-/
namespace Pwtools.Ase
open Cry Drv

/-- `ase.Atoms`: what it stores. -/
structure Atoms where
  symbols : List String
  cell : Cell
  positions : List V3
  pbc : Fin 3 → Bool

/-- `ase.Atoms(symbols=..., scaled_positions=..., cell=..., pbc=...)`. `none`: `ValueError`, symbols and positions have different lengths. -/
def mkAtoms (symbols : List String) (scaled : List V3) (cell : Cell) (pbc : Fin 3 → Bool) : Option Atoms :=
  if symbols.length = scaled.length then some ⟨symbols, cell, scaled.map (frac2cart cell), pbc⟩ else none

/-- `atoms.get_scaled_positions()`: `% 1.0` in the periodic directions. -/
noncomputable def Atoms.scaledPositions (a : Atoms) : List V3 :=
  a.positions.map fun r k => if a.pbc k then Int.fract (cart2frac a.cell r k) else cart2frac a.cell r k

/-- What `struct2atoms` can do: `None` is returned if an attribute is missing; `ValueError` from ASE. -/
inductive AseRes where
  | atoms (a : Atoms)
  | none
  | value

/-- `st.get_ase_atoms(pbc=...)`, `crys.py:2817-2862`, and `struct2atoms`, `crys.py:3027-3029`. `s`: the attributes of a structure after the constructor. -/
def struct2atoms (s : St) (pbc : Fin 3 → Bool := fun _ => false) : AseRes :=
  match s.coordsFrac, s.cell, s.symbols with
  | some f, some c, some l => match mkAtoms l f c pbc with
    | some a => .atoms a
    | none => .value
  | _, _, _ => .none

/-- `atoms2struct`, `crys.py:3020-3024`. -/
noncomputable def atoms2struct (a : Atoms) : St :=
  ({ symbols := some a.symbols, cell := some a.cell, coordsFrac := some a.scaledPositions } : St).setAll

/-- `FakeASEAtoms`, `crys.py:3040-3058`, made by `get_fake_ase_atoms`, `crys.py:2864-2868`: a structure; its methods return `scaledPositions` = `coordsFrac`, `positions` = `coords`,
`get_number_of_atoms` = `natoms`. The getters called there (`crys.py:2614-2622, 2652-2663`) return what is set. -/
noncomputable def fakeAtoms (s : St) : St :=
  ({ symbols := s.symbols, cell := s.cell, coordsFrac := s.coordsFrac } : St).setAll

end Pwtools.Ase
