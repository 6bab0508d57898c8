import Verif.Model.Cell
import Verif.Model.Traj
/-!
# Model of `src/pwtools/lammps.py` and of the results of the LAMMPS calculator

The text layout (line breaks, number formats) is left out: the model gives the numbers which are written, in their order. Floats are real numbers.
-/
namespace Pwtools.LmpData
open Cry Tr

/-- The attributes of a structure which matter here. All derived attributes are set (C93): `coords` are those of `frac` in `cell`. -/
structure St (n : Nat) (S : Type) where
  /-- symbols -/
  symbols : Fin n → S
  /-- fractional coordinates -/
  frac : Fin n → V3
  /-- cell, rows are the cell vectors -/
  cell : Cell

/-- `st.coords` of the structure. -/
def St.coords {n : Nat} {S : Type} (st : St n S) : Fin n → V3 := fun i => frac2cart st.cell (st.frac i)

/-- `lammps.py:26-29`: `st = struct.copy(); st.coords = None; st.cell = None; st.set_all()`. The cell is made from the lattice constants
(which stay), the cartesian coordinates from the fractional ones (which stay) and the new cell. -/
noncomputable def realign {n : Nat} {S : Type} (st : St n S) : St n S := { st with cell := cc2cell (cell2cc st.cell) }

/-- `fix_eps` on one entry, `common.py:243-260`, with `eps=1e-13` (`lammps.py:40, 47`). -/
noncomputable def fix (x : ℝ) : ℝ := if |x| ≤ 1 / 10 ^ 13 then 0 else x

/-- The numbers in a data file of LAMMPS. -/
structure Data (M : Type) where
  /-- `... atoms` -/
  natoms : Nat
  /-- `... atom types` -/
  ntypes : Nat
  /-- `0.0 ... xlo xhi` and so on -/
  hi : V3
  /-- `... xy xz yz` -/
  tilt : V3
  /-- section `Atoms`: number, type, coordinates -/
  atoms : List (Nat × Nat × V3)
  /-- section `Masses`: type, mass -/
  masses : List (Nat × M)

/-- `struct_str`, `lammps.py:6-52`. `mass s` is `atomic_data.pt[s]['mass']` (line 49); `order[...]` (line 45) cannot fail, the default 0 is not
used (`C101_atoms`). -/
noncomputable def structData {n : Nat} {S M : Type} [LE S] [DecidableLE S] [DecidableEq S] (mass : S → M) (struct : St n S) : Data M :=
  let st := realign struct
  let uniq := symbolsUnique (List.ofFn st.symbols)
  { natoms := n
    ntypes := uniq.length
    hi := ![st.cell 0 0, st.cell 1 1, st.cell 2 2]
    tilt := ![fix (st.cell 1 0), fix (st.cell 2 0), fix (st.cell 2 1)]
    atoms := List.ofFn fun i : Fin n => (i.val + 1, (dictGet (orderDict uniq) (st.symbols i)).getD 0, fun k => fix (st.coords i k))
    masses := uniq.zipIdx.map fun p => (p.2 + 1, mass p.1) }

/-- What a program computes for a cell and cartesian coordinates: energy, forces on the atoms, stress. -/
structure Law (n : Nat) where
  /-- energy -/
  energy : Cell → (Fin n → V3) → ℝ
  /-- forces -/
  forces : Cell → (Fin n → V3) → Fin n → V3
  /-- stress -/
  stress : Cell → (Fin n → V3) → Matrix (Fin 3) (Fin 3) ℝ

/-- `calculators.Lammps.write_input` and `read_results`, `calculators.py:400-420`: LAMMPS computes energy, forces and stress of the *written*
structure; these are returned as they are. The values below `1e-13` which `struct_str` sets to zero are neglected here. -/
noncomputable def lammpsResults {n : Nat} {S : Type} (law : Law n) (atoms : St n S) : ℝ × (Fin n → V3) × Matrix (Fin 3) (Fin 3) ℝ :=
  let st := realign atoms
  (law.energy st.cell st.coords, law.forces st.cell st.coords, law.stress st.cell st.coords)

end Pwtools.LmpData
