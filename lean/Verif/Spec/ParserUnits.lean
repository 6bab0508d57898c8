import Verif.Model.ParserUnits
/-!
# Specification: the unit factors each parser needs

From the units in which the programs write (docstrings of the getters in `parse.py`) to eV, Angstrom, fs, GPa.
-/
namespace Pwtools.Spec
open Pwtools.Units Pwtools.Tr
variable {K : Type} [Field K]

/-- Does the parser return a quantity of this kind? From `attr_lst` of the parser. -/
def returns : Kind → Qty → Bool
  | .cif, q | .pdb, q => q = .length
  | .pwScf, q | .cpmdScf, q => q = .length ∨ q = .energy ∨ q = .forces ∨ q = .stress
  | .pwMd, q | .pwVcMd, q => q = .length ∨ q = .energy ∨ q = .forces ∨ q = .stress ∨ q = .temperature ∨ q = .time
  | .cp2kScf, q => q = .energy ∨ q = .forces ∨ q = .stress
  | _, _ => true

/-- The factor. pw.x: Ry, Bohr, kbar, Rydberg time. CPMD: Ha, Bohr, kbar, Hartree time. CP2K: Ha, forces in Ha/Bohr, lengths in
Angstrom, time in fs, velocities in Bohr/thart, stress in GPa (SCF) or bar (MD). LAMMPS (metal): eV, Angstrom, ps, bar. -/
def factor (c : Consts K) : Kind → Qty → K
  | .cif, _ | .pdb, _ => 1
  | .pwScf, q | .pwMd, q | .pwVcMd, q => match q with
    | .energy => c.Ry / c.eV
    | .length => c.Bohr / c.Ang
    | .forces => c.Ry / c.eV * c.Ang / c.Bohr
    | .stress => 1 / 10
    | .time => c.tryd / c.fs
    | _ => 1
  | .cpmdScf, q | .cpmdMd, q => match q with
    | .energy => c.Ha / c.eV
    | .length => c.Bohr / c.Ang
    | .forces => c.Ha / c.eV * c.Ang / c.Bohr
    | .stress => 1 / 10
    | .time => c.thart / c.fs
    | .velocity => c.Bohr / c.Ang * c.fs / c.thart
    | _ => 1
  | .cp2kScf, q => match q with
    | .energy => c.Ha / c.eV
    | .forces => c.Ha / c.eV * c.Ang / c.Bohr
    | _ => 1
  | .cp2kMd, q | .cp2kRelax, q | .cp2kDcd, q => match q with
    | .energy => c.Ha / c.eV
    | .forces => c.Ha / c.eV * c.Ang / c.Bohr
    | .stress => 1 / 10000
    | .velocity => c.Bohr / c.Ang * c.fs / c.thart
    | _ => 1
  | .lammpsTxt, q | .lammpsDcd, q => match q with
    | .stress => 1 / 10000
    | .velocity => c.fs / c.ps
    | .time => c.ps / c.fs
    | _ => 1

end Pwtools.Spec
