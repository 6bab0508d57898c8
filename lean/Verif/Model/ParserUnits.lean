import Verif.Model.Traj
/-!
# Model of the unit factors of the parsers in `src/pwtools/parse.py`

`default_units` is an attribute of a *class*: a dict object which all parsers share that find it by attribute lookup. The
`__init__` methods of the MD parsers change that object.
-/
namespace Pwtools.Units
open Pwtools.Tr (Qty)

/-- The parser classes. -/
inductive Kind where
  | cif | pdb | pwScf | pwMd | pwVcMd | cpmdScf | cpmdMd | cp2kScf | cp2kMd | cp2kRelax | cp2kDcd | lammpsTxt | lammpsDcd
  deriving DecidableEq, Repr

/-- The dict objects: `StructureFileParser.default_units` (`parse.py:253`), that of `PwSCFOutputFile` (`parse.py:647-652`),
`CpmdSCFOutputFile` (`parse.py:1206-1211`) and `Cp2kSCFOutputFile` (`parse.py:1752-1755`). -/
inductive Dict where
  | base | pw | cpmd | cp2k
  deriving DecidableEq, Repr

/-- Which dict object `self.default_units` is: attribute lookup along the method resolution order. `TrajectoryFileParser` does
not define the attribute, so the MD parsers find that of the SCF parser they are derived from; the lammps parsers find
that of the base class. -/
def dictOf : Kind → Dict
  | .cif | .pdb | .lammpsTxt | .lammpsDcd => .base
  | .pwScf | .pwMd | .pwVcMd => .pw
  | .cpmdScf | .cpmdMd => .cpmd
  | .cp2kScf | .cp2kMd | .cp2kRelax | .cp2kDcd => .cp2k

/-- Constants (`constants.py`): Rydberg, Hartree and eV; Bohr and Angstrom; femtosecond, picosecond, Hartree and Rydberg time. -/
structure Consts (K : Type) where
  (Ry Ha eV Bohr Ang fs ps thart tryd : K)

variable {K : Type} [Field K]

/-- A dict of unit factors. -/
abbrev UDict (K : Type) := Qty → Option K

/-- The dict objects at import time. -/
def initial (c : Consts K) : Dict → UDict K
  | .base => fun _ => none
  | .pw => fun
    | .energy => some (c.Ry / c.eV)
    | .length => some (c.Bohr / c.Ang)
    | .forces => some (c.Ry / c.eV * c.Ang / c.Bohr)
    | .stress => some (1 / 10)
    | _ => none
  | .cpmd => fun
    | .energy => some (c.Ha / c.eV)
    | .length => some (c.Bohr / c.Ang)
    | .forces => some (c.Ha / c.eV * c.Ang / c.Bohr)
    | .stress => some (1 / 10)
    | _ => none
  | .cp2k => fun
    | .energy => some (c.Ha / c.eV)
    | .forces => some (c.Ha / c.eV * c.Ang / c.Bohr)
    | _ => none

/-- What `__init__` puts into `self.default_units`: `parse.py:879` (pw MD), `1470-1473` (cpmd MD), `1825-1826` (cp2k MD),
`2213-2215` (lammps). -/
def initUpdate (c : Consts K) : Kind → UDict K
  | .pwMd | .pwVcMd => fun
    | .time => some (c.tryd / c.fs)
    | _ => none
  | .cpmdMd => fun
    | .time => some (c.thart / c.fs)
    | .velocity => some (c.Bohr / c.Ang * c.fs / c.thart)
    | _ => none
  | .cp2kMd | .cp2kRelax | .cp2kDcd => fun
    | .stress => some (1 / 10000)
    | .velocity => some (c.Bohr / c.thart / c.Ang * c.fs)
    | _ => none
  | .lammpsTxt | .lammpsDcd => fun
    | .stress => some (1 / 10000)
    | .velocity => some (c.fs / c.ps)
    | .time => some (c.ps / c.fs)
    | _ => none
  | _ => fun _ => none

/-- `d.update(e)`. -/
def dictUpdate (d e : UDict K) : UDict K := fun q => (e q).or (d q)

/-- `SomeParser(filename, units=user)`, `parse.py:254-272` after the update of `default_units`: the dict objects afterwards, and the
parser's `units` (initially all `1.0`, `crys.py:2143-2146`; then `update_units` twice). -/
def create (c : Consts K) (st : Dict → UDict K) (k : Kind) (user : UDict K) : (Dict → UDict K) × (Qty → K) :=
  let st' := Function.update st (dictOf k) (dictUpdate (st (dictOf k)) (initUpdate c k))
  (st', fun q => ((user q).or (st' (dictOf k) q)).getD 1)

/-- The dict objects after a history of parser creations. -/
def after (c : Consts K) (h : List (Kind × UDict K)) : Dict → UDict K :=
  h.foldl (fun st op => (create c st op.1 op.2).1) (initial c)

end Pwtools.Units
