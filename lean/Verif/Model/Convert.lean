import Verif.Model.Pdb
import Verif.Model.Cif
import Verif.Model.Sgroup
import Verif.Model.Derived
import Verif.Model.Cif2any
/-!
# The conversion scripts `bin/pdb2cif.py`, `bin/cif2sgroup.py`, and `io.read_cif` in `bin/cif2any.py`

A CIF file is a data block (PyCifRW is not modelled). The attributes which the container computes are those of `Model/Derived.lean`, with real numbers.
-/
namespace Pwtools.Conv
open Cry Tr Units PwRead

/-- `parse()` of `CifFile` with the getters of `attr_lst`, `parse.py:344-349`, in this order. -/
def cifParse {K : Type} (num : Text → Option K) (b : Cif.Block) : Except Cif.CErr ((UAttr → Option (Val K)) × Option (CC K)) :=
  (Cif.coordsOf num "_atom_site_fract_" b).bind fun frac =>
  (Cif.coordsOf num "_atom_site_Cartn_" b).bind fun coords =>
  (Cif.symbols b).bind fun symbols =>
  (Cif.crystConst num b).bind fun cc =>
  .ok (fun
    | .coords => coords.map .mat
    | .other n => if n = "symbols" then symbols.map .words else if n = "coords_frac" then frac.map .mat else none
    | _ => none, some (.one cc))

/-- `io.read_cif(filename, units=user)`, `io.py:381-384`, which is `CifFile(...).get_struct()`, after the parsers `hist` were created. -/
def readCif {K : Type} [Field K] [DecidableEq K] (c : Consts K) (hist : List (Kind × UDict K)) (user : UDict K) (g : Getters K (Val K))
    (num : Text → Option K) (b : Cif.Block) : Except (Cif.CErr ⊕ Err) (UObj K (Val K)) :=
  match cifParse num b with
  | .error e => .error (.inl e)
  | .ok (attrs, cc) => match (Parser.init attrs cc (create c (after c hist) .cif user).2).getCont g with
    | .error e => .error (.inr e)
    | .ok (st, _) => .ok st

/-- `cryst_const` of a structure. -/
def ccOf : CC ℝ → Option CrystConst
  | .one [a, b, c, al, be, ga] => some ⟨a, b, c, al, be, ga⟩
  | _ => none

/-- A row of an array with three columns. -/
def v3Of : List ℝ → Option V3
  | [x, y, z] => some ![x, y, z]
  | _ => none

/-- The rows of an array with three columns. -/
def rowsOf : Val ℝ → Option (List V3)
  | .mat m => m.mapM v3Of
  | _ => none

/-- `struct.symbols`. -/
def symbolsOf (o : UObj ℝ (Val ℝ)) : Option (List Text) :=
  match o.attr (.other "symbols") with
  | some (.words w) => some w
  | _ => none

/-- The structure which the container is: the attributes of the file in the units of the user, and those which `set_all` computes from them (`crys.py:2446-2449`). In `readCif`, `readPdb` these come
from the getters `g`; here `g` is nothing and they are computed by `St.setAll`. -/
noncomputable def structOf (o : UObj ℝ (Val ℝ)) : Drv.St :=
  ({ cc := o.cc.bind ccOf, coords := (o.attr .coords).bind rowsOf, coordsFrac := (o.attr (.other "coords_frac")).bind rowsOf,
     symbols := (symbolsOf o).map fun l => l.map String.ofList } : Drv.St).setAll

/-- No getters. -/
def noGetters {K V : Type} : Getters K V := ⟨fun _ _ => none, fun _ => none⟩

/-- The coordinates of a vector. -/
def v3List (v : V3) : List ℝ := [v 0, v 1, v 2]

/-- The six constants. -/
def ccList (cc : CrystConst) : List ℝ := [cc.a, cc.b, cc.c, cc.alpha, cc.beta, cc.gamma]

/-- `bin/pdb2cif.py:30`: `io.write_cif(outfile, io.read_pdb(infile))`, the block which is written. Inner `none`: an attribute is `None`, `TypeError`. -/
noncomputable def pdb2cif (c : Consts ℝ) (num : Text → Option ℝ) (fmt : ℝ → Text) (txt : Text) : Except (Gr.PErr ⊕ Err) (Option Cif.Block) :=
  (Pdb.readPdb c [] (fun _ => none) noGetters num txt).map fun o =>
    match (structOf o).cc, (structOf o).coordsFrac, symbolsOf o with
    | some cc, some f, some syms => some (Cif.writeBlock fmt (ccList cc) syms (f.map v3List) 0)
    | _, _, _ => none

/-- `bin/cif2sgroup.py:23-25`: the text which is printed. -/
noncomputable def cif2sgroup (c : Consts ℝ) (num : Text → Option ℝ) (fmt : ℝ → Text) (b : Cif.Block) : Except (Cif.CErr ⊕ Err) (Option Text) :=
  (readCif c [] (fun _ => none) noGetters num b).map fun o =>
    match (structOf o).cc, (structOf o).coordsFrac, symbolsOf o, (structOf o).natoms with
    | some cc, some f, some syms, some n => some (Sg.sgroupInput fmt "P".toList ⟨ccList cc, n, syms, f.map v3List⟩)
    | _, _, _, _ => none

/-- `struct` of `cif2any.py:23`, as the sections use it. -/
noncomputable def cif2anyStruct (c : Consts ℝ) (bohr ang : ℝ) (num : Text → Option ℝ) (b : Cif.Block) : Except (Cif.CErr ⊕ Err) (Option (Cif2any.Crystal ℝ)) :=
  (readCif c [] (fun q => if q = .length then some (ang / bohr) else none) noGetters num b).map fun o =>
    match (structOf o).cc, (structOf o).coordsFrac, symbolsOf o, (structOf o).cell with
    | some cc, some f, some syms, some cell => some ⟨syms, f.map v3List, ccList cc, Cif2any.cellRows cell⟩
    | _, _, _, _ => none

end Pwtools.Conv
