import Verif.Model.Common
import Verif.Model.Traj
import Verif.Model.Cell
import Mathlib.Data.List.Lex
import Mathlib.Data.Char
/-!
# `bin/cif2any.py`: input files for PWscf, ABINIT, CPMD and CP2K from a CIF file

The printed text, section by section. Not modelled: the headings between the sections, the notes (`cif2any.py:34-65`) and the table of k-point grids. The CIF file is read by `io.read_cif` (C103);
the structure has lengths in Bohr. `fmt` is `'%.16e' % x` with numbers up to `EPS` printed as zero (`common.str_arr`), `raw` is `'%.16e' % x`, `rep` is `str(x)`.
-/
namespace Pwtools.Cif2any
open Tr

variable {K : Type}

/-- `struct.symbols_unique`, `struct.typat`, `struct.ntypat`, `struct.nspecies` (`crys.py:2732-2800`), for an ordered type of symbols. -/
abbrev uniqs {S : Type} [LinearOrder S] (l : List S) : List S := symbolsUnique l
@[inherit_doc uniqs] abbrev types {S : Type} [LinearOrder S] (l : List S) : Option (List Nat) := typat l
@[inherit_doc uniqs] abbrev ntypes {S : Type} [LinearOrder S] (l : List S) : Nat := ntypat l
@[inherit_doc uniqs] abbrev nspec {S : Type} [LinearOrder S] (l : List S) : Option (List (S × Nat)) := nspecies l

/-- The attributes of the structure which are used. `numbers`: the periodic table (`atomic_data`), `mass`: `str(atomic_data.pt[sym]['mass'])`. -/
structure Crystal (K : Type) where
  symbols : List Text
  frac : List (List K)
  cc : List K
  cell : List (List K)

/-- `delim` of `str_arr`, `common.py:263`. -/
def delim : Text := "    ".toList

/-- `str_arr` of a 1d array, `common.py:303-304`. -/
def row (fmt : K → Text) (r : List K) : Text := joinSep delim (r.map fmt)

/-- `str_arr` of a 2d array, `common.py:305-312`: its lines. -/
def rows (fmt : K → Text) (a : List (List K)) : List Text := a.map (row fmt)

/-- `atpos_str`, `pwscf.py:39-47`: its lines. -/
def atpos (fmt : K → Text) (symbols : List Text) (a : List (List K)) : List Text := List.zipWith (fun s r => s ++ delim ++ row fmt r) symbols a

/-- `indent`, `cif2any.py:16-19`. -/
def indent (n : Nat) (ls : List Text) : List Text := ls.map (List.replicate n ' ' ++ ·)

/-- The lines of a section, as one text. -/
def unlines (ls : List Text) : Text := joinSep ['\n'] ls

/-- ABINIT, `cif2any.py:129-142`. `none`: `KeyError` for an unknown symbol. -/
def abinit (fmt : K → Text) (numbers : Text → Option Nat) (s : Crystal K) : Option Text :=
  match types s.symbols, znucl numbers s.symbols with
  | some t, some z => some (unlines (
      ["natom ".toList ++ strNat s.symbols.length,
       "ntypat ".toList ++ strNat (ntypes s.symbols),
       "typat ".toList ++ seq2str t strNat,
       "znucl ".toList ++ seq2str z strNat,
       "acell ".toList ++ row fmt (s.cc.take 3),
       "angdeg ".toList ++ row fmt (s.cc.drop 3),
       "xred".toList] ++ rows fmt s.frac ++
      ["pseudopotential order:".toList] ++ List.zipWith (fun a b => a ++ [' '] ++ strNat b) (uniqs s.symbols) z))
  | _, _ => none

/-- One entry of the section `&ATOMS` of CPMD, `cif2any.py:163-167`. `upper` is `str.upper`. -/
def cpmdSpecies (fmt : K → Text) (upper : Text → Text) (s : Crystal K) (sym : Text) (n : Nat) : List Text :=
  [("*".toList ++ sym ++ ".psp".toList), "    LMAX=XXXLMAX_".toList ++ upper sym ++ " LOC=XXXLOC_".toList ++ upper sym, "    ".toList ++ strNat n] ++
    indent 4 (rows fmt (((s.symbols.zip s.frac).filter fun a => decide (a.1 = sym)).map Prod.snd))

/-- CPMD, `cif2any.py:147-168`. -/
def cpmd (fmt raw : K → Text) (upper : Text → Text) (s : Crystal K) : Option Text :=
  (nspec s.symbols).map fun d => unlines (
    ["&SYSTEM".toList, "    SYMMETRY".toList, "        ???".toList, "    SCALE".toList, "    POINT GROUP".toList, "        AUTO".toList, "    CELL ABSOLUTE DEGREE".toList] ++
    s.cc.map (fun x => List.replicate 8 ' ' ++ raw x) ++
    ["&END".toList, [], "&ATOMS".toList] ++
    d.flatMap (fun q => cpmdSpecies fmt upper s q.1 q.2) ++
    ["&END".toList])

/-- One `&kind` of CP2K, `cif2any.py:193-201`. -/
def cp2kKind (sym : Text) : List Text :=
  [[], "        &kind ".toList ++ sym, "            basis_set XXXBASISSET_".toList ++ sym, "            potential XXXPOTENTIAL_".toList ++ sym, "        &end kind".toList]

/-- CP2K, `cif2any.py:174-207`; `bohr`, `ang`: `constants.Bohr`, `constants.Angstrom`. -/
def cp2k [Field K] (fmt : K → Text) (bohr ang : K) (s : Crystal K) : Text :=
  unlines (
    ["&force_eval".toList, "    &subsys".toList, "        &cell".toList,
     "            abc ".toList ++ row fmt ((s.cc.take 3).map fun x => x * bohr / ang),
     "            alpha_beta_gamma ".toList ++ row fmt (s.cc.drop 3),
     "        &end cell".toList, "        &coord".toList, "            scaled t".toList] ++
    indent 12 (atpos fmt s.symbols s.frac) ++
    ["        &end coord".toList] ++ (uniqs s.symbols).flatMap cp2kKind ++
    ["    &end subsys".toList, "&end force_eval".toList])

/-- PWscf, `cif2any.py:70-124`. `celldm` is `crys.cc2celldm`. -/
def pwscf [Field K] (fmt rep : K → Text) (mass : Text → Text) (celldm : List K) (bohr ang : K) (s : Crystal K) : Text :=
  let nat := ["    nat = ".toList ++ strNat s.symbols.length, "    ntyp = ".toList ++ strNat (ntypes s.symbols), "/".toList]
  unlines (
    ["celldm1 != 1 case".toList, "-----------------".toList, "&system".toList, "    ibrav = 0".toList] ++
    celldm.zipIdx.map (fun q => "    celldm(".toList ++ strNat (q.2 + 1) ++ ") = ".toList ++ rep q.1) ++ nat ++
    ["CELL_PARAMETERS alat".toList] ++ rows fmt (s.cell.map fun r => r.map fun x => x / s.cc.headD 0) ++
    [[], "celldm1 = 1 case, no celldm(1) needed".toList, "-------------------------------------".toList, "&system".toList, "    ibrav = 0".toList] ++ nat ++
    ["CELL_PARAMETERS angstrom".toList] ++ rows fmt (s.cell.map fun r => r.map fun x => x * bohr / ang) ++
    [[], "CELL_PARAMETERS bohr".toList] ++ rows fmt s.cell ++
    [[], "ATOMIC_SPECIES".toList] ++ (uniqs s.symbols).map (fun x => x ++ ['\t'] ++ mass x ++ ['\t'] ++ x ++ ".UPF".toList) ++
    ["ATOMIC_POSITIONS crystal".toList] ++ atpos fmt s.symbols s.frac)

/-- The rows of a cell. -/
def cellRows (c : Cry.Cell) : List (List ℝ) := [[c 0 0, c 0 1, c 0 2], [c 1 0, c 1 1, c 1 2], [c 2 0, c 2 1, c 2 2]]

/-- `celldm` as a list. -/
noncomputable def celldmList (cc : Cry.CrystConst) : List ℝ :=
  let d := Cry.cc2celldm cc 1
  [d.d1, d.d2, d.d3, d.d4, d.d5, d.d6]

/-- `struct`, `cif2any.py:23`: lengths of the file (Angstrom) in Bohr, `cell` from the lattice constants (`crys.py:2652-2663`). -/
noncomputable def crystal (bohr ang : ℝ) (cc : Cry.CrystConst) (symbols : List Text) (frac : List (List ℝ)) : Crystal ℝ :=
  let u := ang / bohr
  let cc' : Cry.CrystConst := ⟨cc.a * u, cc.b * u, cc.c * u, cc.alpha, cc.beta, cc.gamma⟩
  ⟨symbols, frac, [cc'.a, cc'.b, cc'.c, cc'.alpha, cc'.beta, cc'.gamma], cellRows (Cry.cc2cell cc')⟩

end Pwtools.Cif2any
