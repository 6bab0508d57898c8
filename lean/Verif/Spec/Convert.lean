import Verif.Spec.Cif
import Mathlib.Data.List.Forall2
import Verif.Model.Cif
/-!
# Specification for C138: what a CIF data block says

A data block (`Cif.Block`) is the contents of a CIF file as names and values.
-/
namespace Pwtools.Spec
open Cif (Block get)

/-- The text is a CIF number with the value `x`. -/
def CifValue {R : Type} (num : Text → Option R) (t : Text) (x : R) : Prop := ∃ n, CifNumber n t ∧ num n = some x

/-- The block has these lattice constants (lengths in Angstrom, angles) and these symbols. -/
structure CifCrystal {R : Type} (num : Text → Option R) (b : Block) (cc : List R) (syms : List Text) : Prop where
  cell : List.Forall₂ (fun key x => ∃ t, get b key = some (.str t) ∧ CifValue num t x)
    ["_cell_length_a", "_cell_length_b", "_cell_length_c", "_cell_angle_alpha", "_cell_angle_beta", "_cell_angle_gamma"] cc
  symbols : ∃ ts, List.Forall₂ CifLabel syms ts ∧
    (get b "_atom_site_type_symbol" = some (.list ts) ∨ (get b "_atom_site_type_symbol" = none ∧ get b "_atom_site_label" = some (.list ts)))

/-- The block has a loop with three columns `pre ++ "x"`, … and these rows. -/
def CifPositions {R : Type} (num : Text → Option R) (b : Block) (pre : String) (rows : List (List R)) : Prop :=
  ∃ words : List (Text × Text × Text),
    get b (pre ++ "x") = some (.list (words.map fun w => w.1)) ∧ get b (pre ++ "y") = some (.list (words.map fun w => w.2.1)) ∧
    get b (pre ++ "z") = some (.list (words.map fun w => w.2.2)) ∧
    List.Forall₂ (fun w r => ∃ x y z, r = [x, y, z] ∧ CifValue num w.1 x ∧ CifValue num w.2.1 y ∧ CifValue num w.2.2 z) words rows

end Pwtools.Spec
