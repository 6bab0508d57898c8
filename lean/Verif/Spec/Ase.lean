import Verif.Spec.Derived
/-!
# Specification for C139: conversion to ASE and back
-/
namespace Pwtools.Spec
open Cry Drv

/-- Two structures are the same crystal: same atoms, same cell, same positions, and what is computed from them. -/
structure SameCrystal (s t : St) : Prop where
  symbols : t.symbols = s.symbols
  natoms : t.natoms = s.natoms
  cell : t.cell = s.cell
  cc : t.cc = s.cc
  coords : t.coords = s.coords
  coordsFrac : t.coordsFrac = s.coordsFrac
  volume : t.volume = s.volume

/-- `w` is `f`, moved into the cell by lattice vectors, in the periodic directions. -/
def Wrapped (pbc : Fin 3 → Bool) (f w : V3) : Prop :=
  ∀ k, (pbc k = true → 0 ≤ w k ∧ w k < 1 ∧ ∃ n : ℤ, f k = w k + n) ∧ (pbc k = false → w k = f k)

end Pwtools.Spec
