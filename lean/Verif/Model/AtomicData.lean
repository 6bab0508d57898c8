/-!
# Model of `atomic_data.py`: the periodic table
-/
namespace Pwtools.Atomic

/-- `symbols`, `src/pwtools/atomic_data.py:40-159`. -/
def symbols : List String :=
  ["Xx", "H", "He", "Li", "Be", "B", "C", "N", "O", "F", "Ne", "Na", "Mg", "Al", "Si", "P", "S",
   "Cl", "Ar", "K", "Ca", "Sc", "Ti", "V", "Cr", "Mn", "Fe", "Co", "Ni", "Cu", "Zn", "Ga", "Ge",
   "As", "Se", "Br", "Kr", "Rb", "Sr", "Y", "Zr", "Nb", "Mo", "Tc", "Ru", "Rh", "Pd", "Ag", "Cd",
   "In", "Sn", "Sb", "Te", "I", "Xe", "Cs", "Ba", "La", "Ce", "Pr", "Nd", "Pm", "Sm", "Eu", "Gd",
   "Tb", "Dy", "Ho", "Er", "Tm", "Yb", "Lu", "Hf", "Ta", "W", "Re", "Os", "Ir", "Pt", "Au", "Hg",
   "Tl", "Pb", "Bi", "Po", "At", "Rn", "Fr", "Ra", "Ac", "Th", "Pa", "U", "Np", "Pu", "Am", "Cm",
   "Bk", "Cf", "Es", "Fm", "Md", "No", "Lr", "Rf", "Db", "Sg", "Bh", "Hs", "Mt", "Ds", "Rg",
   "Uub", "Uut", "Uuq", "Uup", "Uuh", "Uuo"]

/-- The loop over `enumerate(symbols)` which fills the dictionary `numbers`
(`atomic_data.py:408-416`): a later entry replaces an earlier one with the same key. -/
def fill : Nat → List String → (String → Option Nat) → String → Option Nat
  | _, [], d => d
  | num, sym :: rest, d => fill (num + 1) rest (fun s => if s = sym then some num else d s)

/-- `numbers`, `atomic_data.py:408-416`. `pt[sym]['number']` is the same number. -/
def numbers : String → Option Nat := fill 0 symbols (fun _ => none)

/-- Number of entries of `masses` and of `covalent_radii`, `atomic_data.py:161-406`. -/
def nmasses : Nat := 118

end Pwtools.Atomic
