import Verif.Model.Common
/-!
# Input of WIEN2K's `sgroup` (`io.py:25-86`)
-/
namespace Pwtools.Sg
variable {K : Type}

/-- What `wien_sgroup_input` uses of a `Structure`. -/
structure SgStruct (K : Type) where
  crystConst : List K
  natoms : Nat
  symbols : List Text
  coordsFrac : List (List K)

/-- `fmt % tuple(coord) + '\n' + sym + '\n'`, `io.py:84-85`. `fmt` is `'%.16e'`; the numbers of a row are joined by blanks. Simplified: a row with another number of
entries than 3 raises in Python. -/
def atomText (fmt : K → Text) (sym : Text) (coord : List K) : Text := joinSep [' '] (coord.map fmt) ++ ['\n'] ++ sym ++ ['\n']

/-- `wien_sgroup_input(struct, lat_symbol)`, `io.py:74-86`; `zip` stops with the shorter list. -/
def sgroupInput (fmt : K → Text) (lat : Text) (s : SgStruct K) : Text :=
  "/ lattice type symbol\n".toList ++ lat ++ "\n\n".toList ++ "/ a b c alpha beta gamma\n".toList ++ joinSep [' '] (s.crystConst.map fmt) ++ "\n\n".toList ++
    "/ number of atoms\n".toList ++ strNat s.natoms ++ "\n\n".toList ++ "/ atom list (crystal cooords)\n".toList ++
    (s.symbols.zip s.coordsFrac).flatMap fun x => atomText fmt x.1 x.2

end Pwtools.Sg
