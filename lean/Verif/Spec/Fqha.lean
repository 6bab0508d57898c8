import Verif.Model.Common
import Verif.Spec.Cif2any
import Mathlib.Data.List.Defs
/-!
# Specification for C142: the phonon DOS file which `F_QHA.f90` reads, as `bin/matdyn2fqha.py` describes it
-/
namespace Pwtools.Spec

/-- The program reads the number of atoms from the first line, four numbers from the second one, and then as many lines as the second line says, each with a frequency and a density; further columns
and lines are ignored. -/
def FqhaReads {K : Type} (num : Text → Option K) (txt : Text) (natom : Int) (nstep : Nat) (emax de : K) (rows : List (K × K)) : Prop :=
  ∃ l1 l2 ls rest a b c d, linesOf txt = l1 :: l2 :: (ls ++ rest) ∧ splitWs l1 = [a] ∧ splitWs l2 = [a, b, c, d] ∧ parseInt a = some natom ∧ parseInt b = some (nstep : Int) ∧
    num c = some emax ∧ num d = some de ∧ ls.length = nstep ∧
    List.Forall₂ (fun l r => ∃ x y t, splitWs l = x :: y :: t ∧ num x = some r.1 ∧ num y = some r.2) ls rows

end Pwtools.Spec
