import Verif.Spec.PwMd
/-!
# Specification for C132: the output of a variable cell MD of pw.x
-/
namespace Pwtools.Spec
variable {K : Type}

/-- What is printed about a step: `Ekin = <e> Ry  T = <t> K  Etot = <x>`. -/
structure VcRow (K : Type) where
  ekin : K
  temp : K
  econst : K

/-- Rows `xs` of this kind, in order, between other lines. -/
def VcRows (num : Text → Option K) (file : List Text) (xs : List (VcRow K)) : Prop :=
  Interleaved (fun l x => EkinLike l ∧ Row num [3, 7, 11] l [x.ekin, x.temp, x.econst]) (fun l => ¬ EkinLike l) file xs

/-- Such a row for each structure, in its part of the file, and none before them. -/
def VcAligned (num : Text → Option K) (na : Nat) (start : List (Block K)) (steps : List (PwStep K)) (file : List Text) (h : IsPwOut num na (start ++ steps.flatMap PwStep.blocks) file)
    (xs : List (VcRow K)) : Prop :=
  VcRows num (h.pre ++ h.natLine :: start.flatMap Block.lines) [] ∧
    List.Forall₂ (fun s x => VcRows num (s.blocks.flatMap Block.lines) [x]) steps xs

end Pwtools.Spec
