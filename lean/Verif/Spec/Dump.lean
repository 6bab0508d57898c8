import Verif.Model.Dump
/-!
# Specification for C176: `pickle`, and what is on disk
-/
namespace Pwtools.Spec
open Pwtools.Dump

variable {V : Type}

/-- What is used of `pickle`: objects are restored, bytes after the end are ignored, incomplete data is an error
(the format ends with a stop code), and so is an empty file. -/
structure IsPickle (dumps : Obj V → Option (List Nat)) (loads : List Nat → Option (Obj V)) : Prop where
  restore : ∀ o b t, dumps o = some b → loads (b ++ t) = some o
  empty : loads [] = none
  incomplete : ∀ o b t, dumps o = some b → t <+: b → t ≠ b → loads t = none

/-- The last object dumped to `p`, or what there was before. -/
def lastDump (p : List String) : Option (Obj V) → List (Obj V × List String × Bool) → Option (Obj V)
  | r, [] => r
  | r, (o, q, _) :: h => lastDump p (if q = p then some o else r) h

/-- No file where a directory is needed, no directory where the file goes. -/
def WayFree (s : Disk) (p : List String) : Prop :=
  p ≠ [] ∧ s.dir p = false ∧ ∀ d, d <+: p → d ≠ p → s.file d = none

end Pwtools.Spec
