import Verif.Model.CutDir
/-!
# Specification for C150
-/
namespace Pwtools.Spec
open Pwtools.Cut

/-- Every file which existed has its content under its own name or as a backup copy. -/
def OriginalsKept {F : Type} (before after : Dir F) : Prop :=
  ∀ f c, before f .main = some c → after f .main = some c ∨ after f .bak = some c

/-- No file is missing. -/
def NoneMissing {F : Type} (before after : Dir F) : Prop := ∀ f, before f .main ≠ none → after f .main ≠ none

end Pwtools.Spec
