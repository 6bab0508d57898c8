import Verif.Model.ReplKeys
import Verif.Spec.Common
/-!
# Specification for C146
-/
namespace Pwtools.Spec

/-- The text which the documentation promises for the default placeholders, in calculation `idx` of revision `rev` on machine `m`. -/
def defaultValue {R : Type} (s : Study R) (m : Machine) (rev idx : Nat) (key : Text) : Option Text :=
  if key = "revision".toList then some (strNat rev)
  else if key = "study_name".toList then some s.studyName
  else if key = "idx".toList then some (strNat idx)
  else if key = "calc_name".toList then some (s.studyName ++ "_run".toList ++ strNat idx)
  else if key = "subcmd".toList then some (m.subcmd.getD "None".toList)
  else if key = "scratch".toList then some (m.scratch.getD "None".toList)
  else if key = "home".toList then some (m.home.getD "None".toList)
  else none

end Pwtools.Spec
