import Verif.Model.GettersLife
import Verif.Spec.Getters
import Verif.Spec.NdArray
/-!
# Specification for C144
-/
namespace Pwtools.Spec
open GL
variable {N V : Type}

/-- The call does not reset an attribute which was given from the beginning. -/
def KeepsGiven (init : N → Option V) : Op N → Prop
  | .init l => ∀ a ∈ l, init a = none
  | _ => True

/-- The attributes a call asks for. -/
def asked : Op N → List N
  | .set l => l
  | .check l => l
  | .get a => [a]
  | .assertSet l => l
  | _ => []

/-- All attributes of the list have a value. -/
def AllHave (G : N → Prog N V) (init : N → Option V) (l : List N) : Prop := ∀ a ∈ l, ∃ v, Val G init a (some v)

/-- What the calls which run getters have to return. `is_set_attr_lst` and `assert_attr_lst` do not run getters; they may say True only if there are values. -/
def RightAnswer (G : N → Prog N V) (init : N → Option V) : Op N → Res V → Prop
  | .set _, r => r = .nothing
  | .check l, r => ∃ b, r = .bool b ∧ (b = true ↔ AllHave G init l)
  | .get a, r => ∃ v, r = .value v ∧ Val G init a v
  | .isSet l, r => ∃ b, r = .bool b ∧ (b = true → AllHave G init l)
  | .assertAttrs l, r => r = .assertion ∨ r = .nothing ∧ AllHave G init l
  | .assertSet l, r => (r = .nothing ∧ AllHave G init l) ∨ (r = .assertion ∧ ¬ AllHave G init l)
  | .init _, r => r = .nothing

/-- The same array: the same shape and values. -/
def SameArr {α : Type} (a b : Nd.Arr α) : Prop := a.shape = b.shape ∧ ∀ idx, InShape idx a.shape → a.get idx = b.get idx

end Pwtools.Spec
