import Verif.Model.Sql
/-!
# Specification for C140: results of queries as Python values
-/
namespace Pwtools.Spec

/-- The Python value which stands for a stored value which is not a BLOB. -/
inductive PyOf {R : Type} : SqlVal R → PyV R → Prop
  | null : PyOf .null .none
  | int (i : Int) : PyOf (.int i) (.int i)
  | real (r : R) : PyOf (.real r) (.float r)
  | text (s : Text) : PyOf (.text s) (.str s)

/-- Not a BLOB. -/
def NoBlob {R : Type} (v : SqlVal R) : Prop := ∀ b, v ≠ .blob b

/-- Two names which sqlite does not distinguish. -/
def SameName (a b : Text) : Prop := a.map Char.toLower = b.map Char.toLower

end Pwtools.Spec
