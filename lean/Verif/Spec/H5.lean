import Verif.Model.Common
/-!
# Specification of HDF5 names
-/
namespace Pwtools.Spec

/-- The path of a dataset: at least one component, no empty ones, no slash in them. -/
def IsPath (p : List Text) : Prop := p ≠ [] ∧ ∀ c ∈ p, c ≠ [] ∧ '/' ∉ c

/-- `/a/b/c`. -/
def fullName (p : List Text) : Text := '/' :: joinSep ['/'] p

/-- A dict key names a path, with or without leading slash. -/
def Names (key : Text) (p : List Text) : Prop := IsPath p ∧ (key = fullName p ∨ key = joinSep ['/'] p)

end Pwtools.Spec
