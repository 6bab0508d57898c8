import Verif.Model.Calc
/-!
# Specifications for C98, C99
-/
namespace Pwtools.Spec
open Pwtools.Calc

/-- The attributes are what the user gave, and the documented default for all other keys. -/
def IsSetting {V : Type} (default : Dict V) (kw : Kwds V) (attrs : Dict V) : Prop :=
  (∀ k v, (k, v) ∈ kw → attrs k = some v) ∧ ∀ k, (∀ v, (k, v) ∉ kw) → attrs k = default k

/-- A call of the constructor which is not rejected because of its keys. -/
def Allowed {V : Type} (default : Dict V) (kw : Kwds V) : Prop := ∀ e ∈ kw, default e.1 ≠ none

/-- A pseudopotential file for the species `sym`: the name is `<sym>.<anything>`. -/
def IsPseudoOf (sym file : Text) : Prop := ∃ rest, file = sym ++ '.' :: rest

/-- A template: fixed texts and replacement fields. -/
inductive Piece where
  | lit (t : Text)
  | field (key : Text)

/-- The text of a template. -/
def templText (ps : List Piece) : Text :=
  ps.flatMap fun
    | .lit t => t
    | .field k => '{' :: (k ++ ['}'])

/-- The template with the values of the fields. -/
def filledText (val : Text → Text) (ps : List Piece) : Text :=
  ps.flatMap fun
    | .lit t => t
    | .field k => val k

end Pwtools.Spec
