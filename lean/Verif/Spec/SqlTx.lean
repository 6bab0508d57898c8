import Verif.Model.SqlTx
/-!
# Specification for C173: what is in the database file
-/
namespace Pwtools.Spec
open Pwtools.SqlTx

variable {σ : Type}

/-- Calls that neither commit nor change the schema. -/
def OnlyRows : Op σ → Prop
  | .execute (.ddl _) => False
  | .execute _ => True
  | .executemany _ => True
  | _ => False

end Pwtools.Spec
