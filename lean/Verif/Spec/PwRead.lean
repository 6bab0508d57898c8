import Verif.Spec.PwHead
import Verif.Spec.ParserUnits
/-!
# Specification for C122: the output of a pw.x calculation for one structure
-/
namespace Pwtools.Spec
variable {K : Type}

/-- The first line with `Like`, and what it says. -/
def FirstLine {A : Type} (Like : Text → Prop) (Says : Text → A → Prop) (file : List Text) (x : A) : Prop :=
  ∃ A l B, file = A ++ l :: B ∧ (∀ a ∈ A, ¬ Like a) ∧ Says l x

/-- The rows below the first line with `Like`. -/
def FirstRows {A : Type} (Like : Text → Prop) (Says : Text → A → Prop) (file : List Text) (xs : List A) : Prop :=
  ∃ A hd R B, file = A ++ hd :: (R ++ B) ∧ (∀ a ∈ A, ¬ Like a) ∧ Like hd ∧ List.Forall₂ Says R xs

/-- `file` is the output for a structure with lattice parameter `alat`, cell vectors `cell` and atoms `atoms` (symbol and position), the last
two divided by `alat`; `blocks` are the energies, forces and stress tensors in it, between other text. -/
structure IsPwScf (num : Text → Option K) (alat : K) (cell : List (List K)) (atoms : List (Text × List K)) (blocks : List (Block K))
    (file : List Text) where
  out : IsPwOut num atoms.length blocks file
  alatLine : FirstLine AlatLike (AlatLine num) file alat
  cellRows : FirstRows AxesLike (Row num [4, 5, 6]) file cell
  cell3 : cell.length = 3
  atomRows : FirstRows SiteLike (HeadAtomLine num) file atoms
  atoms0 : atoms ≠ []
  atoms3 : ∀ x ∈ atoms, x.2.length = 3
  points : (∀ l ∈ file, ¬ PointsLike l) ∨ ∃ n, FirstLine PointsLike PointsLine file n
  iters : ∃ ns, Interleaved (fun l n => IterLike l ∧ (splitWs l)[5]? = some (strNat n)) (fun l => ¬ IterLike l) file ns

end Pwtools.Spec
