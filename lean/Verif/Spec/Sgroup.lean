import Verif.Spec.PwHead
/-!
# Specification for C124: how `sgroup` reads its input

From sgroup's README (quoted in `io.py:39-70`): `/` begins a comment, which goes to the end of the line; blank lines are allowed; then the lattice symbol, six
parameters of the cell, the number of atoms and for each atom three coordinates and a name.
-/
namespace Pwtools.Spec

/-- The text without comments; `inC`: inside a comment. -/
def sgNoComment : Bool → Text → Text
  | _, [] => []
  | inC, c :: t => if c = '\n' then '\n' :: sgNoComment false t else if inC || c = '/' then sgNoComment true t else c :: sgNoComment false t

/-- An atom: three coordinates and a name; `n` of them, and nothing else. -/
def sgAtoms {K : Type} (num : Text → Option K) : Nat → List Text → Option (List (Text × List K))
  | 0, ws => if ws = [] then some [] else none
  | n + 1, x :: y :: z :: name :: ws => do
    let x ← num x
    let y ← num y
    let z ← num z
    let rest ← sgAtoms num n ws
    return (name, [x, y, z]) :: rest
  | _ + 1, _ => none

/-- The contents of an input file: lattice symbol, cell, atoms. -/
def sgRead {K : Type} (num : Text → Option K) (txt : Text) : Option (Text × List K × List (Text × List K)) :=
  match splitWs (sgNoComment false txt) with
  | lat :: a :: b :: c :: al :: be :: ga :: n :: ws => do
    let cell ← [a, b, c, al, be, ga].mapM num
    let n ← parseInt n
    let atoms ← sgAtoms num n.toNat ws
    return (lat, cell, atoms)
  | _ => none

/-- A word which is no comment. -/
def SgWord (w : Text) : Prop := WordText w ∧ '/' ∉ w

end Pwtools.Spec
