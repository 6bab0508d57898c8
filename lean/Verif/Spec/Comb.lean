import Verif.Model.Comb
/-!
# Specifications for C01, C02, C06, C07 (independent of the algorithms)
-/
namespace Pwtools.Spec

/-- `tup` consists of the `idxs[j]`-th item of the `j`-th list, for every `j`. -/
inductive Picks {α : Type} : List (List α) → List Nat → List α → Prop where
  | nil : Picks [] [] []
  | cons {l ls i is a as} : l[i]? = some a → Picks ls is as → Picks (l :: ls) (i :: is) (a :: as)

/-- Position of the counter reading `idxs` of an odometer whose `j`-th wheel has
`lens[j]` positions, the last wheel turning fastest. -/
def odometer : List Nat → List Nat → Nat
  | _ :: ns, i :: is => i * ns.prod + odometer ns is
  | _, _ => 0

/-- `path` leads from the list of items `t` to the leaf `a`: the numbers are the
positions to take, outermost first. -/
inductive LeafAt {α : Type} : List (Tree α) → List Nat → α → Prop where
  | leaf {items i a} : items[i]? = some (.leaf a) → LeafAt items [i] a
  | node {items i sub p a} : items[i]? = some (.node sub) → LeafAt sub p a → LeafAt items (i :: p) a

/-- Strict reading order of paths (dictionary order). -/
inductive Before : List Nat → List Nat → Prop where
  | head {i j p q} : i < j → Before (i :: p) (j :: q)
  | tail {i p q} : Before p q → Before (i :: p) (i :: q)

/-- `out` are the different entries of `rows`, ordered by first occurrence. -/
def UniqInOrder {α : Type} [DecidableEq α] (rows out : List (List α)) : Prop :=
  (∀ r, r ∈ out ↔ r ∈ rows) ∧ out.Pairwise (fun a b => rows.idxOf a < rows.idxOf b)

end Pwtools.Spec
