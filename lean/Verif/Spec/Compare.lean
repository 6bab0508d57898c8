import Verif.Model.Compare
import Verif.Spec.NdArray
/-!
# Specification for C148
-/
namespace Pwtools.Spec
open Compare

variable {R : Type}

/-- No key occurs twice in a dict, also in the dicts in it. -/
inductive KeysOnce : Val R → Prop
  | leaf (v : Val R) : ty v ≠ .dictT → KeysOnce v
  | dict (l : List (Text × Val R)) : (l.map Prod.fst).Nodup → (∀ k v, (k, v) ∈ l → KeysOnce v) → KeysOnce (.dict l)

/-- Two nested values have the same form: the same keys at every level, and at each place that is no
dict in the first one the values are related by `P`. -/
inductive SameTree (P : Val R → Val R → Prop) : Val R → Val R → Prop
  | leaf (v w : Val R) : ty v ≠ .dictT → P v w → SameTree P v w
  | dict (l1 l2 : List (Text × Val R)) : (∀ k, k ∈ l1.map Prod.fst ↔ k ∈ l2.map Prod.fst) →
      (∀ k v w, (k, v) ∈ l1 → (k, w) ∈ l2 → SameTree P v w) → SameTree P (.dict l1) (.dict l2)

/-- `a` and `b` stand at the same place in two nested values. -/
inductive Paired : Val R → Val R → Val R → Val R → Prop
  | here (v w : Val R) : Paired v w v w
  | item (l1 l2 : List (Text × Val R)) (k : Text) (v w a b : Val R) : (k, v) ∈ l1 → (k, w) ∈ l2 → Paired v w a b →
      Paired (.dict l1) (.dict l2) a b

/-- The number that a value is. -/
def numberOf [IntCast R] : Val R → Option R
  | .int n => some (n : R)
  | .float x => some x
  | _ => none

/-- Equal values which are no dicts: `None`, the same text, the same number (of type int or float),
arrays with the same data type, shape and elements. -/
def EqLeaf [IntCast R] (v w : Val R) : Prop :=
  (v = .none ∧ w = .none) ∨ (∃ s, v = .str s ∧ w = .str s) ∨ (∃ x, numberOf v = some x ∧ numberOf w = some x) ∨
  ∃ dt a b, v = .arr dt a ∧ w = .arr dt b ∧ a.shape = b.shape ∧ ∀ idx, InShape idx a.shape → a.get idx = b.get idx

/-- `x` differs from `y` by at most the tolerance. -/
def Within [Field R] [LinearOrder R] (t : Tol R) (x y : R) : Prop := |x - y| ≤ t.atol + t.rtol * |y|

/-- Like `EqLeaf` with tolerance for all numbers. -/
def CloseLeaf [Field R] [LinearOrder R] (t : Tol R) (v w : Val R) : Prop :=
  (v = .none ∧ w = .none) ∨ (∃ s, v = .str s ∧ w = .str s) ∨
  (∃ x y, numberOf v = some x ∧ numberOf w = some y ∧ Within t x y) ∨
  ∃ dt a b, v = .arr dt a ∧ w = .arr dt b ∧ a.shape = b.shape ∧
    ∀ idx, InShape idx a.shape → Within t (a.get idx) (b.get idx)

/-- Where the second value has an array, the first one has an array of the same shape. -/
def ShapesFit (v w : Val R) : Prop :=
  ∀ a dt b, Paired v w a (.arr dt b) → ∃ dt' a', a = .arr dt' a' ∧ a'.shape = b.shape

end Pwtools.Spec
