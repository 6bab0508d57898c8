import Verif.Model.Common
/-!
# Specifications for C03, C04
-/
namespace Pwtools.Spec

/-- `out` is `txt` with all rules applied simultaneously: reading left to right, where a key
stands its value is written and reading goes on behind the key, where no key stands the
character is copied. -/
inductive Subst (rules : List (Text × Text)) : Text → Text → Prop where
  | nil : Subst rules [] []
  | hit {k v rest out} : (k, v) ∈ rules → Subst rules rest out → Subst rules (k ++ rest) (v ++ out)
  | miss {c cs out} : (∀ k v, (k, v) ∈ rules → ¬ k <+: (c :: cs)) → Subst rules cs out →
      Subst rules (c :: cs) (c :: out)

/-- `k` stands in `txt` at position `i`. -/
def OccursAt (k txt : Text) (i : Nat) : Prop := k <+: txt.drop i

/-- Two texts can share at least one character position in some common text. -/
def CanOverlap (a b : Text) : Prop :=
  ∃ (w : Text) (i j : Nat), OccursAt a w i ∧ OccursAt b w j ∧ i < j + b.length ∧ j < i + a.length

/-- A set of replacement rules that is unambiguous for a text: non-empty keys and values,
different keys, no value can overlap any key, and occurrences of different keys in the text
do not overlap each other. -/
structure Unambiguous (rules : List (Text × Text)) (txt : Text) : Prop where
  keyNe : ∀ k v, (k, v) ∈ rules → k ≠ []
  valNe : ∀ k v, (k, v) ∈ rules → v ≠ []
  nodup : (rules.map Prod.fst).Nodup
  noVal : ∀ k v k' v', (k, v) ∈ rules → (k', v') ∈ rules → ¬ CanOverlap k v'
  noKey : ∀ k v k' v' i j, (k, v) ∈ rules → (k', v') ∈ rules → k ≠ k' →
      OccursAt k txt i → OccursAt k' txt j → i + k.length ≤ j ∨ j + k'.length ≤ i

/-- One step of a history around a file `src`: somebody writes or removes a path, or `src`
is backed up. -/
inductive FOp (C : Type) where
  | write (name : Text) (n : FNode C)
  | remove (name : Text)
  | backup

/-- The versions of `src` which were backed up in a history, oldest first; `cur` is what
`src` holds now. -/
def versions {C : Type} (src : Text) (cur : Option (FNode C)) : List (FOp C) → List (FNode C)
  | [] => []
  | .write n x :: ops => versions src (if n = src then some x else cur) ops
  | .remove n :: ops => versions src (if n = src then none else cur) ops
  | .backup :: ops => match cur with
    | none => versions src cur ops
    | some .special => versions src cur ops
    | some x => x :: versions src cur ops

/-- The code points of Python's white space: tab, line feed, vertical tab, form feed, carriage return, four separators, blank, next line,
no-break space, ogham space, en quad to hair space, line and paragraph separator, two narrow spaces, ideographic space. -/
def pySpaceCodes : List Nat := [9, 10, 11, 12, 13, 28, 29, 30, 31, 32, 133, 160, 5760, 8192, 8193, 8194, 8195, 8196, 8197, 8198, 8199, 8200, 8201, 8202,
  8232, 8233, 8239, 8287, 12288]

end Pwtools.Spec
