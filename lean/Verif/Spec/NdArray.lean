import Verif.Model.NdArray
/-!
# Specifications for C23, C24, C25
-/
namespace Pwtools.Spec

/-- The positions selected by a Python slice from a sequence of length `n`, in the order in which
they are returned (Python reference: items `start, start+step, …` before `stop`; negative bounds
count from the end; a start outside the sequence is moved to its border). -/
def selected (n : Nat) (start stop step : Option Int) : List Nat :=
  let k := step.getD 1
  let fromEnd (x : Int) : Int := if x < 0 then x + n else x
  if 0 < k then
    let a := max 0 ((start.map fromEnd).getD 0)
    let b := (stop.map fromEnd).getD n
    (List.range n).filter (fun (i : Nat) => decide (a ≤ (i : Int) ∧ (i : Int) < b ∧ k ∣ (i : Int) - a))
  else
    let a := min ((n : Int) - 1) ((start.map fromEnd).getD ((n : Int) - 1))
    let b := (stop.map fromEnd).getD (-1)
    (List.range n).reverse.filter
      (fun (i : Nat) => decide ((i : Int) ≤ a ∧ b < (i : Int) ∧ k ∣ a - (i : Int)))

/-- An index tuple inside a shape. -/
def InShape (idx shape : List Nat) : Prop := List.Forall₂ (· < ·) idx shape

/-- The integer `axis` means position `ax` of `n` axes: counted from the start, or from the end
if negative. -/
def IsAxis (n : Nat) (axis : Int) (ax : Nat) : Prop := ax < n ∧ (axis = ax ∨ axis = (ax : Int) - n)

/-- A list without the entries at the positions in `S`. -/
def removeAt {β : Type} (S : List Nat) (l : List β) : List β :=
  (l.zipIdx.filter (fun p => decide (p.2 ∉ S))).map Prod.fst

/-- All index tuples of a shape. -/
def indexTuples : List Nat → List (List Nat)
  | [] => [[]]
  | n :: shape => (List.range n).flatMap (fun i => (indexTuples shape).map (i :: ·))

/-- `b` is `a` summed over exactly the axes in `S`: the other axes stay, and each value is the sum
of all values of `a` at index tuples which agree on the other axes. -/
def IsSumOver {α : Type} [AddCommMonoid α] (S : List Nat) (a b : Nd.Arr α) : Prop :=
  b.shape = removeAt S a.shape ∧
  ∀ idx, InShape idx b.shape →
    b.get idx = (((indexTuples a.shape).filter (fun J => decide (removeAt S J = idx))).map a.get).sum

end Pwtools.Spec
