import Verif.Model.Traj
import Verif.Spec.NdArray
/-!
# Specifications for C47–C51, C53
-/
namespace Pwtools.Spec
open Pwtools.Tr

variable {β γ K : Type}

/-- A trajectory of `n` steps: `nstep` is `n`, every per-step quantity which is present has `n`
items, and at least one kind of coordinates is present. -/
def IsTraj (n : Nat) (tr : Traj β γ K) : Prop :=
  tr.nstep = some n ∧ (∀ m l, tr.per m = some l → l.length = n) ∧
  ((tr.per .coords).isSome ∨ (tr.per .coordsFrac).isSome)

/-- `st` is step `k` of the trajectory: every per-step quantity a structure can have is item `k` of
the one of the trajectory (absent if absent there), the quantities without time axis are equal. -/
def IsStep (tr : Traj β γ K) (k : Nat) (st : Struct β γ) : Prop :=
  (∀ m, m ∉ [Per.velocity, .ekin, .temperature, .time] →
    st.per m = (tr.per m).bind (fun l => l[k]?)) ∧
  (∀ m, m ∈ [Per.velocity, .ekin, .temperature, .time] → st.per m = none) ∧
  st.oth = tr.oth

/-- `tr'` consists of the steps `ks` of `tr`, in this order: the same quantities are present, and
item `j` of a per-step quantity of `tr'` is item `ks[j]` of the one of `tr`. -/
def IsSteps (tr : Traj β γ K) (ks : List Nat) (tr' : Traj β γ K) : Prop :=
  (∀ m, tr.per m = none → tr'.per m = none) ∧
  (∀ m l, tr.per m = some l → ∃ l', tr'.per m = some l' ∧ l'.length = ks.length ∧
    ∀ (j k : Nat), ks[j]? = some k → l'[j]? = l[k]?) ∧
  tr'.oth = tr.oth

/-- The integer `i` means step `k` of `n` steps: counted from the start, or from the end if
negative. -/
def IsIndex (n : Nat) (i : Int) (k : Nat) : Prop := k < n ∧ (i = k ∨ i = (k : Int) - n)

end Pwtools.Spec

namespace Pwtools.Spec
open Pwtools.Tr
variable {β γ K : Type}

/-- The items of per-step quantity `m` which an argument of `concatenate` contributes: one for a
structure, all for a trajectory; `none` if the quantity is absent. -/
def part (m : Per) : Obj β γ K → Option (List β)
  | .traj tr => tr.per m
  | .struct st => (st.per m).map (fun v => [v])

/-- The argument is a structure or trajectory of `n` steps. -/
def HasSteps (n : Nat) : Obj β γ K → Prop
  | .traj tr => IsTraj n tr
  | .struct st => n = 1 ∧ ((st.per .coords).isSome ∨ (st.per .coordsFrac).isSome) ∧
      ∀ m, m ∈ [Per.velocity, .ekin, .temperature, .time] → st.per m = none

/-- The quantity without time axis of an argument. -/
def othOf (m : Oth) : Obj β γ K → Option γ
  | .traj tr => tr.oth m
  | .struct st => st.oth m

/-- The same per-step quantities (`time` aside) are present in both. -/
def SameKinds (a b : Obj β γ K) : Prop :=
  ∀ m, m ≠ Per.time → ((part m a).isSome ↔ (part m b).isSome)

/-- `v` is the average of the (non-empty) list: `n` times `v` is the sum. -/
def IsAverage [Semiring K] [AddCommMonoid β] [Module K β] (l : List β) (v : β) : Prop :=
  l ≠ [] ∧ (l.length : K) • v = l.sum

/-- The factor by which a unit handler has to scale an attribute. -/
def unitFactor [One K] (units : Qty → K) : UAttr → K
  | .cell | .coords | .abc => units .length
  | .etot | .ekin => units .energy
  | .stress => units .stress
  | .forces => units .forces
  | .temperature => units .temperature
  | .velocity => units .velocity
  | .timestep => units .time
  | .other _ => 1

/-- `row'` is the row `a, b, c, alpha, beta, gamma` with scaled lengths. -/
def ScaledRow [Mul K] (fac : K) (row row' : List K) : Prop :=
  row'.length = row.length ∧
  ∀ (i : Nat) (x : K), row[i]? = some x → row'[i]? = some (if i < 3 then x * fac else x)

/-- Scaled crystal constants, one row or one row per step. -/
def ScaledCC [Mul K] (fac : K) : CC K → CC K → Prop
  | .one row, .one row' => ScaledRow fac row row'
  | .many rows, .many rows' => List.Forall₂ (ScaledRow fac) rows rows'
  | _, _ => False

end Pwtools.Spec

namespace Pwtools.Spec
open Pwtools.Tr

/-- The calls which only change the table of factors. -/
def OnlyUpdates {K V : Type} (cs : List (UCall K V)) : Prop := ∀ c ∈ cs, ∃ u, c = .update u

/-- A call which is supposed to apply the units. -/
def Applies {K V : Type} (c : UCall K V) : Prop := c = .apply ∨ ∃ g, c = .setAll g

/-- The factors in use after some updates: later ones win. -/
def unitsAfter {K V : Type} (units : Qty → K) : List (UCall K V) → Qty → K
  | [] => units
  | .update u :: cs => unitsAfter (fun q => (u q).getD (units q)) cs
  | _ :: cs => unitsAfter units cs

/-- Every quantity which `o` has is in `o'` scaled once by its unit factor. -/
def ScaledOnce {K V : Type} [Mul K] [One K] [SMul K V] (units : Qty → K)
    (attr : UAttr → Option V) (cc : Option (CC K)) (o' : UObj K V) : Prop :=
  (∀ a v, attr a = some v → o'.attr a = some (unitFactor units a • v)) ∧
  (∀ c, cc = some c → ∃ c', o'.cc = some c' ∧ ScaledCC (units .length) c c')

end Pwtools.Spec
