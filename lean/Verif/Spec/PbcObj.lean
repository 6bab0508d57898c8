import Verif.Model.PbcObj
import Verif.Spec.Derived
/-!
# Specification for C128: structures and trajectories which may share memory
-/
namespace Pwtools.Spec
open Pwtools.Cry Pwtools.PbcObj

/-- What the user sees when they look at an array: a list of steps. -/
def seen (w : World) (a : Option (List Nat)) : Option (List (List V3)) := a.map (·.map w.mem)

/-- Step by step and atom by atom, `coords` is `coords_frac` times `cell`. -/
def StepsFit (cs : List Cell) (f r : List (List V3)) : Prop :=
  cs.length = f.length ∧ f.length = r.length ∧
  ∀ (i : Nat) c fi ri, cs[i]? = some c → f[i]? = some fi → r[i]? = some ri → List.Forall₂ (fun f r => CartOf c f r) fi ri

/-- The arrays of an object fit together. -/
def ObFits (w : World) (o : Ob) : Prop :=
  ∀ cs r f, o.cell = some cs → seen w o.coords = some r → seen w o.frac = some f → StepsFit cs f r

/-- What a constructor gets makes sense: cells are invertible, redundant arrays fit. -/
def GoodNew (cell : Option (List Cell)) (coords frac : Option (List (List V3))) : Prop :=
  ∀ cs, cell = some cs → (∀ c ∈ cs, c.det ≠ 0) ∧ ∀ r f, coords = some r → frac = some f → StepsFit cs f r

/-- A history in which constructors get what makes sense. -/
def GoodOps (ops : List Op) : Prop := ∀ op ∈ ops, ∀ c r f, op = .new c r f → GoodNew c r f

/-- A history without `pbc_wrap(copy=False)`. -/
def NoInPlace (ops : List Op) : Prop := ∀ op ∈ ops, ∀ i m, op ≠ .wrap i false m

/-- `f'` is `f`, wrapped into the cell in the directions of `mask`. -/
def WrappedRow (mask : Fin 3 → Bool) (f' f : V3) : Prop :=
  ∀ k, (mask k = true → 0 ≤ f' k ∧ f' k < 1 ∧ ∃ n : Int, f' k = f k + n) ∧ (mask k = false → f' k = f k)

/-- No other object uses the memory of `coords_frac` of object `i`. -/
def Unshared (w : World) (i : Nat) : Prop :=
  ∀ o f, w.objs[i]? = some o → o.frac = some f → ∀ a ∈ f, ∀ j p g, j ≠ i → w.objs[j]? = some p → p.frac = some g → a ∉ g

end Pwtools.Spec
