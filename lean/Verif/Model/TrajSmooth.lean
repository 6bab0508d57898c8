import Verif.Model.Signal
import Verif.Model.Traj
import Mathlib.Data.List.FinRange
/-!
# Model of `crys.smooth` (`src/pwtools/crys.py:3145-3227`)
-/
namespace Pwtools.Tr
open Pwtools.Sig

variable {K : Type} [Field K] [DecidableEq K]

/-- The array of a per-step attribute: the list along the time axis of numbers, of rows, of tables; `other` for another
number of dimensions. -/
inductive Att (K : Type) where
  | d1 (a : List K)
  | d2 (m : Nat) (a : List (Fin m → K))
  | d3 (n m : Nat) (a : List (Fin n → Fin m → K))
  | other

/-- `np.empty_like(attr)` (`crys.py:3198, 3202`): an array of the same shape with unknown entries. -/
structure Mem (K : Type) where
  like2 : ∀ m, List (Fin m → K) → List (Fin m → K)
  like3 : ∀ n m, List (Fin n → Fin m → K) → List (Fin n → Fin m → K)
  len2 : ∀ m a, (like2 m a).length = a.length
  len3 : ∀ n m a, (like3 n m a).length = a.length

/-- `for jj in range(attr.shape[1]): tmp[:,jj] = signal.smooth(attr[:,jj], kern)`, `crys.py:3199-3200`. The assigned column has
the length of `tmp` (asserted by `signal.smooth`). `none`: an exception. -/
def cols2 {m : Nat} (kern : List K) (a : List (Fin m → K)) : List (Fin m) → List (Fin m → K) → Option (List (Fin m → K))
  | [], tmp => some tmp
  | jj :: r, tmp =>
    match smooth (a.map (fun row => row jj)) kern "m" true with
    | none => none
    | some col => cols2 kern a r (List.zipWith (fun row v => Function.update row jj v) tmp col)

/-- The two nested loops `crys.py:3203-3205`, over the pairs `(jj, kk)` in this order. -/
def cols3 {n m : Nat} (kern : List K) (a : List (Fin n → Fin m → K)) :
    List (Fin n × Fin m) → List (Fin n → Fin m → K) → Option (List (Fin n → Fin m → K))
  | [], tmp => some tmp
  | (jj, kk) :: r, tmp =>
    match smooth (a.map (fun row => row jj kk)) kern "m" true with
    | none => none
    | some col =>
      cols3 kern a r (List.zipWith (fun row v => Function.update row jj (Function.update (row jj) kk v)) tmp col)

/-- The body of the loop over the attributes, `crys.py:3190-3220`. The kernel of `method=2` is `kern` with axes of length 1
added, the convolution then acts on the time axis only. `none`: an exception. -/
def smoothAtt (mem : Mem K) (method : Nat) (kern : List K) : Att K → Option (Att K)
  | .d1 a =>
    if method = 1 then (smooth a kern "m" true).map .d1
    else if method = 2 then (smooth a kern "m" true).map .d1
    else none
  | .d2 m a =>
    if method = 1 then (cols2 kern a (List.finRange m) (mem.like2 m a)).map (.d2 m)
    else if method = 2 then (smooth a kern "m" true).map (.d2 m)
    else none
  | .d3 n m a =>
    if method = 1 then
      (cols3 kern a ((List.finRange n).flatMap (fun jj => (List.finRange m).map (fun kk => (jj, kk))))
        (mem.like3 n m a)).map (.d3 n m)
    else if method = 2 then (smooth a kern "m" true).map (.d3 n m)
    else none
  | .other => none

/-- A `Trajectory` with its arrays. Simplification: no `units` fields. -/
structure ATraj (γ K : Type) where
  per : Per → Option (Att K)
  oth : Oth → Option γ
  nstep : Option Nat
  timestep : Option K

/-- The loop over `attrs_nstep`, `crys.py:3187-3220`. -/
def smoothLoop {γ : Type} (mem : Mem K) (method : Nat) (kern : List K) (tr : ATraj γ K) :
    List Per → (Per → Option (Att K)) → Option (Per → Option (Att K))
  | [], f => some f
  | name :: names, f =>
    match tr.per name with
    | none => smoothLoop mem method kern tr names f
    | some a =>
      match smoothAtt mem method kern a with
      | none => none
      | some b => smoothLoop mem method kern tr names (put f name (some b))

/-- `crys.smooth(traj, kern, method)`, `crys.py:3145-3227`, for a `Trajectory` (`timeaxis` is 0) and a 1d kernel. -/
def crysSmooth {γ : Type} (mem : Mem K) (tr : ATraj γ K) (kern : List K) (method : Nat) : Option (ATraj γ K) :=
  match smoothLoop mem method kern tr perNames (fun _ => none) with
  | none => none
  | some per => some { per := per, oth := tr.oth, nstep := tr.nstep, timestep := tr.timestep }

end Pwtools.Tr
