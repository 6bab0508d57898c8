import Mathlib.Algebra.Module.Basic
import Mathlib.Algebra.BigOperators.Group.List.Basic
import Mathlib.Algebra.Field.Basic
import Mathlib.Data.Rat.Defs
import Verif.Model.NdArray
/-!
# Model of `crys.Structure` / `crys.Trajectory` (`src/pwtools/crys.py`)

Containers, unit handling, indexing, iteration, concatenation, mean, mix, species bookkeeping.
-/
namespace Pwtools.Tr
open Pwtools.Nd

/-! ## Attributes -/

/-- The attributes with a time axis, `attrs_nstep` (`crys.py:2371-2400`, table in the docstring
`crys.py:2900-2916`). -/
inductive Per where
  | coords | coordsFrac | stress | forces | velocity | cell | crystConst
  | pressure | volume | etot | ekin | temperature | time
  deriving DecidableEq, Repr

/-- All of `attrs_nstep`. -/
def perNames : List Per :=
  [.coords, .coordsFrac, .stress, .forces, .velocity, .cell, .crystConst,
   .pressure, .volume, .etot, .ekin, .temperature, .time]

/-- Membership in `attrs_only_traj` (`crys.py:2390-2397`); its other members `nstep` and `timestep`
are fields of `Traj`. -/
def onlyTraj : Per → Bool
  | .velocity | .ekin | .temperature | .time => true
  | _ => false

/-- The attributes without a time axis: `attr_lst` without `attrs_nstep`, `nstep`, `timestep`. -/
inductive Oth where
  | symbols | mass | massUnique | natoms | nspecies | ntypat | order | symbolsUnique | typat
  | znucl | znuclUnique
  deriving DecidableEq, Repr

/-- What goes wrong. -/
inductive Err where
  | indexError | valueError | assertion | typeError | keyError
  deriving DecidableEq, Repr

/-- A `Structure`: attribute values, `none` is Python `None`. Simplification: values are opaque
(`β` a quantity at one time step, `γ` everything else). -/
structure Struct (β γ : Type) where
  per : Per → Option β
  oth : Oth → Option γ

/-- A `Trajectory`. A per-step attribute is the list of its items along the time axis (axis 0).
`index` is `self._index`. Simplification: the `units` and `units_applied` fields are in `UObj`. -/
structure Traj (β γ K : Type) where
  per : Per → Option (List β)
  oth : Oth → Option γ
  nstep : Option Nat
  timestep : Option K
  index : Int := -1

variable {β γ K : Type}

/-- `setattr(obj, name, v)` for a per-step attribute. -/
def put {σ : Type} (f : Per → Option σ) (name : Per) (v : Option σ) : Per → Option σ :=
  fun m => if m = name then v else f m

/-- `get_nstep`, `crys.py:2706-2714`. -/
def getNstep (per : Per → Option (List β)) : Option Nat :=
  match per .coords with
  | some l => some l.length
  | none =>
    match per .coordsFrac with
    | some l => some l.length
    | none => none

/-! ## Indexing -/

/-- The value assigned to one attribute in `__getitem__` with an integer (`crys.py:2951-2967`):
only attributes whose length along the time axis equals `self.nstep` are indexed, others are left
at `None`. -/
def intItem (nstep : Option Nat) (i : Int) : Option (List β) → Except Err (Option β)
  | none => .ok none
  | some l =>
    if some l.length = nstep then
      match pyIndex l.length i with
      | none => .error .indexError
      | some k => .ok l[k]?
    else .ok none

/-- The loop over `attr_lst` of `__getitem__` with an integer, per-step attributes. -/
def intLoop (tr : Traj β γ K) (i : Int) : List Per → (Per → Option β) → Except Err (Per → Option β)
  | [], f => .ok f
  | name :: names, f =>
    if onlyTraj name then intLoop tr i names f
    else
      match intItem tr.nstep i (tr.per name) with
      | .error e => .error e
      | .ok v => intLoop tr i names (put f name v)

/-- `traj[i]` for an integer `i`, `crys.py:2938-2974`. -/
def getInt (tr : Traj β γ K) (i : Int) : Except Err (Struct β γ) :=
  match intLoop tr i perNames (fun _ => none) with
  | .error e => .error e
  | .ok per => .ok { per := per, oth := tr.oth }

/-- `l[start:stop:step]` of a sequence; `ValueError` if the step is zero. -/
def sliceList (s : Sl) (l : List β) : Except Err (List β) :=
  match s.indices l.length with
  | none => .error .valueError
  | some (start, step, count) =>
    .ok ((List.range count).filterMap (fun j : Nat => l[(start + (j : Int) * step).toNat]?))

/-- As `intItem` for a slice. -/
def sliceItem (nstep : Option Nat) (s : Sl) : Option (List β) → Except Err (Option (List β))
  | none => .ok none
  | some l =>
    if some l.length = nstep then
      match sliceList s l with
      | .error e => .error e
      | .ok l' => .ok (some l')
    else .ok none

/-- As `intLoop` for a slice; no attribute is skipped. -/
def sliceLoop (tr : Traj β γ K) (s : Sl) :
    List Per → (Per → Option (List β)) → Except Err (Per → Option (List β))
  | [], f => .ok f
  | name :: names, f =>
    match sliceItem tr.nstep s (tr.per name) with
    | .error e => .error e
    | .ok v => sliceLoop tr s names (put f name v)

/-- `traj[a:b:c]`, `crys.py:2938-2974`: the new object gets the sliced attributes, `nstep` from
`get_nstep`, and `timestep` times the step of the slice (`1.0` if it is `None`). -/
def getSlice [Mul K] [IntCast K] (tr : Traj β γ K) (s : Sl) : Except Err (Traj β γ K) :=
  match sliceLoop tr s perNames (fun _ => none) with
  | .error e => .error e
  | .ok per =>
    .ok { per := per, oth := tr.oth, nstep := getNstep per,
          timestep := tr.timestep.map (fun dt => dt * ((s.step.getD 1 : Int) : K)) }

/-! ## Iteration -/

/-- The outcome of `next(traj)`. -/
inductive NextOut (β γ : Type) where
  | stop
  | item (r : Except Err (Struct β γ))

/-- `Trajectory.__next__`, `crys.py:2976-2982`. `__iter__` (`crys.py:2935-2936`) returns the
object itself. -/
def next (tr : Traj β γ K) : NextOut β γ × Traj β γ K :=
  let j := tr.index + 1
  if tr.nstep.map (fun n : Nat => (n : Int)) = some j then (.stop, { tr with index := -1 })
  else (.item (getInt tr j), { tr with index := j })

/-- A `for` loop over the trajectory: items seen and the object afterwards. `brk = some k`: the
loop is left with `break` in the body of item number `k` (counted from 0). `none` as a result:
still running after `fuel` calls of `next`. -/
def forLoop (brk : Option Nat) : Nat → Nat → Traj β γ K →
    Option (List (Except Err (Struct β γ)) × Traj β γ K)
  | 0, _, _ => none
  | fuel + 1, seen, tr =>
    match next tr with
    | (.stop, tr') => some ([], tr')
    | (.item r, tr') =>
      if brk = some seen then some ([r], tr')
      else
        match forLoop brk fuel (seen + 1) tr' with
        | none => none
        | some (rs, tr'') => some (r :: rs, tr'')

/-- `for a in traj: for b in traj: ...`: for the first `turns` turns of the outer loop the item of
the outer loop and the items of the inner loop; the flag tells whether the outer loop has ended.
`none`: an inner loop is still running after `fuel` calls of `next`. -/
def nested (fuel : Nat) : Nat → Traj β γ K →
    Option (List (Except Err (Struct β γ) × List (Except Err (Struct β γ))) × Bool)
  | 0, _ => some ([], false)
  | turns + 1, tr =>
    match next tr with
    | (.stop, _) => some ([], true)
    | (.item r, tr') =>
      match forLoop none fuel 0 tr' with
      | none => none
      | some (inner, tr'') =>
        match nested fuel turns tr'' with
        | none => none
        | some (rest, b) => some ((r, inner) :: rest, b)

/-! ## Structure to Trajectory, concatenate, mean -/

/-- `Structure.get_traj(nstep)`, `crys.py:2870-2889`. Simplification: `set_all` at the end only
sets `nstep`; nothing else can be derived when the attributes of the structure have been set by
its own `set_all`, since `timestep` is `None`. -/
def getTraj (st : Struct β γ) (n : Nat) : Traj β γ K :=
  let per : Per → Option (List β) :=
    fun m => if onlyTraj m then none else (st.per m).map (fun v => List.replicate n v)
  { per := per, oth := st.oth, nstep := getNstep per, timestep := none }

/-- An argument of `concatenate`. -/
inductive Obj (β γ K : Type) where
  | struct (st : Struct β γ)
  | traj (tr : Traj β γ K)

/-- `struct2traj`, `crys.py:3032-3037`. -/
def struct2traj : Obj β γ K → Traj β γ K
  | .traj tr => tr
  | .struct st => getTraj st 1

/-- Per-step attribute populated in all objects, `populated_attrs`, `crys.py:3061-3065`. -/
def comPer (l : List (Traj β γ K)) (m : Per) : Bool := l.all (fun t => (t.per m).isSome)

/-- Other attribute populated in all objects, `populated_attrs`, `crys.py:3061-3065`. -/
def comOth (l : List (Traj β γ K)) (m : Oth) : Bool := l.all (fun t => (t.oth m).isSome)

/-- `concatenate`, `crys.py:3068-3096`. A per-step attribute populated in all objects is
concatenated; the `symmetric_difference` of the populated attributes and
`attrs_nstep + attrs_only_traj` is taken from the first object: these are the other attributes
populated in all objects *and* the per-step attributes which are not populated in all objects.
Then `timestep` and `time` are removed. Simplification: `np.concatenate` is called on arrays of
equal item shape. -/
def concatenate (lst : List (Obj β γ K)) : Except Err (Traj β γ K) :=
  let trlst := lst.map struct2traj
  match trlst with
  | [] => .error .typeError
  | first :: _ =>
    let per : Per → Option (List β) := fun m =>
      if m = .time then none
      else if comPer trlst m then some (trlst.flatMap (fun t => (t.per m).getD []))
      else first.per m
    let oth : Oth → Option γ := fun m => if comOth trlst m then first.oth m else none
    .ok { per := per, oth := oth, nstep := getNstep per, timestep := none }

/-- `arr.mean(axis=0)`; `none` for the `nan` of an empty axis. -/
def meanList [DivisionRing K] [AddCommMonoid β] [Module K β] (l : List β) : Option β :=
  if l = [] then none else some ((1 / (l.length : K)) • l.sum)

/-- `mean`, `crys.py:3099-3142`: every per-step attribute except `time` is averaged; attributes
without time axis are taken over. Simplification: a `nan` result is `none`. -/
def mean [DivisionRing K] [AddCommMonoid β] [Module K β] (tr : Traj β γ K) : Struct β γ :=
  { per := fun m => if m = .time then none
      else match tr.per m with
        | none => none
        | some l => meanList (K := K) l
    oth := tr.oth }

/-! ## mix -/

/-- The part of a structure used by `mix`: coordinates, cell, forces (rows) and symbols.
`V` is the type of rows. -/
structure MixSt (V S : Type) where
  coords : List V
  cell : List V
  forces : Option (List V)
  symbols : List S

/-- `rr * b[None,:,:] + (1.0 - rr) * a[None,:,:]` for one value of `rr`. -/
def mixRow [Ring K] [AddCommMonoid V] [Module K V] (r : K) (a b : List V) : List V :=
  List.zipWith (fun x y => r • y + (1 - r) • x) a b

/-- `mix(st1, st2, alpha)`, `crys.py:3230-3269`: the steps of the returned trajectory (before the
derived attributes are calculated). Simplification: cell arrays have shape (3,3) and force arrays
the shape of the coordinates. -/
def mix {V S : Type} [Ring K] [AddCommMonoid V] [Module K V] [DecidableEq S]
    (a b : MixSt V S) (alpha : List K) : Except Err (List (MixSt V S)) :=
  if a.coords.length ≠ b.coords.length then .error .assertion
  else if a.symbols ≠ b.symbols then .error .assertion
  else .ok (alpha.map (fun r =>
    { coords := mixRow r a.coords b.coords
      cell := mixRow r a.cell b.cell
      forces := match a.forces, b.forces with
        | some f, some g => some (mixRow r f g)
        | _, _ => none
      symbols := a.symbols }))

/-! ## Species bookkeeping -/

/-- Second half of `np.unique`: keep the items of a sorted array which differ from the one before
(`mask[1:] = aux[1:] != aux[:-1]`). -/
def adjUnique {S : Type} [DecidableEq S] : List S → List S
  | [] => []
  | [x] => [x]
  | x :: y :: l => if x = y then adjUnique (y :: l) else x :: adjUnique (y :: l)

/-- `get_symbols_unique`, `crys.py:2732-2738`: `np.unique(self.symbols).tolist()`. -/
def symbolsUnique {S : Type} [LE S] [DecidableLE S] [DecidableEq S] (symbols : List S) : List S :=
  adjUnique (symbols.mergeSort (fun a b => decide (a ≤ b)))

/-- `dict([(sym, num+1) for num, sym in enumerate(symbols_unique)])`, `get_order`,
`crys.py:2740-2751`, as list of items in insertion order. -/
def orderDict {S : Type} (uniq : List S) : List (S × Nat) :=
  uniq.zipIdx.map (fun p => (p.1, p.2 + 1))

/-- `d[key]` of a dictionary without duplicate keys. -/
def dictGet {S V : Type} [DecidableEq S] (d : List (S × V)) (key : S) : Option V :=
  (d.find? (fun p => decide (p.1 = key))).map Prod.snd

/-- `[d[ss] for ss in l]`; `none`: `KeyError`. -/
def dictMap {S V : Type} [DecidableEq S] (d : S → Option V) : List S → Option (List V)
  | [] => some []
  | s :: l =>
    match d s with
    | none => none
    | some v => (dictMap d l).map (v :: ·)

/-- `get_typat`, `crys.py:2753-2762`. -/
def typat {S : Type} [LE S] [DecidableLE S] [DecidableEq S] (symbols : List S) : Option (List Nat) :=
  dictMap (dictGet (orderDict (symbolsUnique symbols))) symbols

/-- `get_ntypat`, `crys.py:2784-2792`. -/
def ntypat {S : Type} [LE S] [DecidableLE S] [DecidableEq S] (symbols : List S) : Nat :=
  (symbolsUnique symbols).length

/-- `get_nspecies`, `crys.py:2794-2800`: `dict([(sym, typat.count(idx)) ...])`. -/
def nspecies {S : Type} [LE S] [DecidableLE S] [DecidableEq S] (symbols : List S) :
    Option (List (S × Nat)) :=
  (typat symbols).map (fun t =>
    (orderDict (symbolsUnique symbols)).map (fun p => (p.1, t.count p.2)))

/-- `get_znucl`, `get_znucl_unique`, `crys.py:2764-2782`. `numbers` is `atomic_data.numbers`. -/
def znucl {S : Type} [DecidableEq S] (numbers : S → Option Nat) (symbols : List S) :
    Option (List Nat) := dictMap numbers symbols

/-- `get_mass`, `crys.py:2802-2809`: `atomic_data.pt[sym]['mass']`, which is
`masses[number of sym]` (`atomic_data.py:408-416`). -/
def massOf {S M : Type} [DecidableEq S] (numbers : S → Option Nat) (masses : List M)
    (symbols : List S) : Option (List M) :=
  dictMap (fun s => (numbers s).bind (fun z => masses[z]?)) symbols

/-- `get_mass_unique`, `crys.py:2811-2815`: `atomic_data.masses[z]` for `z` in `znucl_unique`. -/
def massUnique {S M : Type} [LE S] [DecidableLE S] [DecidableEq S] (numbers : S → Option Nat)
    (masses : List M) (symbols : List S) : Option (List M) :=
  match znucl numbers (symbolsUnique symbols) with
  | none => none
  | some zs => dictMap (fun z => masses[z]?) zs

/-! ## Units -/

/-- Keys of `units_map`, `crys.py:2134-2142`. -/
inductive Qty where
  | length | energy | stress | forces | temperature | velocity | time
  deriving DecidableEq, Repr

/-- Attributes which occur in `units_map`, and `other` for the remaining ones. -/
inductive UAttr where
  | cell | coords | abc | etot | ekin | stress | forces | temperature | velocity | timestep
  | other (name : String)
  deriving DecidableEq, Repr

/-- `units_map`, `crys.py:2134-2142`. -/
def unitsMap : List (Qty × List UAttr) :=
  [(.length, [.cell, .coords, .abc]), (.energy, [.etot, .ekin]), (.stress, [.stress]),
   (.forces, [.forces]), (.temperature, [.temperature]), (.velocity, [.velocity]),
   (.time, [.timestep])]

/-- `cryst_const`: one row, several rows (trajectory), or an array of other dimension. A row is a
list, the lengths `a, b, c` and then the angles. -/
inductive CC (K : Type) where
  | one (row : List K)
  | many (rows : List (List K))
  | bad

/-- The part of a container which the unit handling works on. -/
structure UObj (K V : Type) where
  attr : UAttr → Option V
  cc : Option (CC K)
  units : Qty → K
  applied : Bool

variable {V : Type}

/-- `cc[:3] *= fac`. -/
def scaleRow [Mul K] (fac : K) (row : List K) : List K :=
  (row.take 3).map (· * fac) ++ row.drop 3

/-- `for attr_name in lst: ...`, `crys.py:2167-2170`. -/
def scaleAttrs [SMul K V] (fac : K) : List UAttr → (UAttr → Option V) → UAttr → Option V
  | [], f => f
  | a :: as, f => scaleAttrs fac as (fun b => if b = a then (f a).map (fac • ·) else f b)

/-- `for unit, lst in self.units_map.items(): ...`, `crys.py:2165-2170`. -/
def scaleUnits [One K] [DecidableEq K] [SMul K V] (units : Qty → K) :
    List (Qty × List UAttr) → (UAttr → Option V) → UAttr → Option V
  | [], f => f
  | (q, lst) :: rest, f =>
    scaleUnits units rest (if units q ≠ 1 then scaleAttrs (units q) lst f else f)

/-- Scaled `cryst_const`, `crys.py:2156-2164`. -/
def scaleCC [Mul K] (fac : K) : Option (CC K) → Except Err (Option (CC K))
  | none => .ok none
  | some (.one row) => .ok (some (.one (scaleRow fac row)))
  | some (.many rows) => .ok (some (.many (rows.map (scaleRow fac))))
  | some .bad => .error .typeError

/-- `_apply_units_raw`, `crys.py:2148-2171`. -/
def applyUnitsRaw [One K] [Mul K] [DecidableEq K] [SMul K V] (o : UObj K V) : Except Err (UObj K V) :=
  if o.applied then .error .assertion
  else
    match scaleCC (o.units .length) o.cc with
    | .error e => .error e
    | .ok cc => .ok { o with cc := cc, attr := scaleUnits o.units unitsMap o.attr, applied := true }

/-- `apply_units`, `crys.py:2173-2176`. -/
def applyUnits [One K] [Mul K] [DecidableEq K] [SMul K V] (o : UObj K V) : Except Err (UObj K V) :=
  if o.applied then .ok o else applyUnitsRaw o

/-- `update_units`, `crys.py:2178-2191`, for known keys: `u` are the factors given. -/
def updateUnits (u : Qty → Option K) (o : UObj K V) : UObj K V :=
  { o with units := fun q => (u q).getD (o.units q) }

/-- What the getters called by `FlexibleGetters.set_all` compute for the attributes which are not
set yet, from those which are. -/
structure Getters (K V : Type) where
  attr : UObj K V → UAttr → Option V
  cc : UObj K V → Option (CC K)

/-- `Structure.set_all`, `crys.py:2446-2461`: `apply_units`, then the getters fill in the
attributes which are `None` (C09: set attributes are not touched). Simplification: the extension
of a 2d `cell` or 1d `cryst_const` of a trajectory to `nstep` steps is left out. -/
def setAll [One K] [Mul K] [DecidableEq K] [SMul K V] (g : Getters K V) (o : UObj K V) :
    Except Err (UObj K V) :=
  match applyUnits o with
  | .error e => .error e
  | .ok o' => .ok { o' with attr := fun a => (o'.attr a).or (g.attr o' a), cc := o'.cc.or (g.cc o') }

/-- A call on a container. -/
inductive UCall (K V : Type) where
  | apply
  | setAll (g : Getters K V)
  | update (u : Qty → Option K)

/-- One call. -/
def ustep [One K] [Mul K] [DecidableEq K] [SMul K V] (o : UObj K V) : UCall K V → Except Err (UObj K V)
  | .apply => applyUnits o
  | .setAll g => setAll g o
  | .update u => .ok (updateUnits u o)

/-- A history of calls. -/
def urun [One K] [Mul K] [DecidableEq K] [SMul K V] (o : UObj K V) : List (UCall K V) →
    Except Err (UObj K V)
  | [] => .ok o
  | c :: cs =>
    match ustep o c with
    | .error e => .error e
    | .ok o' => urun o' cs

/-! ## Parsers -/

/-- A `StructureFileParser`: the raw parsed attributes and the container `self.cont`, created once
in `__init__` (`parse.py:254-273`). -/
structure Parser (K V : Type) where
  rawAttr : UAttr → Option V
  rawCC : Option (CC K)
  cont : UObj K V

/-- `__init__`: a container with the factors of the parser. -/
def Parser.init (rawAttr : UAttr → Option V) (rawCC : Option (CC K)) (units : Qty → K) : Parser K V :=
  { rawAttr := rawAttr, rawCC := rawCC,
    cont := { attr := fun _ => none, cc := none, units := units, applied := false } }

/-- `get_cont` (`get_struct()`, `get_traj()`), `parse.py:279-302`, with `auto_calc=True`: the parsed
attributes are assigned to the attributes of `self.cont`, then `self.cont.set_all()`. The returned
object is `self.cont` itself. -/
def Parser.getCont [One K] [Mul K] [DecidableEq K] [SMul K V] (g : Getters K V) (p : Parser K V) :
    Except Err (UObj K V × Parser K V) :=
  let c := { p.cont with attr := p.rawAttr, cc := p.rawCC }
  match setAll g c with
  | .error e => .error e
  | .ok c' => .ok (c', { p with cont := c' })

end Pwtools.Tr
