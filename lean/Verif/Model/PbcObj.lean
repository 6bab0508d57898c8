import Verif.Model.Pbc
/-!
# Model of `crys.pbc_wrap` on objects, with shared memory

Indexing or slicing a trajectory gives numpy views. Memory is a table of slabs, each holding the `(natoms, 3)` numbers of one step; an array of a
`Structure` is one slab, an array of a `Trajectory` a list of slabs. Only `cell`, `coords` and `coords_frac` are modelled. No operation here writes
to a cell, so cells are values. The cell of a trajectory has one item per step (`_extend_cell` is modelled in `Model/Derived.lean`). Real numbers
instead of floats.
-/
namespace Pwtools.PbcObj
open Pwtools.Cry

/-- A `Structure` (one step) or `Trajectory`: `None` or the addresses of the slabs of an array. -/
structure Ob where
  cell : Option (List Cell)
  coords : Option (List Nat)
  frac : Option (List Nat)

/-- Memory (addresses from `next` on are free) and all objects of the user. -/
structure World where
  mem : Nat → List V3
  next : Nat
  objs : List Ob

/-- A new array. -/
def alloc (w : World) (xs : List (List V3)) : List Nat × World :=
  ((List.range xs.length).map (w.next + ·),
   { w with mem := fun a => if w.next ≤ a ∧ a < w.next + xs.length then xs.getD (a - w.next) [] else w.mem a, next := w.next + xs.length })

/-- `set_all`, `crys.py:2446-2449`, for `coords` (`get_coords`, `crys.py:2588-2612`) and `coords_frac` (`crys.py:2614-2638`): a missing array is
calculated and is a new array; `none` is the `AssertionError` if cells and coordinates have different numbers of steps. -/
noncomputable def fillIn (w : World) (o : Ob) : Option (Ob × World) :=
  match o.cell, o.coords, o.frac with
  | some cs, none, some f =>
    if cs.length = f.length then
      let r := alloc w (List.zipWith (fun c a => (w.mem a).map (frac2cart c)) cs f)
      some ({ o with coords := some r.1 }, r.2)
    else none
  | some cs, some r, none =>
    if cs.length = r.length then
      let f := alloc w (List.zipWith (fun c a => (w.mem a).map (cart2frac c)) cs r)
      some ({ o with frac := some f.1 }, f.2)
    else none
  | _, _, _ => some (o, w)

/-- An optional array of the user is stored. -/
def allocOpt (w : World) : Option (List (List V3)) → Option (List Nat) × World
  | none => (none, w)
  | some xs => (some (alloc w xs).1, (alloc w xs).2)

/-- The constructor, `crys.py:2281-2444`; the arrays of the user are not used elsewhere. -/
noncomputable def new (w : World) (cell : Option (List Cell)) (coords frac : Option (List (List V3))) : World :=
  let r := allocOpt w coords
  let f := allocOpt r.2 frac
  match fillIn f.2 ⟨cell, r.1, f.1⟩ with
  | none => f.2
  | some (o, w) => { w with objs := w.objs ++ [o] }

/-- The items at the positions `sel`. -/
def pickAt {α : Type} (xs : List α) (sel : List Nat) : List α := sel.filterMap fun i => xs[i]?

/-- `__getitem__`, `crys.py:2938-2974`, with an integer (`sel` is one position) or a slice (`sel` are the positions of the slice, see C48): the
arrays of the result are views. -/
def getitem (w : World) (i : Nat) (sel : List Nat) : World :=
  match w.objs[i]? with
  | none => w
  | some o => { w with objs := w.objs ++ [⟨o.cell.map (pickAt · sel), o.coords.map (pickAt · sel), o.frac.map (pickAt · sel)⟩] }

/-- `copy()` (`copy.deepcopy`): new arrays with the same content. -/
def dup (w : World) (o : Ob) : Ob × World :=
  let r := allocOpt w (o.coords.map (·.map w.mem))
  let f := allocOpt r.2 (o.frac.map (·.map w.mem))
  (⟨o.cell, r.1, f.1⟩, f.2)

/-- One row in `pbc_wrap_coords`, `crys.py:804-811`. -/
noncomputable def wrapRow (mask : Fin 3 → Bool) (s : V3) : V3 := fun k => if mask k then remainder1 (s k) else s k

/-- `pbc_wrap`, `crys.py:829-836`, after the optional copy: memory, object and whether there was no exception (`coords_frac` which is `None` is
an `AttributeError`; `set_all` can fail). -/
noncomputable def wrapIn (w : World) (o : Ob) (mask : Fin 3 → Bool) : World × Ob × Bool :=
  let o : Ob := { o with coords := none }
  match o.frac with
  | none => (w, o, false)
  | some f =>
    let w := { w with mem := fun a => if a ∈ f then (w.mem a).map (wrapRow mask) else w.mem a }
    match fillIn w o with
    | none => (w, o, false)
    | some (o, w) => (w, o, true)

/-- `pbc_wrap(obj, copy, mask=mask)`, `crys.py:814-836`: with `copy=True` the result is a new object. -/
noncomputable def pbcWrap (w : World) (i : Nat) (copy : Bool) (mask : Fin 3 → Bool) : World × Bool :=
  match w.objs[i]? with
  | none => (w, false)
  | some o =>
    if copy then
      let d := dup w o
      let r := wrapIn d.2 d.1 mask
      (if r.2.2 then { r.1 with objs := r.1.objs ++ [r.2.1] } else r.1, r.2.2)
    else
      let r := wrapIn w o mask
      ({ r.1 with objs := r.1.objs.set i r.2.1 }, r.2.2)

/-- What a user does. -/
inductive Op where
  | new (cell : Option (List Cell)) (coords frac : Option (List (List V3)))
  | getitem (i : Nat) (sel : List Nat)
  | copy (i : Nat)
  | wrap (i : Nat) (copy : Bool) (mask : Fin 3 → Bool)

/-- One operation of the user. -/
noncomputable def step (w : World) : Op → World
  | .new c r f => PbcObj.new w c r f
  | .getitem i sel => PbcObj.getitem w i sel
  | .copy i => match w.objs[i]? with
    | none => w
    | some o => { (dup w o).2 with objs := (dup w o).2.objs ++ [(dup w o).1] }
  | .wrap i c m => (pbcWrap w i c m).1

/-- A history. -/
noncomputable def run (w : World) (ops : List Op) : World := ops.foldl step w

/-- Before the first operation. -/
def World.empty : World := ⟨fun _ => [], 0, []⟩

end Pwtools.PbcObj
