import Verif.Model.Common
/-!
# `mpl.Data2D`: the forms of data on a 2d grid

1d arrays are lists, 2d arrays are lists of rows, `XY` is a list of pairs. `none` for `None`.
-/
namespace Pwtools.D2

/-- `IndexError`, `ValueError` (shapes), `Exception("cannot determine x and y from input")`. -/
inductive DErr where
  | index | value | undetermined
  deriving DecidableEq, Repr

/-- The attributes in `attr_lst`, `mpl.py:429`. -/
structure Data (K : Type) where
  /-- `x` -/
  x : Option (List K) := none
  /-- `y` -/
  y : Option (List K) := none
  /-- `xx` -/
  xx : Option (List K) := none
  /-- `yy` -/
  yy : Option (List K) := none
  /-- `zz` -/
  zz : Option (List K) := none
  /-- `X` -/
  X : Option (List (List K)) := none
  /-- `Y` -/
  Y : Option (List (List K)) := none
  /-- `Z` -/
  Z : Option (List (List K)) := none
  /-- `XY` -/
  XY : Option (List (K × K)) := none
  deriving DecidableEq

variable {K : Type} [DecidableEq K]

/-- `num.meshgridt`, `num.py:1772-1787`. -/
def meshX (x y : List K) : List (List K) := x.map fun a => y.map fun _ => a
/-- `num.meshgridt`, `num.py:1772-1787`. -/
def meshY (x y : List K) : List (List K) := x.map fun _ => y

/-- `Data2D._unique`, `mpl.py:441-451`: first occurrences, in order. -/
def firsts : List K → List K
  | [] => []
  | a :: l => a :: (firsts l).filter (· ≠ a)

/-- `np.array([xx, yy]).T`. -/
def pairs (xx yy : List K) : Except DErr (List (K × K)) := if xx.length = yy.length then .ok (xx.zip yy) else .error .value

/-- `zz.reshape(nx, ny)`. -/
def reshape (zz : List K) (nx ny : Nat) : Except DErr (List (List K)) :=
  if zz.length = nx * ny then .ok ((List.range nx).map fun i => (zz.drop (i * ny)).take ny) else .error .value

/-- `Data2D._update`, `mpl.py:453-486`, the part for x and y: the new object, and x, y. -/
def updateXY (d : Data K) : Except DErr (Data K × List K × List K) :=
  match d.x, d.y with
  | some x, some y =>
    let X := meshX x y
    let Y := meshY x y
    match pairs X.flatten Y.flatten with
    | .error e => .error e
    | .ok XY => .ok ({ d with X := some X, Y := some Y, xx := some X.flatten, yy := some Y.flatten, XY := some XY }, x, y)
  | _, _ =>
    match d.X, d.Y with
    | some X, some Y =>
      match X.mapM List.head?, Y.head? with
      | some x, some y =>
        match pairs X.flatten Y.flatten with
        | .error e => .error e
        | .ok XY => .ok ({ d with x := some x, y := some y, xx := some X.flatten, yy := some Y.flatten, XY := some XY }, x, y)
      | _, _ => .error .index
    | _, _ =>
      match d.xx, d.yy with
      | some xx, some yy =>
        let x := firsts xx
        let y := firsts yy
        match pairs xx yy with
        | .error e => .error e
        | .ok XY => .ok ({ d with x := some x, y := some y, X := some (meshX x y), Y := some (meshY x y), XY := some XY }, x, y)
      | _, _ =>
        match d.XY with
        | some XY =>
          let x := firsts (XY.map Prod.fst)
          let y := firsts (XY.map Prod.snd)
          .ok ({ d with xx := some (XY.map Prod.fst), yy := some (XY.map Prod.snd), x := some x, y := some y, X := some (meshX x y),
                        Y := some (meshY x y) }, x, y)
        | none => .error .undetermined

/-- `Data2D._update`, `mpl.py:453-486`, the part for z. -/
def updateZ (d : Data K) (nx ny : Nat) : Except DErr (Data K) :=
  match d.Z with
  | none =>
    match d.zz with
    | some zz =>
      match reshape zz nx ny with
      | .ok Z => .ok { d with Z := some Z }
      | .error e => .error e
    | none => .ok d
  | some Z => .ok { d with zz := some Z.flatten }

/-- `Data2D._update`, `mpl.py:453-486`; also the constructor, `mpl.py:429-439`, on an object with the arguments. -/
def build (d : Data K) : Except DErr (Data K) :=
  match updateXY d with
  | .error e => .error e
  | .ok (d', x, y) => updateZ d' x.length y.length

/-- `Data2D.update`, `mpl.py:488-494`, for keywords in `attr_lst`: keywords which are not given are `none` (an explicit `None` is left out). -/
def update (d kw : Data K) : Except DErr (Data K) :=
  build { x := kw.x.or d.x, y := kw.y.or d.y, xx := kw.xx.or d.xx, yy := kw.yy.or d.yy, zz := kw.zz.or d.zz, X := kw.X.or d.X, Y := kw.Y.or d.Y,
          Z := kw.Z.or d.Z, XY := kw.XY.or d.XY }

/-- `Data2D.copy`, `mpl.py:496-505`. -/
def copy (d : Data K) : Except DErr (Data K) := build d

end Pwtools.D2
