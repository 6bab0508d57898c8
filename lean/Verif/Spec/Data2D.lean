import Verif.Model.Data2D
/-!
# Specification for C113
-/
namespace Pwtools.Spec
variable {K : Type}

/-- All forms of the grid with axes `x`, `y`, as explained in the documentation: the point `i * ny + j` of the "double loop" is `(x[i], y[j])`, and
this is what the other forms say, too. -/
structure IsGrid (d : D2.Data K) (x y : List K) : Prop where
  hx : d.x = some x
  hy : d.y = some y
  flat : ∃ xx yy XY X Y, d.xx = some xx ∧ d.yy = some yy ∧ d.XY = some XY ∧ d.X = some X ∧ d.Y = some Y ∧
    xx.length = x.length * y.length ∧ yy.length = x.length * y.length ∧ XY.length = x.length * y.length ∧ X.length = x.length ∧ Y.length = x.length ∧
    (∀ r ∈ X, r.length = y.length) ∧ (∀ r ∈ Y, r.length = y.length) ∧
    ∀ i j (hi : i < x.length) (hj : j < y.length), xx[i * y.length + j]? = some x[i] ∧ yy[i * y.length + j]? = some y[j] ∧
      XY[i * y.length + j]? = some (x[i], y[j]) ∧ (X[i]?.bind (·[j]?)) = some x[i] ∧ (Y[i]?.bind (·[j]?)) = some y[j]

/-- The values on the grid: `Z[i][j]` is the value at the point `(x[i], y[j])`, `zz[i * ny + j]` the same. -/
structure HasValues (d : D2.Data K) (nx ny : Nat) (f : Nat → Nat → K) : Prop where
  vals : ∃ zz Z, d.zz = some zz ∧ d.Z = some Z ∧ zz.length = nx * ny ∧ Z.length = nx ∧ (∀ r ∈ Z, r.length = ny) ∧
    ∀ i j, i < nx → j < ny → zz[i * ny + j]? = some (f i j) ∧ (Z[i]?.bind (·[j]?)) = some (f i j)

/-- The values of a function on the points, in the order of a double loop. -/
def loopVals (nx ny : Nat) (f : Nat → Nat → K) : List K := (List.range nx).flatMap fun i => (List.range ny).map fun j => f i j

/-- The values of a function on the points, as rows. -/
def gridVals (nx ny : Nat) (f : Nat → Nat → K) : List (List K) := (List.range nx).map fun i => (List.range ny).map fun j => f i j

/-- The points of a grid in the order of a double loop (`itertools.product`). -/
def loopPoints (x y : List K) : List (K × K) := x.flatMap fun a => y.map fun b => (a, b)

end Pwtools.Spec
