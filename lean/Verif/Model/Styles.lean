import Verif.Model.Comb
import Verif.Model.Common
import Mathlib.Data.Real.Basic
/-!
# Model of the plot styles and legends, `src/pwtools/mpl.py`

The iterators live in the module `mpl`, so every user in one process draws from the same ones.
-/
namespace Pwtools.Styles
open Pwtools

/-- `mpl.py:538`. -/
def colors : List String := ["b", "g", "r", "c", "m", "y", "k"]
/-- `mpl.py:539`. -/
def markers : List String := ["o", "v", "^", "<", ">", "s", "p", "*", "h", "H", "+", "x", "D"]
/-- `mpl.py:540`. -/
def linestyles : List String := ["-", "--", ":", "-."]

/-- `[x[0]+x[1] for x in itertools.product(foo, bar)]`, `mpl.py:541-544`. -/
def combine (foo bar : List String) : List String := (itProduct [foo, bar]).map fun x => x.getD 0 "" ++ x.getD 1 ""

/-- The seven lists. -/
inductive Base | c | m | l | cm | cl | mc | lc
deriving DecidableEq

/-- The lists, `mpl.py:538-544`. -/
def Base.list : Base → List String
  | .c => colors | .m => markers | .l => linestyles
  | .cm => combine colors markers | .cl => combine colors linestyles
  | .mc => combine markers colors | .lc => combine linestyles colors

/-- An iterator object: `iter(list)` or `itertools.cycle(list)`. -/
structure Obj where
  cyclic : Bool
  base : Base
deriving DecidableEq

/-- The names in the module and the objects they are bound to, `mpl.py:547-576`. -/
def names : List (String × Obj) := [
  ("iter_colors", ⟨false, .c⟩), ("iter_markers", ⟨false, .m⟩), ("iter_linestyles", ⟨false, .l⟩),
  ("iter_colors_markers", ⟨false, .cm⟩), ("iter_colors_linestyles", ⟨false, .cl⟩),
  ("iter_markers_colors", ⟨false, .mc⟩), ("iter_linestyles_colors", ⟨false, .lc⟩),
  ("cycle_colors", ⟨true, .c⟩), ("cycle_markers", ⟨true, .m⟩),
  ("cycle_colors_markers", ⟨true, .cm⟩), ("cycle_colors_linestyles", ⟨true, .cl⟩),
  ("cycle_markers_colors", ⟨true, .mc⟩), ("cycle_linestyles_colors", ⟨true, .lc⟩),
  ("cc", ⟨true, .c⟩), ("cm", ⟨true, .m⟩), ("ccm", ⟨true, .cm⟩), ("ccl", ⟨true, .cl⟩), ("cmc", ⟨true, .mc⟩), ("clc", ⟨true, .lc⟩),
  ("ic", ⟨false, .c⟩), ("im", ⟨false, .m⟩), ("icm", ⟨false, .cm⟩), ("icl", ⟨false, .cl⟩), ("imc", ⟨false, .mc⟩), ("ilc", ⟨false, .lc⟩)]

/-- What `next(mpl.<name>)` gives. -/
inductive Draw | style (s : String) | stopIteration | attributeError
deriving DecidableEq

/-- What is left of each iterator in the current pass. -/
abbrev St := Obj → List String

/-- At import. -/
def start : St := fun o => o.base.list

/-- `next(obj)`: `iter(list)` stops for good at the end, `itertools.cycle(list)` starts again. -/
def nextObj (o : Obj) (s : St) : Draw × St :=
  match s o with
  | x :: r => (.style x, Function.update s o r)
  | [] => if o.cyclic then
      match o.base.list with
      | x :: r => (.style x, Function.update s o r)
      | [] => (.stopIteration, s)
    else (.stopIteration, s)

/-- `next(mpl.<name>)`. -/
def next (name : String) (s : St) : Draw × St :=
  match names.lookup name with
  | some o => nextObj o s
  | none => (.attributeError, s)

/-- A history of draws, by whatever users in the process: what each gets. -/
def run : List String → St → List Draw
  | [], _ => []
  | n :: h, s => (next n s).1 :: run h (next n s).2

/-- `mpl.smooth_color(idx, niter)`, `mpl.py:591`; `none` is `ZeroDivisionError`. -/
noncomputable def smoothColor (idx niter : Int) : Option ℝ :=
  if niter - 1 = 0 then none else some ((idx : ℝ) / ((niter - 1 : Int) : ℝ))

/-- `mpl.smooth_color_func(niter, func)`, `mpl.py:594-619`; `none` is `ZeroDivisionError`. -/
noncomputable def smoothColorFunc {α : Type} (niter : Nat) (func : ℝ → α) : Option (List α) :=
  (List.range niter).foldl (fun col (ii : Nat) => col.bind fun col =>
    if (niter : ℝ) - 1 = 0 then none else some (col ++ [func ((ii : ℝ) / ((niter : ℝ) - 1))])) (some [])

/-- `zip(*axhls)` followed by `itertools.chain(*x)` and the two first of the results, `mpl.py:281-284`; each axis gives a
pair (handles, labels). `none` is the `IndexError` without axes. The results are one-shot iterators in the code. -/
def collectLegends {H : Type} (axs : List (List H × List String)) : Option (List H × List String) :=
  if axs = [] then none else some ((axs.map (·.1)).flatten, (axs.map (·.2)).flatten)

/-- `mpl.prepare_plots(names)`, `mpl.py:313`: `OrderedDict([(nn, Plot(…)) for nn in names])`. `made i` is the plot made for
the `i`-th name; a repeated key keeps its place and takes the later value. -/
def preparePlots {P : Type} (made : Nat → P) (nms : List String) : List (String × P) :=
  nms.zipIdx.foldl (fun d e =>
    if d.any (·.1 = e.1) then d.map fun kv => if kv.1 = e.1 then (e.1, made e.2) else kv else d ++ [(e.1, made e.2)]) []

end Pwtools.Styles
