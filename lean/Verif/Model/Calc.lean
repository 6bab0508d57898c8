import Verif.Model.Cell
import Verif.Model.Common
import Verif.Model.Traj
/-!
# Model of `src/pwtools/calculators.py`

The base classes of ASE (`FileIOCalculator`, `kpts2mp`) are not part of the model: `FileIOCalculator.__init__(self, **kwds)` sets the file names from
`kwds`, which is left out. A dict is a function from keys to values; `none` for a missing key. A value is `none` for `None`.
-/
namespace Pwtools.Calc

/-- The value of a setting; `V` are the values which are not `None`. -/
abbrev Dict (V : Type) := Text → Option (Option V)

/-- Exceptions: `Exception` for a key which is not allowed, `NotImplementedError` for `smearing`, `Exception` for `xc`, `AssertionError`. -/
inductive CErr where
  | notAllowed | notImplemented | useXc | assertion
  deriving DecidableEq, Repr

/-- `d.update(e)`. -/
def upd {V : Type} (d e : Dict V) : Dict V := fun k => (e k).or (d k)

/-- Keyword arguments, in order. -/
abbrev Kwds (V : Type) := List (Text × Option V)

/-- The keyword arguments as a dict. -/
def asDict {V : Type} (kw : Kwds V) : Dict V := fun k => (kw.find? fun e => decide (e.1 = k)).map Prod.snd

/-- `CalculatorBase.init_params_from_input`, `calculators.py:96-108`. `cls` is the dict `default_parameters` of the *class*: `self.parameters` is
the same object, so `update` (line 107) changes the dict of the class. The result: the dict of the class afterwards, and the attributes of
the new object (line 108). A key which is not allowed is an error and nothing is changed. -/
def initParams {V : Type} (cls : Dict V) (kw : Kwds V) : Except CErr (Dict V × Dict V) :=
  if kw.any fun e => (cls e.1).isNone then .error .notAllowed
  else .ok (upd cls (asDict kw), upd cls (asDict kw))

/-- The value of an attribute; a missing key does not occur for the keys used below. -/
def attr {V : Type} (d : Dict V) (k : String) : Option V := (d k.toList).join

/-- `Pwscf.__init__`, `calculators.py:261-282`: the dict of the class afterwards (it stays changed if the constructor raises), and the
attributes of the object. `times4` is `4.0*x`. -/
def pwscfInit {V : Type} (times4 : V → V) (cls : Dict V) (kw : Kwds V) : Dict V × Except CErr (Dict V) :=
  match initParams cls kw with
  | .error e => (cls, .error e)
  | .ok (cls', d) =>
    (cls',
     if (attr d "smearing").isSome then .error .notImplemented
     else if (attr d "xc").isSome then .error .useXc
     else
      let d' : Dict V := Function.update d "ecutrho".toList (some (match attr d "ecutrho" with
        | some x => some x
        | none => (attr d "ecutwfc").map times4))
      if (attr d' "pp").isNone || (attr d' "pseudo_dir").isNone || (attr d' "outdir").isNone || (attr d' "kpts").isNone
      then .error .assertion else .ok d')

/-- `Lammps.__init__`, `calculators.py:381-397`. -/
def lammpsInit {V : Type} (cls : Dict V) (kw : Kwds V) : Dict V × Except CErr (Dict V) :=
  match initParams cls kw with
  | .error e => (cls, .error e)
  | .ok (cls', d) => (cls', .ok d)

/-- The dict of the class after the objects of `hist` were created. -/
def after {V : Type} (init : Dict V → Kwds V → Dict V × Except CErr (Dict V)) (cls : Dict V) (hist : List (Kwds V)) : Dict V :=
  hist.foldl (fun d kw => (init d kw).1) cls

/-! ## Pseudopotentials -/

/-- The keyword `pp`. -/
inductive PP where
  | str (s : Text)
  | lst (l : List Text)

/-- `Pwscf.write_input`, `calculators.py:290-300`: the file for each species. -/
def pseudos (pp : PP) (symbolsUnique : List Text) : Except CErr (List Text) :=
  match pp with
  | .str s => .ok (symbolsUnique.map fun sym => sym ++ ['.'] ++ s)
  | .lst l =>
    if l.length ≠ symbolsUnique.length then .error .assertion
    else
      let ps := symbolsUnique.filterMap fun sym => l.find? fun ppi => sym.isPrefixOf ppi
      if ps.length ≠ symbolsUnique.length then .error .assertion else .ok ps

/-! ## Template -/

/-- `str.format(**dct)` for a text with the replacement fields `{key}`, used in `fill_infile_templ`, `calculators.py:110-114`; `none`: an
exception. Simplified: `{{` and `}}` and format specifications, which do not occur in the templates, are not handled. The second argument is
the (reversed) text of an open field. -/
def pyFormat (env : Text → Option Text) : Option Text → Text → Option Text
  | none, [] => some []
  | some _, [] => none
  | none, c :: cs =>
    if c = '{' then pyFormat env (some []) cs
    else if c = '}' then none
    else (pyFormat env none cs).map (c :: ·)
  | some k, c :: cs =>
    if c = '}' then
      match env k.reverse, pyFormat env none cs with
      | some v, some r => some (v ++ r)
      | _, _ => none
    else if c = '{' then none
    else pyFormat env (some (c :: k)) cs

/-! ## Results -/

/-- `stress_pwtools2ase`, `calculators.py:72-87`; `c` is `constants.eV_by_Ang3_to_GPa`. -/
noncomputable def stressAse (c : ℝ) (s : Fin 3 → Fin 3 → ℝ) : Fin 6 → ℝ := fun i => -(Cry.tensor2voigt s i) / c

end Pwtools.Calc
