import Verif.Model.Gibbs
/-!
# Model of a `Gibbs` object over its life (`src/pwtools/thermo.py`)

`Model/Gibbs.lean` has the calculations for given fit functions. Here is the state which they and `set_fitfunc` change.
-/
namespace Pwtools.Thermo

/-- A `Gibbs` object: attributes and `self.fitfunc` (`g`), and `self.fitax`, `thermo.py:452`. The fits in `self.fitax` are determined by the function they were made with, as `V` and `axes_flat` do
not change; we keep this function instead of the list of fits. -/
structure GObj where
  g : Gibbs
  fitax : Option (List ℝ → List ℝ → Fit)

/-- The object after the constructor. -/
def GObj.new (g : Gibbs) : GObj := ⟨g, none⟩

/-- Arguments of `set_fitfunc`, `thermo.py:482-494`; `g3` is never used by the calculations; `unknown` is any other key. -/
inductive SetFit where
  | g1 (f : List ℝ → List ℝ → Fit)
  | g2 (f : List (List ℝ) → List ℝ → Fit2)
  | g3
  | ax1 (f : List ℝ → List ℝ → Fit)
  | alpha (f : List ℝ → List ℝ → Fit)
  | c (f : List ℝ → List ℝ → Fit)
  | unknown

/-- `self.fitfunc[what] = func`, `thermo.py:494`. `AssertionError` for an unknown key leaves the object as it is. -/
def GObj.setFitfunc (o : GObj) : SetFit → GObj
  | .g1 f => { o with g := { o.g with fit1G := f } }
  | .g2 f => { o with g := { o.g with fit2G := f } }
  | .g3 => o
  | .ax1 f => { o with g := { o.g with fit1ax := f } }
  | .alpha f => { o with g := { o.g with fitAlpha := f } }
  | .c f => { o with g := { o.g with fitC := f } }
  | .unknown => o

/-- `_set_fitax`, `thermo.py:598-605`. -/
def GObj.setFitax (o : GObj) : GObj :=
  match o.fitax with
  | none => { o with fitax := some o.g.fit1ax }
  | some _ => o

/-- The attributes as the calculations use them: `self.fitax[iax]` is used for the axes. -/
def GObj.eff (o : GObj) : Gibbs :=
  match o.fitax with
  | none => o.g
  | some f => { o.g with fit1ax := f }

/-- A calculation: `calc_F(calc_all)`, `calc_H(calc_all)`, `calc_G(ret, calc_all)`. -/
inductive Calc where
  | F (all : Bool)
  | H (all : Bool)
  | G (ret : Option Dict) (all : Bool)

/-- The result of a calculation by the attributes. `none`: an exception. -/
noncomputable def Gibbs.calc (g : Gibbs) (junk : List Nat → ℝ) : Calc → Option Dict
  | .F all => g.calcF junk all
  | .H all => g.calcH junk all
  | .G ret all => g.calcG junk ret all

/-- A calculation with the object, `thermo.py:607-758`: all three begin with `_set_fitax` (`thermo.py:633, 671, 715`), also when they raise later. -/
noncomputable def GObj.calc (o : GObj) (junk : List Nat → ℝ) (c : Calc) : GObj × Option Dict := (o.setFitax, o.setFitax.eff.calc junk c)

/-- What a user does with the object. -/
inductive GOp where
  | set (s : SetFit)
  | compute (c : Calc)

/-- One step. -/
noncomputable def GObj.step (junk : List Nat → ℝ) (o : GObj) : GOp → GObj
  | .set s => o.setFitfunc s
  | .compute c => (o.calc junk c).1

/-- Steps. -/
noncomputable def GObj.run (junk : List Nat → ℝ) (o : GObj) (ops : List GOp) : GObj := ops.foldl (GObj.step junk) o

end Pwtools.Thermo
