import Verif.Model.GibbsHist
/-!
# Specification for C141: the fit functions which are in effect
-/
namespace Pwtools.Spec
open Thermo

/-- The last element which `f` selects, or `d`. -/
def lastOf {α β : Type} (f : α → Option β) (d : β) (l : List α) : β := (l.filterMap f).getLast?.getD d

/-- The functions a user gave, by key. -/
def given1G : GOp → Option (List ℝ → List ℝ → Fit) | .set (.g1 f) => some f | _ => none
def given2G : GOp → Option (List (List ℝ) → List ℝ → Fit2) | .set (.g2 f) => some f | _ => none
def givenAx : GOp → Option (List ℝ → List ℝ → Fit) | .set (.ax1 f) => some f | _ => none
def givenAlpha : GOp → Option (List ℝ → List ℝ → Fit) | .set (.alpha f) => some f | _ => none
def givenC : GOp → Option (List ℝ → List ℝ → Fit) | .set (.c f) => some f | _ => none

/-- A calculation. -/
def IsCalc : GOp → Prop | .compute _ => True | .set _ => False

/-- The attributes of an object with the fit functions which were set last. -/
def withLast (g : Gibbs) (ops : List GOp) : Gibbs :=
  { g with fit1G := lastOf given1G g.fit1G ops, fit2G := lastOf given2G g.fit2G ops, fit1ax := lastOf givenAx g.fit1ax ops, fitAlpha := lastOf givenAlpha g.fitAlpha ops,
           fitC := lastOf givenC g.fitC ops }

end Pwtools.Spec
