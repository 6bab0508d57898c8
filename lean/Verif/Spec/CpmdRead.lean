import Verif.Model.CpmdRead
import Verif.Spec.Cpmd
import Verif.Spec.ScfOut
import Verif.Spec.PwMd
import Verif.Spec.Cp2kOut
/-!
# Specification for C131: the files of a CPMD molecular dynamics run
-/
namespace Pwtools.Spec
variable {K : Type}

/-- `... TIME STEP FOR IONS:   <x>`. -/
def IonStepLine (num : Text → Option K) (l : Text) (x : K) : Prop :=
  ∃ p s w t, l = p ++ "TIME STEP FOR IONS:".toList ++ (s ++ w ++ t) ∧ Blanks s ∧ WordText w ∧ ':' ∉ w ∧ BlankText t ∧ num w = some x

/-- The file `GEOMETRY` for `n` atoms: lines with at least six numbers (ending in a digit) for the atoms, other lines have at most five words. -/
def IsGeometry (file : List Text) (n : Nat) : Prop :=
  ∃ ls : List (Text × Bool), file = ls.map Prod.fst ∧ (ls.filter Prod.snd).length = n ∧
    ∀ l ∈ ls, ∃ ws, BlankLine l.1 ws ∧ if l.2 then 6 ≤ ws.length ∧ (∀ w ∈ ws.take 5, ∃ u d, w = u ++ [d] ∧ d.isDigit = true) else ws.length ≤ 5

/-- The file `GEOMETRY.scale`: the last cell and the last block of atoms in it. -/
structure IsScale (num : Text → Option K) (cell frac : List (List K)) (symbols : List Text) (file : List Text) : Prop where
  cellRows : ∃ A hd R B, file = A ++ hd :: (R ++ B) ∧ HasText "CELL MATRIX (BOHR)".toList hd ∧ (∀ l ∈ R ++ B, ¬ HasText "CELL MATRIX (BOHR)".toList l) ∧
    List.Forall₂ (NumLine num) R cell
  atomRows : ∃ A hd R B, file = A ++ hd :: (R ++ B) ∧ HasText "SCALED ATOMIC COORDINATES".toList hd ∧
    (∀ l ∈ R ++ B, ¬ HasText "SCALED ATOMIC COORDINATES".toList l) ∧ R.length = frac.length ∧ R.length = symbols.length ∧
    ∀ (i : Nat) (l : Text) (x : List K) (s : Text), R[i]? = some l → frac[i]? = some x → symbols[i]? = some s → ScaleLine num l x s

/-- What a run has computed: symbols, time step [thart], the last cell [Bohr] and fractional coordinates; the columns and rows of `ENERGIES` [Ha]; the steps
of the trajectory (position [Bohr], velocity [Bohr/thart], force [Ha/Bohr] of each atom); cells [Bohr] and stress tensors [kbar]. -/
structure CpmdData (K : Type) where
  symbols : List Text
  dt : K
  cell0 : List (List K)
  frac : List (List K)
  cols : List String
  ener : List (List K)
  steps : List (List (AtomStep K))
  cells : List (Block3 K)
  stress : List (Block3 K)

/-- The files of a run hold these data. `GEOMETRY` is there, the others perhaps. -/
structure IsCpmdRun (num : Text → Option K) (d : CpmdData K) (fs : CpmdRead.Files) : Prop where
  atoms0 : d.symbols ≠ []
  geometry : ∃ f, fs.geometry = some f ∧ IsGeometry f d.symbols.length
  cell33 : d.cell0.length = 3 ∧ ∀ r ∈ d.cell0, r.length = 3
  scale : ∀ f, fs.scale = some f → IsScale num d.cell0 d.frac d.symbols f
  atoms : ∀ s ∈ d.steps, s.length = d.symbols.length
  /-- With `FTRAJECTORY`, the file `TRAJECTORY` is not read. -/
  traj : ∀ f, fs.ftraj = none → fs.traj = some f → IsTrajFile num f (d.steps.flatten.map (AtomStep.row false))
  ftraj : ∀ f, fs.ftraj = some f → IsTrajFile num f (d.steps.flatten.map (AtomStep.row true))
  energies : ∀ f, fs.energies = some f → EnergyColumns d.cols ∧ IsTable num f d.ener ∧ ∀ r ∈ d.ener, r.length = d.cols.length
  cells : ∀ f, fs.cell = some f → f = d.cells.flatMap Block3.lines ∧ d.cells ≠ [] ∧ ∃ n, 3 ≤ n ∧ ∀ b ∈ d.cells, b.Wf num "CELL PARAMETERS".toList n
  stress : ∀ f, fs.stress = some f → f = d.stress.flatMap Block3.lines ∧ d.stress ≠ [] ∧ ∀ b ∈ d.stress, b.Wf num "TOTAL STRESS TENSOR".toList 3
  time : ∃ A l B, fs.out = A ++ l :: B ∧ IonStepLine num l d.dt ∧ ∀ x ∈ A ++ B, ¬ HasText "TIME STEP FOR IONS".toList x

/-- More than one row in each table which is read. -/
structure CpmdTwoRows (d : CpmdData K) (fs : CpmdRead.Files) : Prop where
  energies : fs.energies ≠ none → 2 ≤ d.ener.length
  traj : fs.ftraj ≠ none ∨ fs.traj ≠ none → 2 ≤ d.steps.length * d.symbols.length

/-- A column of the table of energies. -/
def CpmdData.col (d : CpmdData K) (junk : K) (name : String) : List K := d.ener.map fun r => namedCol junk d.cols r name

def CpmdData.pos (d : CpmdData K) : List (List (List K)) := d.steps.map fun s => s.map fun a => vec a.pos
def CpmdData.vel (d : CpmdData K) : List (List (List K)) := d.steps.map fun s => s.map fun a => vec a.vel
def CpmdData.force (d : CpmdData K) : List (List (List K)) := d.steps.map fun s => s.map fun a => vec a.force
/-- The cells: the first three columns of each block. -/
def CpmdData.cells3 (d : CpmdData K) : List (List (List K)) := d.cells.map fun b => b.rows.map fun r => r.2.take 3
def CpmdData.stress3 (d : CpmdData K) : List (List (List K)) := d.stress.map fun b => b.rows.map Prod.snd

/-- A step of a run which writes all files in every step: a row of energies, the atoms, the cell, the stress tensor. -/
structure CpmdStep (K : Type) where
  ener : List K
  atoms : List (AtomStep K)
  cell : Block3 K
  stress : Block3 K

/-- The data of such a run. -/
def CpmdData.ofSteps (symbols : List Text) (dt : K) (cell0 frac : List (List K)) (cols : List String) (steps : List (CpmdStep K)) : CpmdData K where
  symbols := symbols
  dt := dt
  cell0 := cell0
  frac := frac
  cols := cols
  ener := steps.map CpmdStep.ener
  steps := steps.map CpmdStep.atoms
  cells := steps.map CpmdStep.cell
  stress := steps.map CpmdStep.stress

end Pwtools.Spec
