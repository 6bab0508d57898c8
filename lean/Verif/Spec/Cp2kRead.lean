import Verif.Model.Cp2kRead
import Verif.Spec.Cp2k
import Verif.Spec.Cp2kOut
import Verif.Spec.PwMd
/-!
# Specification for C129: the files of a CP2K molecular dynamics or relaxation run
-/
namespace Pwtools.Spec
variable {K : Type}

/-- `... Number of atoms:   <n>`. -/
def AtomsLine (l : Text) (n : Nat) : Prop := ∃ p s t, l = p ++ "Number of atoms:".toList ++ (s ++ strNat n ++ t) ∧ BlankText s ∧ BlankText t

/-- `... MD| Time Step [fs]   <x>`. -/
def TimeStepLine (num : Text → Option K) (l : Text) (x : K) : Prop :=
  ∃ p s w t, l = p ++ "MD| Time Step [fs]".toList ++ (s ++ w ++ t) ∧ BlankText s ∧ WordText w ∧ ']' ∉ w ∧ BlankText t ∧ num w = some x

/-- What a run has computed: symbols, time step [fs]; rows of the tables of energies [Ha], cells [Angstrom], stress tensors [bar]; positions [Angstrom],
forces [Ha/Bohr] and velocities [Bohr/thart] of the frames. -/
structure Cp2kData (K : Type) where
  symbols : List Text
  dt : K
  ener : List (EnerRow K)
  cells : List (CellRow K)
  stress : List (CellRow K)
  pos : List (List (List K))
  frc : List (List (List K))
  vel : List (List (List K))

/-- An xyz file with at least one frame, all of them with these atoms; `vals` are the arrays. -/
def IsXyz (num : Text → Option K) (symbols : List Text) (file : List Text) (vals : List (List (List K))) : Prop :=
  ∃ fs : List (XyzFrame K), fs ≠ [] ∧ file = fs.flatMap XyzFrame.lines ∧ (∀ f ∈ fs, f.Wf num symbols.length ∧ f.rows.map (fun r => r.2.1) = symbols) ∧
    fs.map (fun f => f.rows.map fun r => r.2.2) = vals

/-- The xyz files and tables which exist hold these data. -/
structure IsCp2kTables (num : Text → Option K) (d : Cp2kData K) (fs : Cp2kRead.Files) : Prop where
  atoms0 : d.symbols ≠ []
  ener : ∀ f, fs.ener = some f → IsTable num f (d.ener.map EnerRow.row) ∧ d.ener ≠ []
  cells : ∀ f, fs.cell = some f → IsTable num f (d.cells.map CellRow.row) ∧ d.cells ≠ []
  stress : ∀ f, fs.stress = some f → IsTable num f (d.stress.map fun r => r.row.take 11) ∧ d.stress ≠ []
  pos : ∀ f, fs.pos = some f → IsXyz num d.symbols f d.pos
  frc : ∀ f, fs.frc = some f → IsXyz num d.symbols f d.frc
  vel : ∀ f, fs.vel = some f → IsXyz num d.symbols f d.vel
  /-- Without a file of forces, they may be in the output file. -/
  frcOut : fs.frc = none → IsForceOut num d.symbols.length fs.out d.frc

/-- The files of a molecular dynamics run: the output file has the number of atoms and the time step. -/
structure IsCp2kRun (num : Text → Option K) (d : Cp2kData K) (fs : Cp2kRead.Files) : Prop where
  tables : IsCp2kTables num d fs
  atoms : FirstLine (HasText "Number of atoms:".toList) AtomsLine fs.out d.symbols.length
  time : FirstLine (HasText "MD| Time Step [fs]".toList) (TimeStepLine num) fs.out d.dt

/-- The tables which exist have at least two rows. -/
structure TwoRows (d : Cp2kData K) (fs : Cp2kRead.Files) : Prop where
  ener : fs.ener ≠ none → 2 ≤ d.ener.length
  cells : fs.cell ≠ none → 2 ≤ d.cells.length
  stress : fs.stress ≠ none → 2 ≤ d.stress.length

/-- A step of a run which writes all files in every step. -/
structure Cp2kStep (K : Type) where
  ener : EnerRow K
  cell : CellRow K
  stress : CellRow K
  pos : List (List K)
  frc : List (List K)
  vel : List (List K)

/-- The data of such a run. -/
def Cp2kData.ofSteps (symbols : List Text) (dt : K) (steps : List (Cp2kStep K)) : Cp2kData K where
  symbols := symbols
  dt := dt
  ener := steps.map Cp2kStep.ener
  cells := steps.map Cp2kStep.cell
  stress := steps.map Cp2kStep.stress
  pos := steps.map Cp2kStep.pos
  frc := steps.map Cp2kStep.frc
  vel := steps.map Cp2kStep.vel

/-! ## relaxations -/

/-- `... GLOBAL ... Run type <w>`. -/
def RunTypeLike (l : Text) : Prop := ∃ a b c, l = a ++ ("GLOBAL".toList ++ (b ++ ("Run type".toList ++ c)))

def RunTypeLine (l : Text) (w : Text) : Prop :=
  ∃ p q s t, l = p ++ ("GLOBAL".toList ++ (q ++ ("Run type".toList ++ (s ++ w ++ t)))) ∧ Blanks s ∧ WordText w ∧ (∀ a b, w ≠ a ++ ("type".toList ++ b)) ∧ BlankText t

/-- The files of a relaxation: the file of positions exists, and the comment of each frame has the energy as sixth word, as in
`i = 1, E = -7`. -/
structure IsCp2kRelax (num : Text → Option K) (d : Cp2kData K) (run : Text) (energies : List K) (fs : Cp2kRead.Files) : Prop where
  tables : IsCp2kTables num d fs
  runLine : FirstLine RunTypeLike RunTypeLine fs.out run
  noTime : ∀ l ∈ fs.out, ¬ HasText "MD| Time Step [fs]".toList l
  pos : ∃ f, fs.pos = some f ∧ ∃ fr : List (XyzFrame K), fr ≠ [] ∧ f = fr.flatMap XyzFrame.lines ∧
    (∀ x ∈ fr, x.Wf num d.symbols.length) ∧ fr.map (fun x => x.rows.map fun r => r.2.2) = d.pos ∧
    List.Forall₂ (fun f e => ∃ w, (splitWs f.comment)[5]? = some w ∧ num w = some e) fr energies

end Pwtools.Spec
