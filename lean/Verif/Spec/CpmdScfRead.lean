import Verif.Model.CpmdScfRead
import Verif.Spec.CpmdRead
/-!
# Specification for C133: the files of a CPMD single point calculation
-/
namespace Pwtools.Spec
variable {K : Type}

/-- The last block of the file under a line with `Title`: its rows are `v`. Nothing if there is no such line. -/
def LastRows {A : Type} (Title : Text → Prop) (Row : Text → A → Prop) (file : List Text) : Option (List A) → Prop
  | none => ∀ l ∈ file, ¬ Title l
  | some v => ∃ pre hd R post, file = pre ++ hd :: (R ++ post) ∧ Title hd ∧ (∀ l ∈ R ++ post, ¬ Title l) ∧ List.Forall₂ Row R v

/-- A row of the table `ATOM COORDINATES GRADIENTS`: two words, three coordinates, then the vector `v`. -/
def GradientLine (num : Text → Option K) (l : Text) (v : List K) : Prop :=
  ∃ x : List K, [3, 4, 5].map (fun i => (splitWs l)[i - 1]?.bind num) = x.map some ∧ [6, 7, 8].map (fun i => (splitWs l)[i - 1]?.bind num) = v.map some

/-- The last line with `TOTAL ENERGY =` has the number `x` as fifth word. Nothing if there is no such line. -/
def LastEnergy (num : Text → Option K) (file : List Text) : Option K → Prop
  | none => ∀ l ∈ file, ¬ HasText "TOTAL ENERGY =".toList l
  | some x => ∃ A l B w, file = A ++ l :: B ∧ HasText "TOTAL ENERGY =".toList l ∧ (∀ l ∈ B, ¬ HasText "TOTAL ENERGY =".toList l) ∧
      (splitWs l)[4]? = some w ∧ num w = some x

/-- `NUMBER OF SPECIAL K POINTS ... COORDINATES): <n> ...`. -/
def SpecialPoints (l : Text) : Prop :=
  HasText "NUMBER OF SPECIAL K POINTS".toList l ∧
    ∃ p s n t, l = p ++ ("COORDINATES):".toList ++ (s ++ strNat n ++ t)) ∧ BlankText s ∧ (∀ c, t.head? = some c → c.isDigit = false) ∧ ':' ∉ t

/-- What has been computed: symbols, cell [Bohr], fractional coordinates, and, if printed, energy [Ha], stress [kbar], forces [Ha/Bohr]. -/
structure CpmdScfData (K : Type) where
  symbols : List Text
  cell : List (List K)
  frac : List (List K)
  etot : Option K
  stress : Option (List (List K))
  forces : Option (List (List K))

/-- The files of a calculation hold these data. -/
structure IsCpmdScf (num : Text → Option K) (d : CpmdScfData K) (fs : CpmdScfRead.Files) : Prop where
  atoms0 : d.symbols ≠ []
  geometry : ∃ f, fs.geometry = some f ∧ IsGeometry f d.symbols.length
  cell33 : d.cell.length = 3 ∧ ∀ r ∈ d.cell, r.length = 3
  scale : ∃ f, fs.scale = some f ∧ IsScale num d.cell d.frac d.symbols f
  etot : LastEnergy num fs.out d.etot
  stress : LastRows (HasText "TOTAL STRESS TENSOR".toList) (NumLine num) fs.out d.stress ∧
    ∀ s, d.stress = some s → s.length = 3 ∧ ∀ r ∈ s, r.length = 3
  forces : LastRows (HasSpaced3 "ATOM".toList "COORDINATES".toList "GRADIENTS".toList) (GradientLine num) fs.out d.forces ∧
    ∀ f, d.forces = some f → f.length = d.symbols.length
  kpoints : (∀ l ∈ fs.out, ¬ HasText "NUMBER OF SPECIAL K POINTS".toList l) ∨
    ∃ A l B, fs.out = A ++ l :: B ∧ SpecialPoints l ∧ ∀ x ∈ A ++ B, ¬ HasText "NUMBER OF SPECIAL K POINTS".toList x

/-- Two lines before the (first) message about the restart file: a step of the iteration, beginning with its number (or an empty line). -/
def RestartAfterStep (out : List Text) : Prop :=
  (∀ l ∈ out, ¬ HasText "RESTART INFORMATION WRITTEN".toList l) ∨
    ∃ A l x hd B, out = A ++ l :: x :: hd :: B ∧ HasText "RESTART INFORMATION WRITTEN".toList hd ∧
      (∀ y ∈ A ++ [l, x], ¬ HasText "RESTART INFORMATION WRITTEN".toList y) ∧ (splitWs l = [] ∨ ∃ n ws, splitWs l = strNat n :: ws)

/-- The point with fractional coordinates `r` in the cell. -/
def cartesian [Zero K] [Add K] [Mul K] (cell : List (List K)) (r : List K) : List K :=
  [0, 1, 2].map fun j => r.getD 0 0 * (cell.getD 0 []).getD j 0 + r.getD 1 0 * (cell.getD 1 []).getD j 0 + r.getD 2 0 * (cell.getD 2 []).getD j 0

end Pwtools.Spec
