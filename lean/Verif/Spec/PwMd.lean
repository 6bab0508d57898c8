import Verif.Spec.PwRead
/-!
# Specification for C127: the output of a molecular dynamics or relaxation run of pw.x
-/
namespace Pwtools.Spec
variable {K : Type}

/-- A structure of the run: its part of the file, positions, total energy, forces, stress. -/
structure PwStep (K : Type) where
  blocks : List (Block K)
  pos : List (List K)
  energy : K
  forces : List (List K)
  stress : List (List K)

/-- A line with `kinetic energy`. -/
def EkinIonLike (l : Text) : Prop := ∃ a b, l = a ++ "kinetic energy".toList ++ b

/-- A line with `temperature`, blanks and `=`. -/
def TempLike (l : Text) : Prop := ∃ a b i, l = a ++ "temperature".toList ++ (List.replicate i ' ' ++ '=' :: b)

/-- `... temperature   = <x> K`, nothing but white space behind it. -/
def TempLine (num : Text → Option K) (l : Text) (x : K) : Prop :=
  ∃ a i s w t u, l = a ++ "temperature".toList ++ (List.replicate i ' ' ++ '=' :: (s ++ w ++ t ++ 'K' :: u)) ∧ BlankText s ∧
    w ≠ [] ∧ (∀ c ∈ w, NumChar c) ∧ BlankText t ∧ BlankText u ∧ num w = some x

/-- A line with `Time ... step`. -/
def TimeLike (l : Text) : Prop := ∃ a b c, l = a ++ ("Time".toList ++ (b ++ ("step".toList ++ c)))

/-- `Time step   =   <x> a.u. ...`. -/
def TimeLine (num : Text → Option K) (l : Text) (x : K) : Prop :=
  TimeLike l ∧ ∃ p s t w v u, l = p ++ ("step".toList ++ (s ++ '=' :: (t ++ (w ++ (v ++ ("a.u.".toList ++ u)))))) ∧ BlankText s ∧ s ≠ [] ∧
    BlankText t ∧ t ≠ [] ∧ WordText w ∧ 's' ∉ w ∧ BlankText v ∧ 'a' ∉ u ∧ (∀ a b, u ≠ a ++ "step".toList ++ b) ∧ num w = some x

/-- `file` is the output of a run which starts from a structure with lattice parameter `alat`, cell vectors `cell` and atoms `atoms` (symbol and
position), the last two divided by `alat`. `start` is the part about the first structure, which has no block of positions; then come the
structures `steps`, with positions in the unit `unit`. Temperatures, kinetic energies and one time step `dt` are printed somewhere in the file. -/
structure IsPwMd (num : Text → Option K) (alat : K) (cell : List (List K)) (atoms : List (Text × List K)) (start : List (Block K))
    (steps : List (PwStep K)) (unit : Text) (ekins temps : List K) (dt : K) (file : List Text) where
  out : IsPwOut num atoms.length (start ++ steps.flatMap PwStep.blocks) file
  first : ∃ e f s, IsPwStep none e f s start ∧ ∃ m, 0 < m ∧ f.length = m * atoms.length ∧ ∀ x ∈ steps, x.forces.length = m * atoms.length
  each : ∀ x ∈ steps, IsPwStep (some x.pos) x.energy x.forces x.stress x.blocks
  some' : steps ≠ []
  unitLine : FirstLine (Matches .pos) (UnitLine "ATOMIC_POSITIONS".toList) file (some unit)
  alatLine : FirstLine AlatLike (AlatLine num) file alat
  cellRows : FirstRows AxesLike (Row num [4, 5, 6]) file cell
  cell3 : cell.length = 3
  atomRows : FirstRows SiteLike (HeadAtomLine num) file atoms
  atoms0 : atoms ≠ []
  atoms3 : ∀ x ∈ atoms, x.2.length = 3
  points : (∀ l ∈ file, ¬ PointsLike l) ∨ ∃ n, FirstLine PointsLike PointsLine file n
  iters : ∃ ns, Interleaved (fun l n => IterLike l ∧ (splitWs l)[5]? = some (strNat n)) (fun l => ¬ IterLike l) file ns
  ekinLines : Interleaved (fun l e => EkinIonLike l ∧ Row num [5] l [e]) (fun l => ¬ EkinIonLike l) file ekins
  tempLines : Interleaved (TempLine num) (fun l => ¬ TempLike l) file temps
  timeLine : FirstLine TimeLike (TimeLine num) file dt

/-- A line with `CELL_PARAMETERS ... alat ... =`. -/
def FactorLike (l : Text) : Prop := ∃ a b c d, l = a ++ "CELL_PARAMETERS".toList ++ b ++ "alat".toList ++ c ++ "=".toList ++ d

/-- The cells of the `n` structures of a run in Bohr: either the cell is fixed, `cell * alat`; or there is a block for each structure, in Bohr,
Angstrom, in units of `alat`, or with its own factor in the header. `ab` is one Angstrom in Bohr; `alat` and all factors count as 1
if `useAlat` is false. -/
inductive PwCells [Mul K] [One K] (num : Text → Option K) (ab alat : K) (useAlat : Bool) (cell : List (List K)) (n : Nat) (blocks : List (Block K))
    (file : List Text) : List (List (List K)) → Prop
  | fixed : blocks.filterMap Block.cell? = [] →
      PwCells num ab alat useAlat cell n blocks file (scaled (if useAlat then alat else 1) (List.replicate n cell))
  | bohr (cs) : blocks.filterMap Block.cell? = cs → cs.length = n → FirstLine (Matches .cell) (UnitLine "CELL_PARAMETERS".toList) file (some "bohr".toList) →
      PwCells num ab alat useAlat cell n blocks file cs
  | angstrom (cs) : blocks.filterMap Block.cell? = cs → cs.length = n →
      FirstLine (Matches .cell) (UnitLine "CELL_PARAMETERS".toList) file (some "angstrom".toList) →
      PwCells num ab alat useAlat cell n blocks file (scaled ab cs)
  | alat (cs u) : blocks.filterMap Block.cell? = cs → cs.length = n → FirstLine (Matches .cell) (UnitLine "CELL_PARAMETERS".toList) file u →
      u = none ∨ u = some "alat".toList → (∀ l ∈ file, ¬ FactorLike l) →
      PwCells num ab alat useAlat cell n blocks file (scaled (if useAlat then alat else 1) cs)
  | factors (cs fs) : blocks.filterMap Block.cell? = cs → cs.length = n → FirstLine (Matches .cell) (UnitLine "CELL_PARAMETERS".toList) file (some "alat".toList) →
      Interleaved (FactorLine num) (fun l => ¬ CellLike l) file fs →
      PwCells num ab alat useAlat cell n blocks file
        (if useAlat then List.zipWith (fun (s : K) m => m.map fun r => r.map fun x => x * s) fs cs else cs)

end Pwtools.Spec
