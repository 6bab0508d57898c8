import Verif.Model.DcdRead
import Verif.Spec.Cp2kRead
import Verif.Spec.LammpsRead
import Verif.Spec.Dcd
/-!
# Specification for C135: runs with a dcd file
-/
namespace Pwtools.Spec
variable {K : Type}

/-- `file` is a complete dcd file with these frames of `natoms` atoms. -/
def IsDcd (natoms : Nat) (frames : List Spec.Dcd.Frame) (file : Spec.Dcd.Bytes) : Prop :=
  ∃ word nstep other title, word.length = 4 ∧ other.length = 76 ∧ title.length = 164 ∧ natoms < 2 ^ 31 ∧ (∀ f ∈ frames, f.WF natoms) ∧
    file = Spec.Dcd.file word nstep other title natoms frames

/-- The coordinates of the frames, times a factor: frame, atom, direction. -/
def dcdCoords [Mul K] (f4 : Spec.Dcd.Bytes → K) (fac : K) (frames : List Spec.Dcd.Frame) : List (List (List K)) :=
  frames.map fun f => f.atoms.map fun p => [f4 p.1 * fac, f4 p.2.1 * fac, f4 p.2.2 * fac]

/-- Lattice constants of the frames: lengths times a factor, and angles; `angle` is how an angle is found from the number in the file. -/
def dcdConst [Mul K] (f8 : Spec.Dcd.Bytes → K) (angle : K → K) (fac : K) (frames : List Spec.Dcd.Frame) : List (List K) :=
  frames.map fun f => [f8 f.a * fac, f8 f.b * fac, f8 f.c * fac, angle (f8 f.alpha), angle (f8 f.beta), angle (f8 f.gamma)]

/-- The text files of a CP2K run, without its file of cells, which may hold anything. -/
def noCells (fs : Cp2kRead.Files) : Cp2kRead.Files := { fs with cell := none }

/-- The symbols in a LAMMPS run with a dcd file: there may be a dump file, too (`LmpSymbols`). -/
inductive DcdSymbols [Field K] [LinearOrder K] (num : Text → Option K) (junk : K) (toInt : K → Int) (na : Nat) (order : Option (List (Text × Int)))
    (fs : LmpRead.Files) : Option (List Text) → Prop
  | file {t : Text} : fs.symbols = some t → DcdSymbols num junk toInt na order fs (some (splitWs t))
  | dump {cols dump : List Text} {boxes : List (Box K)} {frames : List (Frame K)} {syms : Option (List Text)} : fs.dump = some dump →
      IsDump num cols na boxes frames dump → LmpSymbols junk toInt cols (frames.head?.elim [] Frame.rows) order fs syms →
      DcdSymbols num junk toInt na order fs syms
  | none : fs.symbols = none → fs.dump = none → DcdSymbols num junk toInt na order fs none

/-- The frame has the lattice constants of the box: lengths of the cell vectors, and cosines of the angles between them. -/
structure SameCell (f8 : Spec.Dcd.Bytes → ℝ) (b : Box ℝ) (f : Spec.Dcd.Frame) : Prop where
  pos : b.xlo < b.xhi ∧ b.ylo < b.yhi ∧ b.zlo < b.zhi
  len : 0 < f8 f.a ∧ 0 < f8 f.b ∧ 0 < f8 f.c
  la : f8 f.a ^ 2 = (b.xhi - b.xlo) ^ 2
  lb : f8 f.b ^ 2 = b.xy ^ 2 + (b.yhi - b.ylo) ^ 2
  lc : f8 f.c ^ 2 = b.xz ^ 2 + b.yz ^ 2 + (b.zhi - b.zlo) ^ 2
  alpha : f8 f.b * f8 f.c * f8 f.alpha = b.xy * b.xz + (b.yhi - b.ylo) * b.yz
  beta : f8 f.a * f8 f.c * f8 f.beta = (b.xhi - b.xlo) * b.xz
  gamma : f8 f.a * f8 f.b * f8 f.gamma = (b.xhi - b.xlo) * b.xy

/-- Degrees from a cosine. -/
noncomputable def degrees (x : ℝ) : ℝ := Real.arccos x * 180 / Real.pi

end Pwtools.Spec
