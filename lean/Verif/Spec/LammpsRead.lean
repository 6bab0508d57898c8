import Verif.Model.LammpsRead
import Verif.Spec.Lammps
import Verif.Spec.PwRead
import Verif.Spec.PwMd
/-!
# Specification for C130: the files of a LAMMPS run
-/
namespace Pwtools.Spec
variable {K : Type}

/-- `file` is a dump file with at least one frame of `na` atoms, triclinic boxes `boxes`, and columns `cols`. -/
structure IsDump [Field K] [LinearOrder K] (num : Text → Option K) (cols : List Text) (na : Nat) (boxes : List (Box K)) (frames : List (Frame K))
    (file : List Text) : Prop where
  text : ∃ t, ColsText t cols ∧ file = frames.flatMap (Frame.lines na t)
  names : cols.Nodup
  ne : frames ≠ []
  atoms : 0 < na
  wf : ∀ f ∈ frames, f.Wf num na cols.length 3
  box : List.Forall₂ (fun b f => b.Rows (f.box.map Prod.snd)) boxes frames

/-- `file` is a log file with columns `cols`: one table per `run` command, `runs` are the rows of numbers. -/
structure IsLog (num : Text → Option K) (cols : List Text) (runs : List (List (List K))) (file : List Text) : Prop where
  text : ∃ (pre : List Text) (rs : List (LogRun K)), file = pre ++ rs.flatMap LogRun.lines ∧ (∀ l ∈ pre, ¬ Has "Step".toList l) ∧ rs ≠ [] ∧
    (∀ r ∈ rs, r.Wf num cols.length) ∧ (∀ r ∈ rs, splitWs ("Step".toList ++ r.header) = cols) ∧
    rs.map (fun r => r.rows.map Prod.snd) = runs
  names : cols.Nodup
  two : 2 ≤ cols.length
  ne : runs.flatten ≠ []

/-- `... timestep <x>`. -/
def LmpTimeLine (num : Text → Option K) (l : Text) (x : K) : Prop :=
  ∃ p s w t, l = p ++ "timestep ".toList ++ (s ++ w ++ t) ∧ BlankText s ∧ WordText w ∧ BlankText t ∧ ¬ Has "step ".toList (s ++ w ++ t) ∧ num w = some x

/-- `... dump_modify ... element <names>`. -/
def ElementLike (l : Text) : Prop := ∃ a b c, l = a ++ "dump_modify".toList ++ b ++ "element".toList ++ c

def ElementLine (l : Text) (names : List Text) : Prop :=
  ∃ a b c, l = a ++ "dump_modify".toList ++ b ++ "element ".toList ++ c ∧ ¬ Has "ment ".toList c ∧ splitWs c = names

/-- Where the symbols come from: the file of symbols; else, if the dump file has a column `type`, the keyword `order`; else the line `dump_modify`. -/
inductive LmpSymbols (junk : K) (toInt : K → Int) (cols : List Text) (rows : List (Text × List K)) (order : Option (List (Text × Int)))
    (fs : LmpRead.Files) : Option (List Text) → Prop
  | file {t : Text} : fs.symbols = some t → LmpSymbols junk toInt cols rows order fs (some (splitWs t))
  | order {o : List (Text × Int)} {syms : List Text} : fs.symbols = none → order = some o → (o.map Prod.snd).Nodup → "type".toList ∈ cols →
      List.Forall₂ (fun r s => (s, toInt (named junk cols r.2 "type".toList)) ∈ o) rows syms → LmpSymbols junk toInt cols rows order fs (some syms)
  | element {names syms : List Text} : fs.symbols = none → order = none → "type".toList ∈ cols → FirstLine ElementLike ElementLine fs.log names →
      List.Forall₂ (fun r s => ∃ i : Nat, toInt (named junk cols r.2 "type".toList) = (i : Int) + 1 ∧ names[i]? = some s) rows syms →
      LmpSymbols junk toInt cols rows order fs (some syms)
  | noType : fs.symbols = none → "type".toList ∉ cols → LmpSymbols junk toInt cols rows order fs none

/-- The array of the columns with these names: frame, atom, direction. -/
def dumped (junk : K) (cols : List Text) (frames : List (Frame K)) (x y z : String) : List (List (List K)) :=
  frames.map fun f => f.rows.map fun r => [named junk cols r.2 x.toList, named junk cols r.2 y.toList, named junk cols r.2 z.toList]

/-- The symmetric tensor of the columns `Pxx`, ... -/
def pressure (junk : K) (cols : List Text) (r : List K) : List (List K) :=
  let v := fun (name : String) => named junk cols r name.toList
  [[v "Pxx", v "Pxy", v "Pxz"], [v "Pxy", v "Pyy", v "Pyz"], [v "Pxz", v "Pyz", v "Pzz"]]

/-- The names are columns. -/
abbrev AllIn (names : List String) (cols : List Text) : Prop := ∀ k ∈ names, k.toList ∈ cols

/-- A step of a run: what the log and what the dump file say. -/
structure LmpStep (K : Type) where
  thermo : List K
  box : Box K
  frame : Frame K

end Pwtools.Spec
