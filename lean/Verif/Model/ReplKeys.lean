import Verif.Model.Batch
/-!
# Model of `batch.default_repl_keys` (`src/pwtools/batch.py`)
-/
namespace Pwtools.ReplKeys
variable {R : Type}

/-- The machine in `batch.py:718-720`; its job template has the text of the file written in line 717. -/
def dummyMachine : Machine :=
  ⟨"foo".toList, none, none, none, some ⟨"foo.job".toList, "dummy job template, go away!".toList, none, defaultFunc⟩⟩

/-- The study in `batch.py:722-724`. -/
def dummyStudy : Study R :=
  ⟨[dummyMachine], [], [[.leaf (natEntry "dummy".toList 1)]], "calc".toList, "calc".toList⟩

/-- A new directory made by `tempfile.mkdtemp()`: no database, no calculations. The template file `foo.job` in it is part of the machine. -/
def emptyWorld : World R := ⟨none, fun _ => none, fun _ => none, none, [], []⟩

/-- `db_keys.pop(db_keys.index(kk))` in a loop, `batch.py:728-729`; `none` is the `ValueError` for a missing key. -/
def popAll (l : List Text) : List Text → Option (List Text)
  | [] => some l
  | k :: ks => if k ∈ l then popAll (l.erase k) ks else none

/-- `batch.default_repl_keys`, `batch.py:697-734`: the lists under 'ParameterStudy' and 'Machine'; `none` for exceptions. The temporary directory is not part of
the result. -/
def defaultReplKeys (conv : Text → SqlVal R → SqlVal R) : Option (List Text × List Text) :=
  match writeInput conv (dummyStudy : Study R) ⟨false, true, true⟩ emptyWorld with
  | (_, some _) => none
  | (w, none) => match w.saved with
    | none => none
    | some tabs => match tabs "calc".toList with
      | none => none
      | some t => match popAll (t.header.map Prod.fst) ["dummy".toList, "hostname".toList] with
        | none => none
        | some keys => some (keys, (machineRecord dummyMachine : List (Text × Entry R)).map Prod.fst)

end Pwtools.ReplKeys
