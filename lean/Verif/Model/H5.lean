import Verif.Model.Common
import Mathlib.Data.List.Infix
/-!
# Model of `write_h5`, `read_h5` in `src/pwtools/io.py`

h5py and HDF5 themselves are modelled from their documentation: a file is a tree of groups and datasets, assigning to a
name creates the missing groups and refuses existing names. Names with a component `.` are not modelled. A file left
open by an exception is closed with the content it has at that point.
-/
namespace Pwtools.H5

abbrev Path := List Text

/-- An object in a file: a group or a dataset with content. -/
inductive Node (D : Type) where
  | group
  | dset (d : D)

/-- The objects below the root group, in order of creation. -/
abbrev File (D : Type) := List (Path × Node D)

/-- The components of an HDF5 name: empty ones do not count. -/
def comps (key : Text) : Path := (splitSepAux '/' [] [] key).filter fun c => !c.isEmpty

variable {D V : Type}

/-- The object at a path. -/
def find (f : File D) (p : Path) : Option (Node D) := (f.find? fun q => q.1 == p).map Prod.snd

/-- The missing groups on the way to a path. -/
def newGroups (f : File D) (p : Path) : File D :=
  ((p.inits.filter fun q => !q.isEmpty && q != p && (find f q).isNone)).map fun q => (q, .group)

/-- Is a dataset in the way? -/
def blocked (f : File D) (p : Path) : Bool :=
  p.inits.any fun q => q != p && match find f q with
    | some (.dset _) => true
    | _ => false

/-- `fh[key] = val` in h5py, used at `io.py:282`. `store` turns a value into the content of a dataset, or refuses it. -/
def setItem (store : V → Option D) (f : File D) (key : Text) (v : V) : Option (File D) :=
  let p := comps key
  match store v with
  | none => none
  | some d =>
    if p = [] then none
    else if (find f p).isSome then none
    else if blocked f p then none
    else some (f ++ newGroups f p ++ [(p, .dset d)])

/-- The loop over the dict, `io.py:281-282`: the content of the file afterwards, and whether there was no exception. -/
def setItems (store : V → Option D) (f : File D) : List (Text × V) → File D × Bool
  | [] => (f, true)
  | (k, v) :: rest =>
    match setItem store f k v with
    | none => (f, false)
    | some f' => setItems store f' rest

/-- The modes of `h5py.File`. -/
inductive Mode where
  | a | w | r | rplus | x
deriving DecidableEq

/-- `h5py.File(fn, mode=mode)`: the opened content (`none`: refused). -/
def openFile (fs : Option (File D)) : Mode → Option (File D)
  | .a => some (fs.getD [])
  | .w => some []
  | .r => fs
  | .rplus => fs
  | .x => match fs with
    | none => some []
    | some _ => none

/-- `write_h5(fn, dct, mode=mode)`, `io.py:251-283` (default mode `'a'`, `io.py:279`): the file afterwards, and whether there was no
exception. In mode `'r'` any assignment is refused. -/
def writeH5 (store : V → Option D) (fs : Option (File D)) (mode : Option Mode) (dct : List (Text × V)) : Option (File D) × Bool :=
  let mode := mode.getD .a
  match openFile fs mode with
  | none => (fs, false)
  | some f =>
    if mode = .r then (fs, dct.isEmpty)
    else
      let r := setItems store f dct
      (some r.1, r.2)

/-- `read_h5`, `io.py:286-311`: the names and values of all datasets (`none`: no such file). `load` is `obj[()]` with the conversion of
bytes to text. `visititems` passes names without a leading slash. -/
def readH5 (load : D → V) (fs : Option (File D)) : Option (List (Text × V)) :=
  fs.map fun f => f.filterMap fun q => match q.2 with
    | .group => none
    | .dset d =>
      let name := joinSep ['/'] q.1
      some (if ['/'].isPrefixOf name then name else '/' :: name, load d)

end Pwtools.H5
