import Verif.Model.Getters
/-!
# Model of `FlexibleGetters.dump`, `FlexibleGetters.load` and `io.read_pickle`

`pickle` is a pair of parameters: `dumps` (`none`: an object which cannot be pickled, for instance one with an open
file) and `loads` (`none`: an exception). Paths are lists of names, relative to the working directory, which is `[]`.
Writes are single bytes in order: each place where buffers can be written out is between two of them. Permissions and
full disks are not modelled.
-/
namespace Pwtools.Dump

/-- Directories and files. -/
structure Disk where
  dir : List String → Bool
  file : List String → Option (List Nat)

/-- What a call does to the disk, in order. -/
inductive Ev where
  | mkdir (d : List String)
  | trunc (p : List String)
  | put (p : List String) (b : Nat)

/-- One change of the disk. -/
def Disk.step (s : Disk) : Ev → Disk
  | .mkdir d => { s with dir := fun q => if q = d then true else s.dir q }
  | .trunc p => { s with file := fun q => if q = p then some [] else s.file q }
  | .put p b => { s with file := fun q => if q = p then (s.file q).map (· ++ [b]) else s.file q }

/-- Changes in order. -/
def Disk.run (s : Disk) (evs : List Ev) : Disk := evs.foldl Disk.step s

/-- The working directory always exists. -/
def Disk.isDir (s : Disk) (d : List String) : Bool := d.isEmpty || s.dir d

/-- `a`, `a/b`, ... for `a/b/...`. -/
def ancestors (d : List String) : List (List String) := (List.range d.length).map (fun i => d.take (i + 1))

/-- `os.makedirs(path, exist_ok=True)` in `common.makedirs`, `common.py:321-331`; `false`: a file is in the way. -/
def makedirs (s : Disk) : List (List String) → List Ev × Bool
  | [] => ([], true)
  | d :: ds =>
    if (s.file d).isSome then ([], false)
    else
      let r := makedirs s ds
      if s.dir d then r else (.mkdir d :: r.1, r.2)

/-- An object: its class and `__dict__`. -/
structure Obj (V : Type) where
  cls : String
  attrs : String → Option V

variable {V : Type}

/-- `dump`, `base.py:156-165`: `makedirs` of the directory of the file, `open(..., 'wb')`, `pickle.dump`. The second
result is `false` for an exception. -/
def dump (dumps : Obj V → Option (List Nat)) (s : Disk) (o : Obj V) (p : List String) (mkdir : Bool) : List Ev × Bool :=
  let dr := p.dropLast
  let m := if mkdir && !dr.isEmpty then makedirs s (ancestors dr) else ([], true)
  if !m.2 then (m.1, false)
  else
    let s1 := s.run m.1
    if p.isEmpty || s1.dir p || !s1.isDir dr then (m.1, false)
    else
      match dumps o with
      | none => (m.1 ++ [.trunc p], false)
      | some b => (m.1 ++ [.trunc p] ++ b.map (.put p), true)

/-- `io.read_pickle`, `io.py:321-324`, and `common.cpickle_load`, `common.py:724-729`. -/
def readPickle (loads : List Nat → Option (Obj V)) (s : Disk) (p : List String) : Option (Obj V) := (s.file p).bind loads

/-- `load`, `base.py:167-188`: `self.__dict__.update(pickle.load(...).__dict__)`. -/
def load (loads : List Nat → Option (Obj V)) (s : Disk) (p : List String) (self : Obj V) : Option (Obj V) :=
  (readPickle loads s p).map (fun o => { self with attrs := fun a => match o.attrs a with | some v => some v | none => self.attrs a })

/-- Calls of `dump` one after the other, exceptions caught by the caller. -/
def dumpAll (dumps : Obj V → Option (List Nat)) (s : Disk) : List (Obj V × List String × Bool) → Disk
  | [] => s
  | (o, p, mk) :: h => dumpAll dumps (s.run (dump dumps s o p mk).1) h

/-- The object as `FlexibleGetters` sees it (`base.py:190-231`): `isNone` tells the value `None`. -/
def Obj.state (o : Obj V) (isNone : V → Bool) : GSt String V :=
  { attr := fun a => (o.attrs a).bind (fun v => if isNone v then none else some v), log := [] }

end Pwtools.Dump
