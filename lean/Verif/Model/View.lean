import Mathlib.Logic.Function.Basic
/-!
# Model of `visualize.ViewFactory` (`src/pwtools/visualize.py`) and `common.system`

Opaque: the shell (a function from command line and files to files and exit code), the file writers of `io`, the random
part of temporary file names.
-/
namespace Pwtools.View

/-- Existing files and their contents. -/
abbrev FS := String → Option String

/-- What goes wrong. -/
inductive VErr where
  | assertion | notImplemented | calledProcess | fileNotFound | writer
  deriving DecidableEq, Repr

/-- A Structure or Trajectory as far as the viewer uses it; `data` is everything else. -/
structure VObj (D : Type) where
  isStruct : Bool
  symbols : Option (List String)
  natoms : Nat
  data : D

/-- The state of the process: files, number of open file descriptors, the object, and the commands executed so far with
the files that existed then. -/
structure St (D : Type) where
  fs : FS
  fds : Nat
  obj : VObj D
  cmds : List (String × FS)

/-- The outside world: the shell (files and exit code after a command line), names of new temporary files for given directory,
prefix and suffix (`none`: the directory does not exist), the writers' output (`none`: exception). -/
structure World (D : Type) where
  shell : String → FS → FS × Nat
  temp : FS → String → String → String → Option String
  write : VObj D → Option String

/-- `ViewFactory.__init__`, `visualize.py:44-74`; `assertStruct`: `assert_cmd` is `assert_struct` (`visualize.py:137-138`). The
writer is in `World`. -/
structure Viewer where
  cmd : String
  assertStruct : Bool
  suffix : String

variable {D : Type}

/-- `tempfile.mkstemp`: an empty new file and an open descriptor. -/
def mkstemp (w : World D) (s : St D) (dir pre suf : String) : St D × Except VErr String :=
  match w.temp s.fs dir pre suf with
  | none => (s, .error .fileNotFound)
  | some name => ({ s with fs := Function.update s.fs name (some ""), fds := s.fds + 1 }, .ok name)

/-- `common.system`, `common.py:656-669`. -/
def system (w : World D) (s : St D) (call : String) (wait : Bool) : St D × Option VErr :=
  if wait = false then (s, some .notImplemented)
  else
    let r := w.shell call s.fs
    ({ s with fs := r.1, cmds := s.cmds ++ [(call, s.fs)] }, if r.2 = 0 then none else some .calledProcess)

/-- `os.unlink`. -/
def unlink (s : St D) (name : String) : St D × Option VErr :=
  match s.fs name with
  | none => (s, some .fileNotFound)
  | some _ => ({ s with fs := Function.update s.fs name none }, none)

/-- `_set_dummy_symbols`, `visualize.py:131-134` (the message is not modelled). -/
def setDummy (o : VObj D) : VObj D :=
  match o.symbols with
  | none => { o with symbols := some (List.replicate o.natoms "H") }
  | some _ => o

/-- The arguments of `ViewFactory.__call__` with their defaults, `visualize.py:76-78`. -/
structure Args where
  logfile : Option String := none
  structfile : Option String := none
  disp : Bool := false
  keepfiles : Bool := false
  tmpdir : String := "/tmp"
  wait : Bool := true
  bg : Bool := false
  options : String := ""

/-- A name given by the user, or a new temporary file (`visualize.py:113-120`). -/
def nameOr (w : World D) (s : St D) (given : Option String) (dir pre suf : String) : St D × Except VErr String :=
  match given with
  | some n => (s, .ok n)
  | none => mkstemp w s dir pre suf

/-- The command line, `visualize.py:122-125`. -/
def cmdStr (v : Viewer) (options structfile logfile : String) (disp : Bool) : String :=
  if disp then v.cmd ++ " " ++ options ++ " " ++ structfile ++ " 2>&1 | tee " ++ logfile
  else v.cmd ++ " " ++ options ++ " " ++ structfile ++ " > " ++ logfile ++ " 2>&1"

/-- `ViewFactory.__call__` after the names of the files are known, `visualize.py:121-129`. -/
def callFiles (w : World D) (v : Viewer) (a : Args) (wait keepfiles : Bool) (s : St D) (structfile logfile : String) :
    St D × Option VErr :=
  match w.write s.obj with
  | none => (s, some .writer)
  | some text =>
    let s := { s with fs := Function.update s.fs structfile (some text) }
    match system w s (cmdStr v a.options structfile logfile a.disp) wait with
    | (s, some e) => (s, some e)
    | (s, none) =>
      if keepfiles then (s, none)
      else
        match unlink s structfile with
        | (s, some e) => (s, some e)
        | (s, none) => unlink s logfile

/-- `ViewFactory.__call__`, `visualize.py:76-129`. -/
def call (w : World D) (v : Viewer) (a : Args) (s : St D) : St D × Option VErr :=
  let wait := if a.bg then false else a.wait
  let keepfiles := if a.bg then true else a.keepfiles
  if v.assertStruct ∧ s.obj.isStruct = false then (s, some .assertion)
  else
    let s := { s with obj := setDummy s.obj }
    match nameOr w s a.structfile a.tmpdir "pwtools_view_struct_" v.suffix with
    | (s, .error e) => (s, some e)
    | (s, .ok structfile) =>
      match nameOr w s a.logfile a.tmpdir "pwtools_view_log_" "" with
      | (s, .error e) => (s, some e)
      | (s, .ok logfile) => callFiles w v a wait keepfiles s structfile logfile

/-- `view_xcrysden`, `visualize.py:141-144`. -/
def viewXcrysden : Viewer := ⟨"xcrysden --axsf", false, ".axsf"⟩
/-- `view_vmd_axsf`, `visualize.py:146-149`. -/
def viewVmdAxsf : Viewer := ⟨"vmd", false, ".axsf"⟩
/-- `view_vmd_xyz`, `visualize.py:151-154`. -/
def viewVmdXyz : Viewer := ⟨"vmd", false, ".xyz"⟩
/-- `view_jmol`, `visualize.py:156-160`. -/
def viewJmol : Viewer := ⟨"jmol", true, ".cif"⟩
/-- `view_avogadro`, `visualize.py:162-175`; the command is a shell function, here its name. -/
def viewAvogadro : Viewer := ⟨"__f ", true, ".cif"⟩

end Pwtools.View
