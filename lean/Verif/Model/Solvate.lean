/-!
# Model of `bin/solvate.sh`

The directory is a function from names to contents. `gmx insert-molecules`, `pdb2cif.py` and `cif2any.py` are parameters:
`gmx` is given the options, the content of the file of `-f` and that of the file of `-ci`, and returns the content of
the file of `-o` or `none` (an error; it does not write the file then). Simplifications: no argument contains
white space or characters special to the shell, and the first does not begin with `-`; the backups which gmx makes
of its output file (names `#...#`, deleted by the next run) are not modelled, nor is the text of the log file.
-/
namespace Pwtools.Solv

/-- File names and arguments of `bin/solvate.sh`. -/
abbrev Name := List Char

/-- The working directory of `bin/solvate.sh:44-81`. -/
abbrev Dir (C : Type) := Name → Option C

variable {C : Type}

/-- Write (`bin/solvate.sh:54, 77`) or (`none`) remove a file. -/
def Dir.set (d : Dir C) (f : Name) (c : Option C) : Dir C := fun g => if g = f then c else d g

/-- `grep -q` for a fixed text (`bin/solvate.sh:45, 50`): it occurs somewhere. -/
def hasSub (p : List Char) : List Char → Bool
  | [] => p.isEmpty
  | c :: s => p.isPrefixOf (c :: s) || hasSub p s

/-- `echo "$@"` (`bin/solvate.sh:45, 50`). -/
def joinArgs : List Name → List Char
  | [] => []
  | [a] => a
  | a :: as => a ++ ' ' :: joinArgs as

/-- `${1/p/}` (`bin/solvate.sh:64`): the first occurrence is removed. -/
def removeFirst (p : List Char) : List Char → List Char
  | [] => []
  | c :: s => if p.isPrefixOf (c :: s) then (c :: s).drop p.length else c :: removeFirst p s

/-- Names which match `*.log` or `\#*` (`bin/solvate.sh:62`): `*` does not match a dot at the beginning. -/
def isRemoved (f : Name) : Bool :=
  (".log".toList.isSuffixOf f && !".".toList.isPrefixOf f) || "#".toList.isPrefixOf f

/-- The file after the first `-ci` of the options of gmx (`bin/solvate.sh:74`). -/
def ciFile : List Name → Option Name
  | [] => none
  | [_] => none
  | o :: f :: l => if o = "-ci".toList then some f else ciFile (f :: l)

/-- The programs called (`bin/solvate.sh:74-77`) and the text of `bin/solvate.sh:54-59`. -/
structure Progs (C : Type) where
  gmx : List Name → Option C → Option C → Option C
  pdb2cif : C → Option C
  cif2any : C → Option C
  /-- the water molecule in the script -/
  water : C
  /-- an empty file -/
  empty : C
  /-- the log file, whatever is in it -/
  log : C

/-- How the script ends (`bin/solvate.sh:44, 47, 81`). -/
inductive End | noArgs | usage | done
deriving DecidableEq

/-- `bin/solvate.sh:44-81`; the two `grep`s at the end only print. -/
def solvate (P : Progs C) (args : List Name) (d : Dir C) : End × Dir C :=
  match args with
  | [] => (.noArgs, d)
  | a :: opts =>
    -- grep -E '-h|--help'
    if hasSub "-h".toList (joinArgs (a :: opts)) || hasSub "--help".toList (joinArgs (a :: opts)) then (.usage, d)
    else
      let given := hasSub "-ci ".toList (joinArgs (a :: opts))
      let d := if given then d else d.set "water.pdb".toList (some P.water)
      let opts := if given then opts else opts ++ ["-ci".toList, "water.pdb".toList]
      -- rm -f *.log \#*
      let d : Dir C := fun f => if isRemoved f then none else d f
      let name := removeFirst ".pdb".toList a
      let start := name ++ ".pdb".toList
      let outGmx := name ++ "_gmx.pdb".toList
      let outCif := name ++ "_gmx.cif".toList
      -- >> $logfile
      let d := d.set "solvate.sh.log".toList (some P.log)
      let d := match P.gmx opts (d start) ((ciFile opts).bind d) with
        | some c => d.set outGmx (some c)
        | none => d
      let d := match (d outGmx).bind P.pdb2cif with
        | some c => d.set outCif (some c)
        | none => d
      -- > $out_cif.txt
      let d := match (d outCif).bind P.cif2any with
        | some c => d.set (outCif ++ ".txt".toList) (some c)
        | none => d.set (outCif ++ ".txt".toList) (some P.empty)
      -- rm -f \#*
      (.done, fun f => if "#".toList.isPrefixOf f then none else d f)

end Pwtools.Solv
