import Verif.Model.Common
/-!
# The header of text files with arrays: `arrayio._write_header_config`, `_read_header_config`

A file is the list of its lines without newlines. The comment sign is one character. `configparser.ConfigParser` (standard library) is written
out as far as it matters here: sections in brackets, options `key = value`, option names in lower case, errors for duplicates. Simplified: no
values over several lines, no interpolation (`%`), no section `DEFAULT`.
-/
namespace Pwtools.Hdr

/-- Exceptions of `ConfigParser` and of `arrayio.py`. -/
inductive HErr where
  | maxlines | missingSection | dupSection | dupOption | parsing | noSection | noOption | value
  deriving DecidableEq, Repr

/-- `str.lstrip()` -/
def lstrip (t : Text) : Text := t.dropWhile isPySpace
/-- `str.rstrip()` -/
def rstrip (t : Text) : Text := (t.reverse.dropWhile isPySpace).reverse
/-- `str.strip()` -/
def strip (t : Text) : Text := rstrip (lstrip t)

/-- A config: sections with options, in order. -/
abbrev Cfg := List (Text × List (Text × Text))

/-- `ConfigParser.write`: the lines of a section. -/
def sectionLines (s : Text × List (Text × Text)) : List Text :=
  ('[' :: s.1 ++ [']']) :: (s.2.map fun o => o.1 ++ " = ".toList ++ o.2) ++ [[]]

/-- `ConfigParser.write`. -/
def configLines (cfg : Cfg) : List Text := cfg.flatMap sectionLines

/-- The section of a line, regular expression `\[(?P<header>.+)\]`. -/
def sectName (line : Text) : Option Text :=
  match line with
  | '[' :: r =>
    let h := ((r.reverse.dropWhile (· ≠ ']')).drop 1).reverse
    if h = [] then none else some h
  | _ => none

/-- The option in a line: name up to the first `=` or `:`, and value. -/
def optOf (line : Text) : Option (Text × Text) :=
  let isDelim : Char → Bool := fun c => c == '=' || c == ':'
  let key := (rstrip (line.takeWhile fun c => !isDelim c)).map Char.toLower
  match line.dropWhile fun c => !isDelim c with
  | [] => none
  | _ :: v => if key = [] then none else some (key, strip v)

/-- `ConfigParser._read`, one line (without surrounding blanks). -/
def readLine (st : Cfg) (line : Text) : Except HErr Cfg :=
  match line with
  | [] => .ok st
  | c :: _ =>
    if c = '#' ∨ c = ';' then .ok st
    else match sectName line with
      | some s => if s ∈ st.map Prod.fst then .error .dupSection else .ok (st ++ [(s, [])])
      | none =>
        match st.getLast? with
        | none => .error .missingSection
        | some (s, opts) =>
          match optOf line with
          | none => .error .parsing
          | some (k, v) => if k ∈ opts.map Prod.fst then .error .dupOption else .ok (st.dropLast ++ [(s, opts ++ [(k, v)])])

/-- `ConfigParser.read_file`. -/
def parseConfig (lines : List Text) : Except HErr Cfg := lines.foldlM readLine []

/-- `c.get(sec, key)`. -/
def getOpt (cfg : Cfg) (sec key : Text) : Except HErr Text :=
  match cfg.find? fun s => decide (s.1 = sec) with
  | none => .error .noSection
  | some s =>
    match s.2.find? fun o => decide (o.1 = key) with
    | none => .error .noOption
    | some o => .ok o.2

/-- `_write_header_config`, `arrayio.py:73-90`: the lines which are written. -/
def writeHeader (maxl : Nat) (com : Char) (cfg : Cfg) : Except HErr (List Text) :=
  if (configLines cfg).length ≤ maxl then .ok ((configLines cfg).map fun l => com :: ' ' :: l) else .error .maxlines

/-- `_read_header_config`, `arrayio.py:47-54`: the text of a line of the header without comment signs, if it is one. -/
def headLine (com : Char) (line : Text) : Option Text :=
  if (strip line).head? = some com then some (strip ((strip line).filter (· ≠ com))) else none

/-- `_read_header_config`, `arrayio.py:17-67`. -/
def readHeader (maxl : Nat) (com : Char) (lines : List Text) : Except HErr Cfg :=
  if (lines[maxl]?.any fun l => decide ((strip l).head? = some com)) then .error .maxlines
  else parseConfig ((lines.take maxl).filterMap (headLine com))

/-- The header which `writetxt` writes, `arrayio.py:113-119`. -/
def arrayCfg (shape : List Int) (axis : Int) : Cfg :=
  [("array".toList, [("shape".toList, seq2str shape strInt), ("axis".toList, strInt axis)])]

/-- `shape` and `axis` of the header as `readtxt` gets them, `arrayio.py:168-174`; the header is always read with the default comment sign and
number of lines. -/
def readShapeAxis (lines : List Text) : Except HErr (List Int × Int) :=
  match readHeader 20 '#' lines with
  | .error e => .error e
  | .ok cfg =>
    match getOpt cfg "array".toList "shape".toList with
    | .error e => .error e
    | .ok s =>
      match str2seq s parseInt with
      | none => .error .value
      | some shape =>
        match getOpt cfg "array".toList "axis".toList with
        | .error e => .error e
        | .ok a =>
          match parseInt (strip a) with
          | none => .error .value
          | some axis => .ok (shape, axis)

end Pwtools.Hdr
