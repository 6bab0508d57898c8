import Verif.Model.Common
/-!
# Model of the CIF reader and writer: `parse.CifFile`, `io.write_cif`

PyCifRW, which turns a file into a data block and back, is not part of the model: a block is a list of items, each with a text or a list of texts
(columns of a `loop_`). `num` is Python's `float(text)`, `none` for `ValueError`.
-/
namespace Pwtools.Cif

/-- `KeyError`, `ValueError` of `float`, `AttributeError` (`None.group`). -/
inductive CErr where
  | keyError | valueError | attributeError
  deriving DecidableEq, Repr

/-- Value of an item. -/
inductive Item where
  | str (t : Text)
  | list (ts : List Text)
  deriving DecidableEq, Repr

/-- A data block. -/
abbrev Block := List (Text × Item)

/-- `block[key]`. -/
def get (b : Block) (key : String) : Option Item := (b.find? fun e => decide (e.1 = key.toList)).map Prod.snd

/-- The elements Python's `zip` or `map` sees: a text gives its characters. -/
def Item.iter : Item → List Text
  | .str t => t.map fun c => [c]
  | .list ts => ts

/-- The characters of `regex.float_re`, `regex.py:13`; a leading sign is one of them. -/
def floatChar (c : Char) : Bool := c.isDigit || c = '.' || c = 'e' || c = 'E' || c = 'd' || c = 'D' || c = '+' || c = '-'

/-- `cif_str2float`, `parse.py:352-356`. `re.match('(' + float_re + r')(\(.*)', st)`: the characters of `float_re` as far as possible, at least
one; the next character is `(`, which is not one of them, so that no shorter match is possible. -/
def str2float {R : Type} (num : Text → Option R) (st : Text) : Except CErr R :=
  if '(' ∈ st then
    let head := st.takeWhile floatChar
    if head ≠ [] ∧ (st.drop head.length).head? = some '(' then
      match num head with
      | some x => .ok x
      | none => .error .valueError
    else .error .attributeError
  else
    match num st with
    | some x => .ok x
    | none => .error .valueError

/-- `[a-zA-Z]`. -/
def asciiLetter (c : Char) : Bool := (decide ('a' ≤ c) && decide (c ≤ 'z')) || (decide ('A' ≤ c) && decide (c ≤ 'Z'))

/-- `cif_clear_atom_symbol`, `parse.py:358-366`. -/
def clearSymbol (st : Text) : Except CErr Text :=
  let head := st.takeWhile asciiLetter
  if head ≠ [] then .ok head else .error .attributeError

/-- `cif_str2float(block[key])` for a single value. A list (`'(' in st` is then a test of membership, `float(list)` a `TypeError`) is left out:
`valueError`. -/
def single {R : Type} (num : Text → Option R) (b : Block) (key : String) : Except CErr R :=
  match get b key with
  | none => .error .keyError
  | some (.list _) => .error .valueError
  | some (.str t) => str2float num t

/-- `get_cryst_const`, `parse.py:368-381`, `425-428`. -/
def crystConst {R : Type} (num : Text → Option R) (b : Block) : Except CErr (List R) :=
  ["_cell_length_a", "_cell_length_b", "_cell_length_c", "_cell_angle_alpha", "_cell_angle_beta", "_cell_angle_gamma"].mapM (single num b)

/-- `zip` of three sequences. -/
def zip3 {α : Type} : List α → List α → List α → List (α × α × α)
  | a :: as, b :: bs, c :: cs => (a, b, c) :: zip3 as bs cs
  | _, _, _ => []

/-- `get_coords_frac`, `get_coords`, `parse.py:391-415`; `pre` is `_atom_site_fract_` or `_atom_site_Cartn_`. -/
def coordsOf {R : Type} (num : Text → Option R) (pre : String) (b : Block) : Except CErr (Option (List (List R))) :=
  match get b (pre ++ "x") with
  | none => .ok none
  | some xs => do
    let ys ← ((get b (pre ++ "y")).elim (.error .keyError) .ok : Except CErr Item)
    let zs ← ((get b (pre ++ "z")).elim (.error .keyError) .ok : Except CErr Item)
    let rows ← (zip3 xs.iter ys.iter zs.iter).mapM fun (x, y, z) => [x, y, z].mapM (str2float num)
    pure (some rows)

/-- `get_symbols`, `parse.py:417-423`. -/
def symbols (b : Block) : Except CErr (Option (List Text)) :=
  match get b "_atom_site_type_symbol" with
  | some it => (it.iter.mapM clearSymbol).map some
  | none => match get b "_atom_site_label" with
    | some it => (it.iter.mapM clearSymbol).map some
    | none => .ok none

/-- `write_cif`, `io.py:105-150`: the block which is written. `fmt` is `"%.16e" % x`. -/
def writeBlock {R : Type} (fmt : R → Text) (cc : List R) (syms : List Text) (frac : List (List R)) (zero : R) : Block :=
  [("_cell_length_a".toList, .str (fmt (cc.getD 0 zero))), ("_cell_length_b".toList, .str (fmt (cc.getD 1 zero))),
   ("_cell_length_c".toList, .str (fmt (cc.getD 2 zero))), ("_cell_angle_alpha".toList, .str (fmt (cc.getD 3 zero))),
   ("_cell_angle_beta".toList, .str (fmt (cc.getD 4 zero))), ("_cell_angle_gamma".toList, .str (fmt (cc.getD 5 zero))),
   ("_symmetry_space_group_name_H-M".toList, .str "P 1".toList), ("_symmetry_Int_Tables_number".toList, .str "1".toList),
   ("_symmetry_equiv_pos_as_xyz".toList, .list ["x,y,z".toList]),
   ("_atom_site_label".toList, .list syms),
   ("_atom_site_fract_x".toList, .list (frac.map fun r => fmt (r.getD 0 zero))),
   ("_atom_site_fract_y".toList, .list (frac.map fun r => fmt (r.getD 1 zero))),
   ("_atom_site_fract_z".toList, .list (frac.map fun r => fmt (r.getD 2 zero))),
   ("_atom_site_type_symbol".toList, .list syms)]

end Pwtools.Cif
