import Verif.Model.Regex
import Verif.Model.PwRead
/-!
# `io.read_pdb`: `parse.PDBFile` (`parse.py:491-535`)
-/
namespace Pwtools.Pdb
open Re Gr Tr Units PwRead

/-- `[a-zA-Z]`. -/
def letter (c : Char) : Bool := (decide ('a' ≤ c) && decide (c ≤ 'z')) || (decide ('A' ≤ c) && decide (c ≤ 'Z'))

/-- `[0-9]`. -/
def digit (c : Char) : Bool := decide ('0' ≤ c) && decide (c ≤ '9')

/-- `[+-]`. -/
def sign (c : Char) : Bool := decide (c = '+') || decide (c = '-')

/-- `[\.0-9eEdD+-]`. -/
def floatChar (c : Char) : Bool :=
  digit c || sign c || decide (c = '.') || decide (c = 'e') || decide (c = 'E') || decide (c = 'd') || decide (c = 'D')

/-- `regex.float_re`, `regex.py:13`. -/
def floatRe : Rx := .seq (.many 0 sign) (.many 1 floatChar)

/-- `(\s+float_re)`, group `n`. -/
def wordRe (n : Nat) : Rx := .grp n (.seq (.many 1 isPySpace) floatRe)

/-- The pattern of `_get_coords_data`, `parse.py:504-505`. -/
def atomRe : Rx :=
  .seq (.grp 1 (.alt (.lit "ATOM".toList) (.lit "HETATM".toList)))
    (.seq (.many 1 fun c => isPySpace c || digit c)
      (.seq (.grp 2 (.many 1 letter))
        (.seq (.many 0 fun c => isPySpace c || letter c || digit c)
          (.seq (.many 1 fun c => isPySpace c || digit c)
            (.grp 3 ((wordRe 4).rep 3))))))

/-- `_get_coords_data`, `parse.py:503-508`. -/
def coordsData (txt : Text) : List (Text × List Text) :=
  (atomRe.finditer txt).map fun g => ((group g 2).getD [], splitWs ((group g 3).getD []))

/-- One symbol, `parse.py:516-520`. `lower` on letters of ASCII. -/
def fixName (s : Text) : Text :=
  match s with
  | [a, b] => [a, b.toLower]
  | s => s

/-- `get_symbols`, `parse.py:510-521`. Without any atom the array has one axis, `[:,0]` raises. -/
def getSymbols (txt : Text) : Except PErr (List Text) :=
  match coordsData txt with
  | [] => .error .index
  | d => .ok (d.map fun x => fixName x.1)

/-- `get_coords`, `parse.py:523-526`. -/
def getCoords {K : Type} (num : Text → Option K) (txt : Text) : Except PErr (List (List K)) :=
  match coordsData txt with
  | [] => .error .index
  | d => match d.mapM fun x => x.2.mapM num with
    | some m => .ok m
    | none => .error .value

/-- `.*` of the pattern of `get_cryst_const`. -/
def notNewline (c : Char) : Bool := decide (c ≠ '\n')

/-- The pattern of `get_cryst_const`, `parse.py:533`. -/
def crystRe : Rx := .seq (.lit "CRYST1".toList) (.seq (.many 1 isPySpace) (.seq (.grp 1 ((wordRe 2).rep 6)) (.many 0 notNewline)))

/-- `get_cryst_const`, `parse.py:528-535`: `None.group` without a match. -/
def getCrystConst {K : Type} (num : Text → Option K) (txt : Text) : Except PErr (List K) :=
  match crystRe.search txt with
  | none => .error .attr
  | some g => match (splitWs ((group g 1).getD [])).mapM num with
    | some v => .ok v
    | none => .error .value

/-- `parse()` with the getters of `attr_lst`, `parse.py:494-498`, in this order. -/
def parse {K : Type} (num : Text → Option K) (txt : Text) : Except PErr ((UAttr → Option (Val K)) × Option (CC K)) :=
  (getCoords num txt).bind fun coords =>
  (getSymbols txt).bind fun symbols =>
  (getCrystConst num txt).bind fun cc =>
  .ok (fun
    | .coords => some (.mat coords)
    | .other n => if n = "symbols" then some (.words symbols) else none
    | _ => none, some (.one cc))

/-- `io.read_pdb(filename, units=user)`, `io.py:385-388`, which is `PDBFile(...).get_struct()`, after the parsers `hist` were created. -/
def readPdb {K : Type} [Field K] [DecidableEq K] (c : Consts K) (hist : List (Kind × UDict K)) (user : UDict K) (g : Getters K (Val K))
    (num : Text → Option K) (txt : Text) : Except (PErr ⊕ Err) (UObj K (Val K)) :=
  match parse num txt with
  | .error e => .error (.inl e)
  | .ok (attrs, cc) => match (Parser.init attrs cc (create c (after c hist) .pdb user).2).getCont g with
    | .error e => .error (.inr e)
    | .ok (st, _) => .ok st

end Pwtools.Pdb
