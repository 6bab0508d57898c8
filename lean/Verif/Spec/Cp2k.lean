import Verif.Model.Cp2k
/-!
# Specification: the extra files of a CP2K run
-/
namespace Pwtools.Spec
variable {K : Type}

/-- A text table: comment lines start with `#`; the other lines hold the numbers of one row each. -/
inductive IsTable (num : Text → Option K) : List Text → List (List K) → Prop
  | nil : IsTable num [] []
  | comment {l : Text} {ls : List Text} {rows : List (List K)} : IsTable num ls rows → IsTable num (('#' :: l) :: ls) rows
  | row {l : Text} {v : List K} {ls : List Text} {rows : List (List K)} : '#' ∉ l → (splitWs l).map num = v.map some →
      IsTable num ls rows → IsTable num (l :: ls) (v :: rows)

/-- A row of the file `PROJECT-1.ener`. -/
structure EnerRow (K : Type) where
  (step time ekin temp epot econst used : K)

def EnerRow.row (r : EnerRow K) : List K := [r.step, r.time, r.ekin, r.temp, r.epot, r.econst, r.used]

/-- A row of `PROJECT-1.cell`: step, time, the rows of the cell, the volume. -/
structure CellRow (K : Type) where
  (step time ax ay az bx byy bz cx cy cz volume : K)

def CellRow.row (r : CellRow K) : List K := [r.step, r.time, r.ax, r.ay, r.az, r.bx, r.byy, r.bz, r.cx, r.cy, r.cz, r.volume]
def CellRow.cell (r : CellRow K) : List (List K) := [[r.ax, r.ay, r.az], [r.bx, r.byy, r.bz], [r.cx, r.cy, r.cz]]

/-- A frame of an xyz file: the line with the number of atoms, the comment, the rows. -/
structure XyzFrame (K : Type) where
  count : Text
  comment : Text
  rows : List (Text × Text × List K)

def XyzFrame.lines (f : XyzFrame K) : List Text := f.count :: f.comment :: f.rows.map Prod.fst

/-- Well-formed: the count line is the right-aligned number of atoms; the comment `... i = ... E = ...`; a row is a symbol and three numbers. -/
structure XyzFrame.Wf (num : Text → Option K) (na : Nat) (f : XyzFrame K) : Prop where
  count : ∃ n, f.count = List.replicate (n + 1) ' ' ++ strNat na
  comment : ∃ a b c, f.comment = a ++ "i = ".toList ++ b ++ "E =".toList ++ c
  nrows : f.rows.length = na
  rows : ∀ r ∈ f.rows, '=' ∉ r.1 ∧ (∀ n d t, r.1 = List.replicate (n + 1) ' ' ++ d :: t → d.isDigit = false) ∧ r.2.2.length = 3 ∧
    ∃ ws, splitWs r.1 = r.2.1 :: ws ∧ ws.map num = r.2.2.map some

end Pwtools.Spec
