import Verif.Model.Common
/-!
# Regular expressions: the part of Python's `re` used by `parse.PDBFile`

`re` is a backtracking matcher: it tries the ways to match a pattern in a fixed order (longest first for `*` and `+`, left first for `|`) and returns the first one
for which the rest of the pattern matches, too. `Rx.m r s k` is this search: `k` is the rest of the pattern.
-/
namespace Pwtools.Re

/-- Patterns. `many lo p`: at least `lo` characters of a class, as many as possible (`[..]*`, `[..]+`, `\s+`). -/
inductive Rx where
  | eps
  | lit (t : Text)
  | many (lo : Nat) (p : Char → Bool)
  | seq (a b : Rx)
  | alt (a b : Rx)
  | grp (n : Nat) (a : Rx)

/-- Texts of the groups. -/
abbrev Caps := List (Nat × Text)

/-- `n, n - 1, ..., lo`. -/
def downFrom (n lo : Nat) : List Nat := ((List.range (n + 1)).filter fun i => decide (lo ≤ i)).reverse

/-- The first way in which `r` matches at the beginning of `s` and the rest `k` (text matched, text behind it, groups) succeeds. -/
def Rx.m {β : Type} : Rx → Text → (Text → Text → Caps → Option β) → Option β
  | .eps, s, k => k [] s []
  | .lit t, s, k => if t.isPrefixOf s then k t (s.drop t.length) [] else none
  | .many lo p, s, k => (downFrom (s.takeWhile p).length lo).findSome? fun n => k (s.take n) (s.drop n) []
  | .seq a b, s, k => a.m s fun c r g => b.m r fun c' r' g' => k (c ++ c') r' (g ++ g')
  | .alt a b, s, k => (a.m s k).or (b.m s k)
  | .grp n a, s, k => a.m s fun c r g => k c r ((n, c) :: g)

/-- `a{n}`. A lazy `a{n}?` is the same. -/
def Rx.rep (a : Rx) : Nat → Rx
  | 0 => .eps
  | n + 1 => .seq a (a.rep n)

/-- `re.match`: text matched, text behind it, groups. -/
def Rx.matchAt (r : Rx) (s : Text) : Option (Text × Text × Caps) := r.m s fun c t g => some (c, t, g)

/-- `re.search`: the groups of the first match. -/
def Rx.search (r : Rx) : Text → Option Caps
  | [] => (r.matchAt []).map fun x => x.2.2
  | c :: s => match r.matchAt (c :: s) with
    | some x => some x.2.2
    | none => r.search s

/-- `re.finditer`: the groups of all matches, from the left, without overlap. Each round takes at least one character, so that the length of the text is enough
`fuel`. -/
def Rx.finditerAux (r : Rx) : Nat → Text → List Caps
  | 0, _ => []
  | fuel + 1, s => match r.matchAt s with
    | some (c, t, g) => g :: (if s = [] then [] else r.finditerAux fuel (if c = [] then s.drop 1 else t))
    | none => if s = [] then [] else r.finditerAux fuel (s.drop 1)

/-- `re.finditer(r, s)`. -/
def Rx.finditer (r : Rx) (s : Text) : List Caps := r.finditerAux (s.length + 1) s

/-- `m.group(n)`: the last text of the group. -/
def group (g : Caps) (n : Nat) : Option Text := (g.reverse.find? fun x => decide (x.1 = n)).map Prod.snd

end Pwtools.Re
