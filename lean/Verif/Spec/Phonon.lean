import Verif.Spec.Lammps
/-!
# Specification: files with phonon frequencies and mode vectors

`matdyn.modes` (all q-points), `ph.dyn<n>` (one q-point), `dynmat.axsf` and `dynmat.out` (Gamma).
-/
namespace Pwtools.Spec
variable {K : Type}

/-- White space only. -/
def BlankText (t : Text) : Prop := ∀ c ∈ t, isPySpace c = true

/-- A `q` and later a `=`. -/
def QLike (l : Text) : Prop := ∃ a b c, l = a ++ 'q' :: (b ++ '=' :: c)

/-- A bracket after nothing but blanks. -/
def VecLike (l : Text) : Prop := ∃ n t, l = List.replicate n ' ' ++ '(' :: t

/-- A line without data. -/
structure OtherLine (l : Text) : Prop where
  q : ¬ QLike l
  vec : ¬ VecLike l
  omega : ¬ Has "omega".toList l

/-- `omega( 1) =  -26.663631 [THz] =  -889.402992 [cm-1]`: the frequency is the one in cm⁻¹. -/
structure OmegaLine (num : Text → Option K) (l : Text) (x : K) : Prop where
  q : ¬ QLike l
  vec : ¬ VecLike l
  text : ∃ a b c d g e w, l = a ++ ("omega".toList ++ (b ++ '=' :: (c ++ '[' :: (d ++ '=' :: (g ++ '[' :: e))))) ∧
    '=' ∉ g ∧ '[' ∉ e ∧ splitWs g = [w] ∧ num w = some x

/-- `( x_re x_im y_re y_im z_re z_im )`. -/
structure VecLine (num : Text → Option K) (l : Text) (v : List (K × K)) : Prop where
  q : ¬ QLike l
  omega : ¬ Has "omega".toList l
  text : ∃ n body t x y z, l = List.replicate n ' ' ++ '(' :: (body ++ ')' :: t) ∧ BlankText t ∧ v = [x, y, z] ∧
    (splitWs body).map num = [some x.1, some x.2, some y.1, some y.2, some z.1, some z.2]

/-- `q =  0.0  0.0  0.5` in `matdyn.modes`. -/
structure QLine (num : Text → Option K) (l : Text) (q : List K) : Prop where
  vec : ¬ VecLike l
  omega : ¬ Has "omega".toList l
  three : q.length = 3
  text : ∃ a s r, l = a ++ 'q' :: (s ++ '=' :: r) ∧ BlankText s ∧ (∀ a' s' r', BlankText s' → r ≠ a' ++ 'q' :: (s' ++ '=' :: r')) ∧
    (splitWs r).map num = q.map some

/-- `q = (  0.0  0.0  0.5 )` in a dynamical matrix file. -/
structure DynQLine (num : Text → Option K) (l : Text) (q : List K) : Prop where
  omega : ¬ Has "omega".toList l
  three : q.length = 3
  text : ∃ a s b r t, l = a ++ 'q' :: (s ++ '=' :: (b ++ '(' :: (r ++ ')' :: t))) ∧ BlankText s ∧ BlankText t ∧ '(' ∉ r ∧
    (splitWs r).map num = q.map some

/-- One mode: the line with the frequency and the lines with the vectors of the atoms. -/
structure PhMode (K : Type) where
  line : Text
  freq : K
  rows : List (Text × List (K × K))

def PhMode.lines (m : PhMode K) : List Text := m.line :: m.rows.map Prod.fst

/-- The lines of the mode are what they should be. -/
structure PhMode.Wf (num : Text → Option K) (m : PhMode K) : Prop where
  line : OmegaLine num m.line m.freq
  rows : ∀ r ∈ m.rows, VecLine num r.1 r.2

/-- One q-point of `matdyn.modes`: other lines, the line with the q-point, other lines, the modes. -/
structure PhQ (K : Type) where
  pre : List Text
  qline : Text
  q : List K
  mid : List Text
  modes : List (PhMode K)

def PhQ.lines (b : PhQ K) : List Text := b.pre ++ b.qline :: (b.mid ++ b.modes.flatMap PhMode.lines)

/-- The lines of the q-point are what they should be; nothing is said about the number of modes and of atoms. -/
structure PhQ.Wf (num : Text → Option K) (b : PhQ K) : Prop where
  pre : ∀ l ∈ b.pre, OtherLine l
  qline : QLine num b.qline b.q
  mid : ∀ l ∈ b.mid, OtherLine l
  modes : ∀ m ∈ b.modes, m.Wf num

/-- All modes of `na` atoms are there. -/
def PhQ.Complete (na : Nat) (b : PhQ K) : Prop := b.modes.length = 3 * na ∧ ∀ m ∈ b.modes, m.rows.length = na

/-- The modes of all q-points. -/
def allModes (bs : List (PhQ K)) : List (PhMode K) := bs.flatMap PhQ.modes

/-- A dynamical matrix file: the q-point whose modes are listed is the last one which is mentioned (the file first lists the matrices of
all q-points of the star). -/
structure PhQ.WfDyn (num : Text → Option K) (b : PhQ K) : Prop where
  pre : ∀ l ∈ b.pre, ¬ Has "omega".toList l ∧ (VecLike l → QLike l)
  qline : DynQLine num b.qline b.q
  mid : ∀ l ∈ b.mid, OtherLine l
  modes : ∀ m ∈ b.modes, m.Wf num

/-- One animation step of an AXSF file: the line with `PRIMCO`(`ORD`), the line with the number of atoms, a line per atom (symbol, position
and mode vector). -/
structure Axsf (K : Type) where
  head : Text
  count : Text
  rows : List (Text × List K)

def Axsf.lines (b : Axsf K) : List Text := b.head :: b.count :: b.rows.map Prod.fst

structure Axsf.Wf (num : Text → Option K) (na : Nat) (b : Axsf K) : Prop where
  head : Has "PRIMCO".toList b.head
  count : ¬ Has "PRIMCO".toList b.count
  nrows : b.rows.length = na
  rows : ∀ r ∈ b.rows, ¬ Has "PRIMCO".toList r.1 ∧
    ∃ s x y z u v w, splitWs r.1 = [s, x, y, z, u, v, w] ∧ [num u, num v, num w] = r.2.map some

/-- `dynmat.out`: other lines, the header of the table, a row per mode (number, cm⁻¹, THz, ...), other lines. -/
structure DynmatOut (num : Text → Option K) (n ncol : Nat) (file : List Text) (rows : List (Text × List K)) : Prop where
  text : ∃ pre hd tail, file = pre ++ hd :: (rows.map Prod.fst ++ tail) ∧
    (∃ a b c, hd = a ++ ("mode".toList ++ (b ++ ("cm-1".toList ++ c)))) ∧
    (∀ l ∈ pre ++ tail, ¬ (∃ a b c, l = a ++ ("mode".toList ++ (b ++ ("cm-1".toList ++ c)))))
  nrows : rows.length = n
  ncol2 : 2 ≤ ncol
  rows : ∀ r ∈ rows, ¬ Has "mode".toList r.1 ∧ r.2.length = ncol ∧ (splitWs r.1).map num = r.2.map some

end Pwtools.Spec
