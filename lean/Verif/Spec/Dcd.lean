/-!
# Specification for dcd files: the layout of the file

Numbers are given by their bytes.
-/
namespace Pwtools.Spec.Dcd

abbrev Bytes := List UInt8

/-- A 4 byte little endian integer. -/
def le32 (n : Nat) : Bytes :=
  [UInt8.ofNat (n % 256), UInt8.ofNat (n / 256 % 256), UInt8.ofNat (n / 65536 % 256), UInt8.ofNat (n / 16777216 % 256)]

/-- A Fortran record: length, data, length. -/
def record (data : Bytes) : Bytes := le32 data.length ++ data ++ le32 data.length

/-- One frame: the cell constants (8 bytes each) and the atoms (4 bytes for each coordinate). -/
structure Frame where
  a : Bytes
  b : Bytes
  c : Bytes
  alpha : Bytes
  beta : Bytes
  gamma : Bytes
  atoms : List (Bytes × Bytes × Bytes)

/-- The numbers have the right size, and there are `n` atoms. -/
structure Frame.WF (n : Nat) (f : Frame) : Prop where
  cell : ∀ x ∈ [f.a, f.b, f.c, f.alpha, f.beta, f.gamma], x.length = 8
  atoms : ∀ p ∈ f.atoms, p.1.length = 4 ∧ p.2.1.length = 4 ∧ p.2.2.length = 4
  natoms : f.atoms.length = n

/-- A frame in the file: a record with the cell in the order a, gamma, b, beta, alpha, c, and one record
each for all x, all y and all z coordinates. -/
def Frame.encode (f : Frame) : Bytes :=
  record (f.a ++ f.gamma ++ f.b ++ f.beta ++ f.alpha ++ f.c) ++
  record (f.atoms.map (fun p => p.1)).flatten ++
  record (f.atoms.map (fun p => p.2.1)).flatten ++
  record (f.atoms.map (fun p => p.2.2)).flatten

/-- The header: a record of 84 bytes beginning with a 4 character word and the number of steps (often
0), one with 164 bytes of text, and the number of atoms. -/
def header (word : Bytes) (nstep : Nat) (other title : Bytes) (natoms : Nat) : Bytes :=
  record (word ++ le32 nstep ++ other) ++ record title ++ record (le32 natoms)

/-- A dcd file. -/
def file (word : Bytes) (nstep : Nat) (other title : Bytes) (natoms : Nat) (frames : List Frame) : Bytes :=
  header word nstep other title natoms ++ (frames.map Frame.encode).flatten

end Pwtools.Spec.Dcd
