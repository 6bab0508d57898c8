import Verif.Model.Cell
import Mathlib.Tactic.Positivity
/-!
# Model of `src/pwtools/pwscf.py`: `ibrav2cell`; `src/pwtools/mttk.py`

Real numbers instead of floats. `none` is an exception: a missing entry (`None`) that is needed, `acos` or `sqrt` outside
of their domain (`math` raises `ValueError`), division of Python floats by zero.
-/
namespace Pwtools.Ibrav
open Pwtools.Cry

/-- `math.sqrt`. -/
noncomputable def msqrt (x : ℝ) : Option ℝ := if 0 ≤ x then some (Real.sqrt x) else none

/-- `math.acos`. -/
noncomputable def macos (x : ℝ) : Option ℝ := if -1 ≤ x ∧ x ≤ 1 then some (Real.arccos x) else none

/-- Division of Python floats. -/
noncomputable def pdiv (x y : ℝ) : Option ℝ := if y = 0 then none else some (x / y)

/-- A matrix from its rows. -/
def rows (v1 v2 v3 : V3) : Cell := Matrix.of ![v1, v2, v3]

/-- `celldm` of `ibrav2cell`: six numbers or `None`. -/
structure Dm where
  d1 : Option ℝ
  d2 : Option ℝ
  d3 : Option ℝ
  d4 : Option ℝ
  d5 : Option ℝ
  d6 : Option ℝ

/-- `bb` and `cc`, `pwscf.py:574-577`: outer `none` is an exception (`None * float`), inner `none` an unassigned
name. -/
def mulOpt (x aa : Option ℝ) : Option (Option ℝ) :=
  match x with
  | none => some none
  | some x => match aa with
    | none => none
    | some aa => some (some (x * aa))

/-- `sin_gamma`, `pwscf.py:578-579`. -/
noncomputable def sinGamma (cosGamma : Option ℝ) : Option (Option ℝ) :=
  match cosGamma with
  | none => some none
  | some c => (macos c).map fun g => some (Real.sin g)

/-- The `if ibrav == ...` chain, `pwscf.py:580-677`, on the names assigned before. -/
noncomputable def cellOf (ibrav : Int) (aa bb cc cosAlpha cosBeta cosGamma sinGamma : Option ℝ) : Option Cell :=
  if ibrav = 1 then do
    let a ← aa
    some (a • (1 : Cell))
  else if ibrav = 2 then do
    let a ← aa
    some ((1 / 2 * a) • rows ![-1, 0, 1] ![0, 1, 1] ![-1, 1, 0])
  else if ibrav = 3 then do
    let a ← aa
    some ((1 / 2 * a) • rows ![1, 1, 1] ![-1, 1, 1] ![-1, -1, 1])
  else if ibrav = 4 then do
    let a ← aa
    let c ← cc
    let q ← pdiv c a
    let s ← msqrt 3
    some (a • rows ![1, 0, 0] ![-(1 / 2), s / 2, 0] ![0, 0, q])
  else if ibrav = 5 then do
    let a ← aa
    let ca ← cosAlpha
    let tx ← msqrt ((1 - ca) / 2)
    let ty ← msqrt ((1 - ca) / 6)
    let tz ← msqrt ((1 + 2 * ca) / 3)
    some (a • rows ![tx, -ty, tz] ![0, 2 * ty, tz] ![-tx, -ty, tz])
  else if ibrav = 6 then do
    let a ← aa
    let c ← cc
    let q ← pdiv c a
    some (a • rows ![1, 0, 0] ![0, 1, 0] ![0, 0, q])
  else if ibrav = 7 then do
    let a ← aa
    let c ← cc
    let q ← pdiv c a
    some ((1 / 2 * a) • rows ![1, -1, q] ![1, 1, q] ![-1, -1, q])
  else if ibrav = 8 then do
    let a ← aa
    let b ← bb
    let c ← cc
    some (rows ![a, 0, 0] ![0, b, 0] ![0, 0, c])
  else if ibrav = 9 then do
    let a ← aa
    let b ← bb
    let c ← cc
    some (rows ![a / 2, b / 2, 0] ![-a / 2, b / 2, 0] ![0, 0, c])
  else if ibrav = 10 then do
    let a ← aa
    let b ← bb
    let c ← cc
    some (rows ![a / 2, 0, c / 2] ![a / 2, b / 2, 0] ![0, b / 2, c / 2])
  else if ibrav = 11 then do
    let a ← aa
    let b ← bb
    let c ← cc
    some (rows ![a / 2, b / 2, c / 2] ![-a / 2, b / 2, c / 2] ![-a / 2, -b / 2, c / 2])
  else if ibrav = 12 then do
    let a ← aa
    let b ← bb
    let c ← cc
    let cg ← cosGamma
    let sg ← sinGamma
    some (rows ![a, 0, 0] ![b * cg, b * sg, 0] ![0, 0, c])
  else if ibrav = 13 then do
    let a ← aa
    let b ← bb
    let c ← cc
    let cg ← cosGamma
    let sg ← sinGamma
    some (rows ![a / 2, 0, -c / 2] ![b * cg, b * sg, 0] ![a / 2, 0, c / 2])
  else if ibrav = 14 then do
    let a ← aa
    let b ← bb
    let c ← cc
    let ca ← cosAlpha
    let cb ← cosBeta
    let cg ← cosGamma
    let sg ← sinGamma
    let y ← pdiv (c * (ca - cb * cg)) sg
    let s ← msqrt (1 + 2 * ca * cb * cg - ca ^ 2 - cb ^ 2 - cg ^ 2)
    let z ← pdiv (c * s) sg
    some (rows ![a, 0, 0] ![b * cg, b * sg, 0] ![c * cb, y, z])
  else none

/-- `ibrav2cell`, `pwscf.py:571-678`. -/
noncomputable def ibrav2cell (ibrav : Int) (d : Dm) : Option Cell :=
  match mulOpt d.d2 d.d1 with
  | none => none
  | some bb =>
    match mulOpt d.d3 d.d1 with
    | none => none
    | some cc =>
      match sinGamma d.d6 with
      | none => none
      | some sg => cellOf ibrav d.d1 bb cc d.d4 d.d5 d.d6 sg

/-! ### `mttk.py` -/

/-- The constants `kb`, `m0`, `a0`. -/
structure MConst where
  kb : ℝ
  m0 : ℝ
  a0 : ℝ

/-- `qi`, `mttk.py:66`, `mttk.py:92`. -/
noncomputable def qi (k : MConst) (freq temp : ℝ) : ℝ := k.kb * temp / freq ^ 2 / k.m0 / k.a0 ^ 2

/-- `particle_nhc_masses`, `mttk.py:65-68`; `nf = none` is the default `None` (`TypeError`). `[qi]*n` with `n = nnos-1 ≥ 0`. -/
noncomputable def particleNhcMasses (k : MConst) (freq temp : ℝ) (nf : Option ℝ) (nnos : Int) : Option (List ℝ) :=
  if nnos ≥ 1 then
    let qi := qi k freq temp
    match nf with
    | none => none
    | some nf =>
      let q1 := nf * qi
      some ([q1] ++ List.replicate (nnos - 1).toNat qi)
  else none

/-- `barostat_nhc_masses`, `mttk.py:91-94`. -/
noncomputable def barostatNhcMasses (k : MConst) (freq temp ndim : ℝ) (nnos : Int) : Option (List ℝ) :=
  if nnos ≥ 1 then
    let qi := qi k freq temp
    let q1 := qi * ndim ^ 2
    some ([q1] ++ List.replicate (nnos - 1).toNat qi)
  else none

/-- `barostat_mass_w`, `mttk.py:115`. -/
noncomputable def barostatMassW (k : MConst) (freq temp : ℝ) (nf : Option ℝ) (ndim : ℝ) : Option ℝ :=
  nf.map fun nf => (nf + ndim) * k.kb * temp / freq ^ 2 / k.m0 / k.a0 ^ 2

/-- `barostat_mass_wg`, `mttk.py:135`. -/
noncomputable def barostatMassWg (k : MConst) (freq temp : ℝ) (nf : Option ℝ) (ndim : ℝ) : Option ℝ :=
  nf.map fun nf => (nf + ndim) * k.kb * temp / ndim / freq ^ 2 / k.m0 / k.a0 ^ 2

end Pwtools.Ibrav
