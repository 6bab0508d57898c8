import Mathlib.Data.Real.Basic
/-!
# `eos.ExternEOS`, `eos.ElkEOSFit`: equation of state fits with an external program

A spline is an element of a type `S`; the external program is a function.
-/
namespace Pwtools.Eos2

/-- A 2d array with two columns. -/
abbrev Tab := List (ℝ × ℝ)

/-- `num.Spline`: construction, `spl(x, der)`, `get_root()`, `get_min()` (`none`: exception). -/
structure Splines (S : Type) where
  /-- `Spline(arr[:,0], arr[:,1])` -/
  interp : Tab → S
  /-- `spl(x, der=der)` -/
  ev : S → Nat → ℝ → ℝ
  /-- `spl.get_root()` -/
  root : S → Option ℝ
  /-- `spl.get_min()` -/
  min : S → Option ℝ

/-- `bv_method`. -/
inductive Method where
  | ev | pv | other
  deriving DecidableEq, Repr

/-- An `ExternEOS` object. Attributes which are not set are `none`. -/
structure St (D S : Type) where
  /-- `energy`, `volume` -/
  data : D
  /-- `bv_method` -/
  method : Method
  /-- `ev` -/
  ev : Option Tab := none
  /-- `pv` -/
  pv : Option Tab := none
  /-- `bv` -/
  bv : Option Tab := none
  /-- `spl_ev` -/
  splEv : Option S := none
  /-- `spl_pv` -/
  splPv : Option S := none
  /-- `spl_bv` -/
  splBv : Option S := none

variable {D S : Type}

/-- `assert (np.diff(volume) > 0.0).any()`, `eos.py:306-309`. -/
def accepted (volume : List ℝ) : Prop := ∃ d ∈ List.zipWith (fun a b => b - a) volume volume.tail, 0 < d

/-- `try_set_attr('spl_xx')` with `_get_spl`, `eos.py:358-375`: a spline which is set stays. -/
def trySpl (sp : Splines S) (spl : Option S) (arr : Option Tab) : Option S :=
  match spl with
  | some s => some s
  | none => arr.map sp.interp

/-- `calc_bv`, `eos.py:387-401`: the object (a spline may have been set) and the array. `fac` is `eV * 1e21`. `none`: exception. -/
def calcBv (sp : Splines S) (fac : ℝ) (st : St D S) : Option (St D S × Tab) :=
  match st.method with
  | .pv =>
    match trySpl sp st.splPv st.pv, st.pv with
    | some s, some arr => some ({ st with splPv := some s }, arr.map fun r => (r.1, -r.1 * sp.ev s 1 r.1))
    | _, _ => none
  | .ev =>
    match trySpl sp st.splEv st.ev, st.ev with
    | some s, some arr => some ({ st with splEv := some s }, arr.map fun r => (r.1, r.1 * sp.ev s 2 r.1 * fac))
    | _, _ => none
  | .other => none

/-- `fit`, `eos.py:340-356`. `tool` is `_fit`: the arrays `ev`, `pv` for the data of the object. -/
def fit (sp : Splines S) (fac : ℝ) (tool : D → Tab × Tab) (st : St D S) : Option (St D S) :=
  let st1 := { st with ev := some (tool st.data).1, pv := some (tool st.data).2 }
  match calcBv sp fac st1 with
  | none => none
  | some (st2, bv) =>
    let st3 := { st2 with bv := some bv }
    some { st3 with splEv := trySpl sp st3.splEv st3.ev, splPv := trySpl sp st3.splPv st3.pv, splBv := trySpl sp st3.splBv st3.bv }

/-- `get_min`, `eos.py:403-448`: `(v0, e0, p0, b0)`. `none`: exception. -/
def getMin (sp : Splines S) (st : St D S) : Option (ℝ × ℝ × ℝ × ℝ) :=
  match trySpl sp st.splPv st.pv, trySpl sp st.splEv st.ev, trySpl sp st.splBv st.bv with
  | some p, some e, some b =>
    (match st.method with
     | .pv => sp.root p
     | .ev => sp.min e
     | .other => none).map fun v0 => (v0, sp.ev e 0 v0, sp.ev p 0 v0, sp.ev b 0 v0)
  | _, _, _ => none

/-- `set_bv_method`, `eos.py:377-385`. -/
def setBvMethod (m : Method) (st : St D S) : St D S := { st with method := m }

/-- `get_min(behave='old')`, `eos.py:438-439`. -/
def getMinOld (sp : Splines S) (st : St D S) : Option (List ℝ) := (getMin sp st).map fun r => [r.1, r.2.1, r.2.2.1, r.2.2.2]

/-- The data written for `eos.x` in `ElkEOSFit._fit`, `eos.py:541-561`; `cv` is `Ang**3/Bohr**3`, `ce` is `eV/Ha`. -/
noncomputable def elkInput (cv ce : ℝ) (data : Tab) : Tab := data.map fun r => (r.1 * cv, r.2 * ce)

/-- The arrays read back in `ElkEOSFit._fit`, `eos.py:566-575`; `evpai`, `pvpai` are the files of `eos.x`. -/
noncomputable def elkOutput (cv ce natoms : ℝ) (evpai pvpai : Tab) : Tab × Tab :=
  ((evpai.map fun r => (r.1 * natoms, r.2 * natoms)).map fun r => (r.1 * cv⁻¹, r.2 * ce⁻¹), pvpai.map fun r => (r.1 * (natoms * cv⁻¹), r.2))

end Pwtools.Eos2
