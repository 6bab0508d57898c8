import Mathlib.Analysis.SpecialFunctions.Trigonometric.Basic
import Mathlib.Algebra.BigOperators.Module
/-!
# Model of `signal.FIRFilter` (`src/pwtools/signal.py:877-971`)

Exact numbers. `scipy.signal.firwin` and `kaiserord` are opaque; `lfilter(taps, 1.0, x)` and `freqz(taps)` are modelled by the sums that
define them. Exceptions are `none`. Signals are 1d arrays.
-/
namespace Pwtools.Fir

/-- The argument `cutoff`: a number or an array. -/
inductive Cutoff
  | num (c : ℝ)
  | arr (l : List ℝ)

/-- The band edges. -/
def Cutoff.edges : Cutoff → List ℝ
  | .num c => [c]
  | .arr l => l

/-- The argument `window`; `kaiser beta` is `('kaiser', beta)`. -/
inductive Window
  | name (s : String)
  | kaiser (beta : ℝ)

/-- The argument list of `firwin`. -/
structure FirArgs where
  numtaps : Nat
  cutoff : Cutoff
  window : Window
  nyq : ℝ
  passZero : Bool
  width : Option ℝ

/-- The libraries. -/
structure Lib where
  firwin : FirArgs → Option (List ℝ)
  kaiserord : ℝ → ℝ → Option (Nat × ℝ)

/-- The arguments of `FIRFilter.__init__`, `signal.py:900-901`. -/
structure In where
  cutoff : Cutoff
  nyq : ℝ
  ntaps : Option Nat := none
  ripple : Option ℝ := none
  width : Option ℝ := none
  window : Window := .name "hamming"
  mode : String := "lowpass"

/-- `ntaps` and `window`, `signal.py:933-941`. Both `ripple` and `width` missing: `AssertionError`; one missing: `float(None)`, a
`TypeError`. -/
noncomputable def taps (lib : Lib) (a : In) : Option (Nat × Window) :=
  match a.ntaps with
  | none =>
    match a.ripple, a.width with
    | some r, some w => (lib.kaiserord r (w / a.nyq)).map fun nb => (nb.1, .kaiser nb.2)
    | _, _ => none
  | some n => some (n, a.window)

/-- `len(cutoff) == 2`; `len` of a number is a `TypeError`. -/
def two : Cutoff → Bool
  | .num _ => false
  | .arr l => l.length == 2

/-- `pass_zero`, `signal.py:942-956`. In the branch `bandstop` the local variable `N` is read before it is set (line 952):
`UnboundLocalError`. -/
def passZero (a : In) : Option Bool :=
  if a.mode = "lowpass" then some true
  else if a.mode = "highpass" then some false
  else if a.mode = "bandpass" then (if two a.cutoff then some false else none)
  else none

/-- `freqz(b)` with its 512 frequencies: pairs of `w` and `h`. -/
noncomputable def freqz (b : List ℝ) : List (ℝ × ℂ) :=
  (List.range 512).map fun j : Nat =>
    (Real.pi * (j : ℝ) / 512, ∑ k ∈ Finset.range b.length, ((b.getD k 0 : ℝ) : ℂ) * Complex.exp (-Complex.I * (Real.pi * (j : ℝ) / 512 : ℝ) * k))

/-- The object. -/
structure Obj where
  ntaps : Nat
  window : Window
  taps : List ℝ
  w : List ℝ
  h : List ℂ

/-- `FIRFilter.__init__`, `signal.py:933-961`. -/
noncomputable def mk (lib : Lib) (a : In) : Option Obj :=
  match taps lib a with
  | none => none
  | some (n, win) =>
    match passZero a with
    | none => none
    | some pz =>
      match lib.firwin ⟨n, a.cutoff, win, a.nyq, pz, a.width⟩ with
      | none => none
      | some b => some ⟨n, win, b, (freqz b).map fun p => p.1 / Real.pi * a.nyq, (freqz b).map Prod.snd⟩

variable {V : Type*} [AddCommMonoid V] [Module ℝ V]

/-- `lfilter(b, 1.0, x)` of a 1d array: `y[n] = b[0]*x[n] + b[1]*x[n-1] + ...`, with zeros before the signal. -/
noncomputable def lfilter (b : List ℝ) (x : List V) : List V :=
  (List.range x.length).map fun n =>
    ∑ k ∈ Finset.range b.length, if k ≤ n then b.getD k 0 • x.getD (n - k) 0 else 0

/-- `__call__`, `signal.py:963-971`. -/
noncomputable def Obj.call (o : Obj) (x : List V) : List V := lfilter o.taps x

end Pwtools.Fir
