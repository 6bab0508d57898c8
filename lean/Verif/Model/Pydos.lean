import Verif.Model.Signal
/-!
# Model of `src/pwtools/pydos.py` and of `vacf` in `src/_ext_src/flib.f90`

Real numbers instead of floats. The OpenMP loops are modelled by threads which execute loads and stores on
a common memory in an arbitrary order (`ParLoop`). Not modelled: the optional outputs (`full_out`), the
transposition of arrays by f2py, memory layout.
-/
namespace Pwtools.Dos
open Sig

/-- A velocity array of shape `(nstep, natoms, 3)`. -/
structure Vel where
  nstep : Nat
  natoms : Nat
  v : Nat → Nat → Fin 3 → ℝ

/-! ### pyvacf -/

/-- The unnormalised `c` of `pydos.pyvacf`, `pydos.py:46-68`. `none`: `ValueError`. -/
def pyvacfC (vel : Vel) (m : Option (Nat → ℝ)) (method : Nat) : Option (List ℝ) :=
  let mm := m.getD (fun _ => 1)
  if method = 1 then
    some ((List.range vel.nstep).map (fun t =>
      (List.range (vel.nstep - t)).foldl (fun s j =>
        (List.range vel.natoms).foldl (fun s i => s + (∑ d, vel.v j i d * vel.v (j + t) i d) * mm i) s) 0))
  else if method = 2 then
    some ((List.range vel.nstep).map (fun t =>
      (List.range (vel.nstep - t)).foldl (fun s j =>
        s + ((List.range vel.natoms).map (fun i => ∑ d, vel.v j i d * vel.v (j + t) i d * mm i)).sum) 0))
  else if method = 3 then
    some ((List.range vel.nstep).map (fun t =>
      ((List.range (vel.nstep - t)).map (fun j =>
        ((List.range vel.natoms).map (fun i => ∑ d, vel.v j i d * vel.v (t + j) i d * mm i)).sum)).sum))
  else none

/-- `pydos.pyvacf`, `pydos.py:22-72`. `none`: `ValueError`, or `c[0]` of an empty array. A division by
`c[0] = 0` (NaN) is 0 here; the theorems exclude it. -/
noncomputable def pyvacf (vel : Vel) (m : Option (Nat → ℝ)) (method : Nat) : Option (List ℝ) :=
  match pyvacfC vel m method with
  | none => none
  | some c =>
    match c.head? with
    | none => none
    | some c0 => some (c.map (fun x => x / c0))

/-! ### Parallel loops -/

/-- An instruction of a thread with one register: load from an address; store a value computed from the
register. -/
inductive Ins (α V : Type) where
  | load (a : α)
  | store (a : α) (f : V → V)

/-- The address of an instruction. -/
def Ins.addr {α V : Type} : Ins α V → α
  | .load a => a
  | .store a _ => a

/-- The common memory, and register and remaining instructions of each of `P` threads. -/
structure Mach (P : Nat) (α V : Type) where
  mem : α → V
  reg : Fin P → V
  rest : Fin P → List (Ins α V)

/-- Effect of one instruction on register and memory. -/
def exec1 {α V : Type} [DecidableEq α] (i : Ins α V) (r : V) (mem : α → V) : V × (α → V) :=
  match i with
  | .load a => (mem a, mem)
  | .store a f => (r, Function.update mem a (f r))

/-- Thread `p` executes its next instruction. -/
def Mach.step {P : Nat} {α V : Type} [DecidableEq α] (s : Mach P α V) (p : Fin P) : Mach P α V :=
  match s.rest p with
  | [] => s
  | i :: is =>
    let (r, mem) := exec1 i (s.reg p) s.mem
    ⟨mem, Function.update s.reg p r, Function.update s.rest p is⟩

/-- Execution in the order given by `sched`. -/
def Mach.run {P : Nat} {α V : Type} [DecidableEq α] (s : Mach P α V) (sched : List (Fin P)) : Mach P α V :=
  sched.foldl Mach.step s

/-- `!$omp do` over `0 .. n-1`: the iterations are distributed to some number of threads, each thread
executes its own ones in some order, the instructions of the threads are interleaved in some way, and at
the end all threads are finished. -/
def ParLoop {α V : Type} [DecidableEq α] (n : Nat) (body : Nat → List (Ins α V)) (mem mem' : α → V) : Prop :=
  ∃ (P : Nat) (own : Fin P → List Nat) (reg : Fin P → V) (sched : List (Fin P)),
    ((List.finRange P).flatMap own).Perm (List.range n) ∧
    (∀ p, (Mach.run ⟨mem, reg, fun p => (own p).flatMap body⟩ sched).rest p = []) ∧
    (Mach.run ⟨mem, reg, fun p => (own p).flatMap body⟩ sched).mem = mem'

/-! ### flib.vacf -/

/-- Iteration `t` of the loop of method 1, `flib.f90:196-205` (with `m`) and `211-220` (without). -/
def body1 (vel : Vel) (m : Option (Nat → ℝ)) (t : Nat) : List (Ins Nat ℝ) :=
  (List.range (vel.nstep - t)).flatMap (fun j => (List.range vel.natoms).flatMap (fun i =>
    [.load t, .store t (fun c =>
      let x := vel.v (j + t) i 0 * vel.v j i 0 + vel.v (j + t) i 1 * vel.v j i 1 + vel.v (j + t) i 2 * vel.v j i 2
      match m with
      | some m => c + x * m i
      | none => c + x)]))

/-- Iteration `j` of the loop `vv(j,:,k) = dsqrt(m) * v(j,:,k)`, `flib.f90:249-253`. -/
noncomputable def bodySqrt (vel : Vel) (m : Nat → ℝ) (j : Nat) : List (Ins (Nat × Fin 3) (Nat → ℝ)) :=
  (List.finRange 3).map (fun k => .store (j, k) (fun _ i => Real.sqrt (m i) * vel.v j i k))

/-- Iteration `t` of `vect_loops`, `flib.f90:282-284`. The value does not depend on the register. -/
def bodyVect (nstep natoms : Nat) (v : Nat → Nat → Fin 3 → ℝ) (t : Nat) : List (Ins Nat ℝ) :=
  [.store t (fun _ => ((List.finRange 3).map (fun d => ((List.range natoms).map (fun i =>
    ((List.range (nstep - t)).map (fun j => v j i d * v (t + j) i d)).sum)).sum)).sum)]

/-- `_flib.vacf`, `flib.f90:155-269`: `c` is a possible result if the array `c0` was passed; `useM = 0`
ignores `m`. The last statement is `c = c / c(0)`. The local array `vv` contains arbitrary values at
first. -/
def FlibVacf (vel : Vel) (m : Nat → ℝ) (c0 : Nat → ℝ) (method useM : Nat) (c : Nat → ℝ) : Prop :=
  if method = 1 then
    if useM = 1 then ∃ c1, ParLoop vel.nstep (body1 vel (some m)) c0 c1 ∧ c = fun t => c1 t / c1 0
    else if useM = 0 then ∃ c1, ParLoop vel.nstep (body1 vel none) c0 c1 ∧ c = fun t => c1 t / c1 0
    else c = c0
  else if method = 2 then
    if useM = 1 then ∃ vv0 vv c1, ParLoop vel.nstep (bodySqrt vel m) vv0 vv ∧
        ParLoop vel.nstep (bodyVect vel.nstep vel.natoms (fun j i k => vv (j, k) i)) c0 c1 ∧ c = fun t => c1 t / c1 0
    else if useM = 0 then ∃ c1, ParLoop vel.nstep (bodyVect vel.nstep vel.natoms vel.v) c0 c1 ∧ c = fun t => c1 t / c1 0
    else c = c0
  else c = c0

/-- `pydos.fvacf`, `pydos.py:75-170`: `c` is a possible result, for any number of threads. Without
masses the passed mass array is uninitialised, i.e. arbitrary. -/
def Fvacf (vel : Vel) (m : Option (Nat → ℝ)) (method : Nat) (c : List ℝ) : Prop :=
  ∃ c', c = (List.range vel.nstep).map c' ∧
    match m with
    | some m => FlibVacf vel m (fun _ => 0) method 1 c'
    | none => ∃ garbage, FlibVacf vel garbage (fun _ => 0) method 0 c'

/-! ### pdos -/

/-- `np.fft.fftfreq(n, dt)`, as numpy documents it. -/
noncomputable def fftfreq (n : Nat) (dt : ℝ) : List ℝ :=
  (List.range n).map (fun i : Nat => (if i < (n - 1) / 2 + 1 then (i : ℝ) else (i : ℝ) - n) / (dt * n))

/-- `vel2 = vel*welch(nstep)[:,None,None]`, `pydos.py:263-268`. -/
noncomputable def windowed (vel : Vel) (window : Bool) : Vel :=
  if window then ⟨vel.nstep, vel.natoms, fun s i d => vel.v s i d * (welch (K := ℝ) vel.nstep true).getD s 0⟩ else vel

/-- The time series of component `d` of atom `i` after padding, `pydos.py:273-280`; `k` zeros are added
(`C56`). -/
noncomputable def series (vel : Vel) (k : Nat) (i : Nat) (d : Fin 3) : List ℂ :=
  (List.range (vel.nstep + k)).map (fun s => if s < vel.nstep then ((vel.v s i d : ℝ) : ℂ) else 0)

/-- Length of the padding, `pydos.py:273-280`. -/
def padding (n : Nat) (npad : Option Nat) (tonext : Bool) : Except Nd.NErr Int :=
  match npad with
  | none => .ok 0
  | some np =>
    let nadd := (n - 1) * np
    if tonext then padNadd n none none (some true) (some ((n + nadd : Nat) : Int))
    else padNadd n (some (nadd : Int)) none (some false) none

/-- `if mass is not None: fft_vel *= mass_bc`, `pydos.py:290-291`, for atom `i`. -/
def timesMass (m : Option (Nat → ℝ)) (i : Nat) (l : List ℝ) : List ℝ :=
  match m with
  | some m => l.map (fun x => x * m i)
  | none => l

/-- `pydos.pdos(vel, method='direct')`, `pydos.py:281-305`. `none`: an exception or NaN. -/
noncomputable def pdosDirect (vel : Vel) (dt : ℝ) (m : Option (Nat → ℝ)) (area : ℝ) (window : Bool) (npad : Option Nat)
    (tonext : Bool) : Option (List ℝ × List ℝ) :=
  let vel2 := windowed vel window
  match padding vel.nstep npad tonext with
  | .error _ => none
  | .ok k =>
    if k < 0 then none else
    let L := vel.nstep + k.toNat
    let full : Nat → Fin 3 → List ℝ := fun i d => (fft (series vel2 k.toNat i d)).map (fun z => ‖z‖ ^ 2)
    let faxis := (fftfreq L dt).take (L / 2)
    let fftvel := fun i d => (full i d).take (L / 2)
    let fftvel := fun i d => timesMass m i (fftvel i d)
    let pdos := (List.range (L / 2)).map (fun s =>
      ((List.range vel.natoms).map (fun i => ((List.finRange 3).map (fun d => (fftvel i d).getD s 0)).sum)).sum)
    match Num.normInt Num.simps pdos faxis area true with
    | none => none
    | some p => some (faxis, p)

/-- `pydos.pdos(vel, method='vacf')` after the call of `fvacf`, `pydos.py:306-322`; `vacf` is the result of
`fvacf(vel2, m=mass)`. -/
noncomputable def pdosVacf (vacf : List ℝ) (dt area : ℝ) (mirr : Bool) : Option (List ℝ × List ℝ) :=
  let x := if mirr then mirrorL vacf else vacf
  let fftvacf := fft (x.map (fun r : ℝ => (r : ℂ)))
  let L := fftvacf.length
  let full := fftvacf.map (fun z => ‖z‖)
  let faxis := (fftfreq L dt).take (L / 2)
  let pdos := full.take (L / 2)
  match Num.normInt Num.simps pdos faxis area true with
  | none => none
  | some p => some (faxis, p)

/-- `pydos.vacf_pdos(vel, dt, m, area, window)`, `pydos.py:325-329`: possible results. -/
def VacfPdos (vel : Vel) (dt : ℝ) (m : Option (Nat → ℝ)) (area : ℝ) (window : Bool) (out : Option (List ℝ × List ℝ)) : Prop :=
  ∃ c, Fvacf (windowed vel window) m 2 c ∧ out = pdosVacf c dt area true

/-- `pydos.direct_pdos(vel, dt, m, area, window)`, `pydos.py:332-342`. -/
noncomputable def directPdos (vel : Vel) (dt : ℝ) (m : Option (Nat → ℝ)) (area : ℝ) (window : Bool) : Option (List ℝ × List ℝ) :=
  pdosDirect vel dt m area window (some 1) false

end Pwtools.Dos
