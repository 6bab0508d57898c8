import Verif.Model.NdArray
import Verif.Model.Num
import Mathlib.Analysis.SpecialFunctions.Complex.Circle
/-!
# Model of `src/pwtools/signal.py`

Real (or complex) numbers or elements of an ordered field instead of floats. Not modelled:
`FIRFilter` (scipy filter design). The positions in `find_peaks` are in `Model/Peaks.lean`.
-/
namespace Pwtools.Sig
open Nd

/-! ### Sampling -/

/-- `signal.fftsample`, `signal.py:68-83`. `none`: `ValueError`. (A division by zero, which is an
exception or infinity in the program, is 0 here; the theorems exclude it.) -/
def fftsample {K : Type} [Field K] (a b : K) (mode : String) (mirr : Bool) : Option (K × K) :=
  if mode = "f" then
    let fmax := a
    let df := if mirr then b * 2 else b
    let dt := 1 / 2 / fmax
    let N := 1 / (df * dt)
    some (dt, N)
  else if mode = "t" then
    let dt := a
    let N := if mirr then b * 2 else b
    let fmax := 1 / 2 / dt
    let df := 1 / (N * dt)
    some (fmax, df)
  else none

/-! ### Padding, mirroring -/

/-- `np.zeros(shape)`. -/
def zeros {α : Type} [Zero α] (shape : List Nat) : Arr α := ⟨shape, fun _ => 0⟩

/-- `np.concatenate((a, b), axis=axis)`: all other axes must have equal lengths (`ValueError`). -/
def concat {α : Type} (a b : Arr α) (axis : Int) : Except NErr (Arr α) :=
  match pyIndex a.shape.length axis with
  | none => .error .axis
  | some ax =>
      if a.shape.length = b.shape.length ∧ a.shape.eraseIdx ax = b.shape.eraseIdx ax then
        let n := a.shape.getD ax 0
        .ok ⟨a.shape.set ax (n + b.shape.getD ax 0),
          fun idx => if idx.getD ax 0 < n then a.get idx else b.get (idx.modify ax (· - n))⟩
      else .error .value

/-- `np.searchsorted(l, x)`: number of leading entries `< x` of a sorted list. -/
def searchsorted (l : List Int) (x : Int) : Nat := (l.takeWhile (fun y => decide (y < x))).length

/-- `2**np.arange(30)`. -/
def twoPowers : List Int := (List.range 30).map (fun i => 2 ^ i)

/-- The number of items to add in `signal.pad_zeros`, `signal.py:266-287`; `n = arr.shape[axis]`. -/
def padNadd (n : Nat) (nadd upto : Option Int) (tonext : Option Bool) (tonextMin : Option Int) : Except NErr Int :=
  let tonext := if tonext = some false then none else tonext
  if 2 ≤ (if nadd = none then 1 else 0) + (if upto = none then 1 else 0) + (if tonext = none then 1 else 0) then
    match nadd with
    | some k => .ok k
    | none =>
      match upto with
      | some u => .ok (u - n)
      | none =>
        match tonext with
        | none => .ok n
        | some _ =>
          let m := tonextMin.getD n
          if m ≤ twoPowers.getLastD 0 then .ok (twoPowers.getD (searchsorted twoPowers m) 0 - n)
          else .error .assertion
  else .error .assertion

/-- `signal.pad_zeros`, `signal.py:208-297`. A negative number of zeros is a `ValueError` of
`np.zeros`. `arr.shape[axis]` is an `IndexError` for an illegal axis. -/
def padZeros {α : Type} [Zero α] (arr : Arr α) (axis : Int) (whr : String) (nadd upto : Option Int)
    (tonext : Option Bool) (tonextMin : Option Int) : Except NErr (Arr α) :=
  match pyIndex arr.shape.length axis with
  | none => .error .index
  | some ax =>
    match padNadd (arr.shape.getD ax 0) nadd upto tonext tonextMin with
    | .error e => .error e
    | .ok k =>
      if k = 0 then .ok arr
      else if whr = "end" then
        if k < 0 then .error .value else concat arr (zeros (arr.shape.set ax k.toNat)) axis
      else if whr = "start" then
        if k < 0 then .error .value else concat (zeros (arr.shape.set ax k.toNat)) arr axis
      else .error .strange

/-- `signal.mirror`, `signal.py:361-364`: `arr[::-1]` and `arr[1:]` always act on axis 0. -/
def mirror {α : Type} (arr : Arr α) (axis : Int) : Except NErr (Arr α) :=
  match arr.index [.sl ⟨none, none, some (-1)⟩], arr.index [.sl ⟨some 1, none, none⟩] with
  | .ok a, .ok b => concat a b axis
  | .error e, _ => .error e
  | _, .error e => .error e

/-- `signal.mirror` of a 1d array, as a list. -/
def mirrorL {α : Type} (l : List α) : List α := l.reverse ++ l.drop 1

/-! ### Peaks, scaling, windows -/

section ord
variable {K : Type} [Field K] [LinearOrder K]

/-- `y.min()` of a non-empty list. -/
def listMin : List K → K
  | [] => 0
  | x :: l => l.foldl min x

/-- `y.max()` of a non-empty list. -/
def listMax : List K → K
  | [] => 0
  | x :: l => l.foldl max x

/-- `np.diff(y)`. -/
def diff (y : List K) : List K := List.zipWith (fun a b => b - a) y (y.drop 1)

/-- `signal.find_peaks(y, ymin=ymin)[0]`, `signal.py:562-567`. `none`: `y.min()` of an empty array. -/
def findPeaks (y : List K) (ymin : Option K) : Option (List Nat) :=
  if ymin = none ∧ y = [] then none
  else
    let ym := ymin.getD (listMin y)
    let dfy := diff y
    some (((List.range (dfy.length - 1)).filter
      (fun ii => decide (0 < dfy.getD ii 0 ∧ dfy.getD (ii + 1) 0 < 0 ∧ ym ≤ y.getD ii 0))).map (· + 1))

/-- `signal.odd`, `signal.py:843-855`. `none`: `AssertionError`. -/
def odd (n add : Int) : Option Int :=
  if add = -1 ∨ add = 1 then some (if n % 2 = 1 then n else n + add) else none

/-- `signal.scale`, `signal.py:858-876`. `none`: empty array, or a division by zero (NaN). The
caller's array is never changed: `xx - xx.min()` is a new array. -/
def scale (x : List K) : Option (List K) :=
  if x = [] then none
  else
    let xx := x.map (fun v => v - listMin x)
    if listMax xx = 0 then none else some (xx.map (fun v => v / listMax xx))

/-- `signal.welch`, `signal.py:300-314`. -/
def welch (M : Int) (sym : Bool) : List K :=
  if M < 1 then []
  else if M = 1 then [1]
  else
    let ext := !sym && decide (M % 2 = 0)
    let M' := if ext then M + 1 else M
    let w := (List.range M'.toNat).map
      (fun n : Nat => 1 - (((n : K) - 1 / 2 * ((M' : K) - 1)) / (1 / 2 * ((M' : K) - 1))) ^ 2)
    if ext then w.dropLast else w

/-- `signal.lorentz`, `signal.py:316-356`. -/
def lorentz (M : Int) (std : K) (sym : Bool) : List K :=
  if M < 1 then []
  else if M = 1 then [1]
  else
    let ext := !sym && decide (M % 2 = 0)
    let M' := if ext then M + 1 else M
    let w := (List.range M'.toNat).map (fun n : Nat => std / (((n : K) - ((M' : K) - 1) / 2) ^ 2 + std ^ 2))
    let w := w.map (fun v => v / listMax w)
    if ext then w.dropLast else w

end ord

/-- `signal.gauss`, `signal.py:499-518`, for one value. -/
noncomputable def gauss (x std : ℝ) (norm : Bool) : ℝ :=
  if norm then 1 / std / Real.sqrt (2 * Real.pi) * Real.exp (-x ^ 2 / 2 / std ^ 2)
  else Real.exp (-x ^ 2 / 2 / std ^ 2)

/-! ### Fourier transforms and autocorrelation -/

open Complex in
/-- `nk` in `signal.dft`, `signal.py:139`: `np.linspace(0.0, float(N), endpoint=False, num=N)`. -/
noncomputable def nkGrid (N : Nat) : List ℂ := (List.range N).map (fun i : Nat => ((i : ℂ) * ((N : ℂ) / (N : ℂ))))

open Complex in
/-- `signal.dft`, `signal.py:136-152`. `none`: `ValueError`. -/
noncomputable def dft (a : List ℂ) (method : String) : Option (List ℂ) :=
  let N := a.length
  let nk := nkGrid N
  if method = "loop" then
    some (nk.map (fun k => (List.zipWith (· * ·) a (nk.map (fun n => exp (-2 * Real.pi * I * k * n / (N : ℂ))))).sum))
  else if method = "matmul" then
    -- nkmat[i,j] = nk[j] * nk[i]
    let nkmat := nk.map (fun x => nk.map (fun n => n * x))
    let mat := nkmat.map (fun row => row.map (fun z => exp (-2 * Real.pi * I * z / (N : ℂ))))
    some (mat.map (fun row => (List.zipWith (· * ·) row a).sum))
  else none

open Complex in
/-- `scipy.fftpack.fft` of a 1d array, as scipy documents it. -/
noncomputable def fft (a : List ℂ) : List ℂ :=
  (List.range a.length).map (fun k : Nat => ∑ n ∈ Finset.range a.length,
    a.getD n 0 * exp (-(2 * Real.pi * I * (k : ℂ) * (n : ℂ) / (a.length : ℂ))))

open Complex in
/-- `scipy.fftpack.ifft` of a 1d array. -/
noncomputable def ifft (y : List ℂ) : List ℂ :=
  (List.range y.length).map (fun n : Nat => 1 / (y.length : ℂ) * ∑ k ∈ Finset.range y.length,
    y.getD k 0 * exp (2 * Real.pi * I * (k : ℂ) * (n : ℂ) / (y.length : ℂ)))

/-- `signal.ezfft`, `signal.py:155-178`: `np.fft.fftfreq(n, dt)` (documented: `0, 1, …, (n-1)//2`, then the
negative frequencies, divided by `dt*n`), first half, and the transform. -/
noncomputable def ezfft (y : List ℂ) (dt : ℝ) : List ℝ × List ℂ :=
  let n := y.length
  let faxis : List ℝ := (List.range n).map
    (fun i : Nat => (if i < (n - 1) / 2 + 1 then (i : ℝ) else (i : ℝ) - n) / (dt * n))
  (faxis.take (n / 2), (fft y).take (n / 2))

/-- A loop `for i in range(n): c += f(i)`. -/
def accum {β : Type} [Add β] (f : Nat → β) (n : Nat) (c : β) : β := (List.range n).foldl (fun s i => s + f i) c

/-- `np.correlate(v, v, mode='full')`, as numpy documents it: entry `k` is the sum over all `n` of
`v[n + k - (N-1)] * v[n]`, terms outside the array being 0. -/
def correlateFull (v : List ℝ) : List ℝ :=
  (List.range (2 * v.length - 1)).map (fun k => ((List.range v.length).map (fun n =>
    if v.length - 1 ≤ n + k ∧ n + k < 2 * v.length - 1 then v.getD (n + k - (v.length - 1)) 0 * v.getD n 0 else 0)).sum)

/-- `acorr`, `flib.f90:290-313`: method 1 adds to the passed array `c0`, method 2 assigns; another
method leaves `c0`. `c = c / c(0)` evaluates the right side with the old `c(0)`. -/
noncomputable def flibAcorr (v c0 : List ℝ) (method : Nat) (norm : Bool) : List ℝ :=
  let n := v.length
  let c := (List.range n).map (fun t =>
    if method = 1 then accum (fun j => v.getD j 0 * v.getD (j + t) 0) (n - t) (c0.getD t 0)
    else if method = 2 then (List.zipWith (· * ·) (v.take (n - t)) (v.drop t)).sum
    else c0.getD t 0)
  if norm then c.map (fun x => x / c.getD 0 0) else c

/-- The unnormalised `c` of `signal.acorr` for the methods written in Python, `signal.py:468-490`. -/
noncomputable def acorrPy (v : List ℝ) (method : Nat) : Option (List ℝ) :=
  let n := v.length
  if method = 1 then
    some ((List.range n).map (fun t => accum (fun j => v.getD j 0 * v.getD (j + t) 0) (n - t) 0))
  else if method = 2 then
    let vv := v ++ List.replicate n 0
    some ((List.range n).map (fun t => accum (fun j => v.getD j 0 * vv.getD (j + t) 0) n 0))
  else if method = 3 then
    some ((List.range n).map (fun t => (List.zipWith (· * ·) (v.take (n - t)) (v.drop t)).sum))
  else if method = 4 then some ((correlateFull v).drop (n - 1))
  else if method = 7 then
    let vv : List ℂ := (v ++ List.replicate n 0).map (fun x : ℝ => (x : ℂ))
    some (((ifft ((fft vv).map (fun z => ((‖z‖ ^ 2 : ℝ) : ℂ)))).take n).map Complex.re)
  else none

/-- `signal.acorr`, `signal.py:396-496`, for a non-empty `v`. `none`: `ValueError`. The division by
`c[0] = 0` (NaN) is 0 here; the theorems exclude it. -/
noncomputable def acorr (v : List ℝ) (method : Nat) (norm : Bool) : Option (List ℝ) :=
  if method = 5 then some (flibAcorr v (List.replicate v.length 0) 1 norm)
  else if method = 6 then some (flibAcorr v (List.replicate v.length 0) 2 norm)
  else
    match acorrPy v method with
    | none => none
    | some c => some (if norm then c.map (fun x => x / c.getD 0 0) else c)

/-! ### Smoothing -/

section smooth
variable {K : Type} [Field K] {E : Type} [AddCommGroup E] [Module K E]

/-- `l[start:stop:step]` for a sequence. -/
def pySlice {β : Type} (l : List β) (s : Sl) : List β :=
  match s.indices l.length with
  | none => []
  | some (start, step, count) => (List.range count).filterMap (fun i : Nat => l[(start + i * step).toNat]?)

/-- `scipy.signal.fftconvolve(sig, kk, 'valid')` along one axis: all positions where the (shorter)
kernel overlaps completely. -/
def convValid (sig : List E) (kk : List K) : List E :=
  (List.range (sig.length + 1 - kk.length)).map
    (fun i => ∑ j ∈ Finset.range kk.length, kk.getD j 0 • sig.getD (i + kk.length - 1 - j) 0)

/-- The padded signal of `signal.smooth`, `signal.py:801-827`. `none`: unknown `edge`, or an exception
(empty data). -/
def smoothSig (data : List E) (M : Nat) (edge : String) : Option (List E) :=
  if edge = "m" then
    let npad := min M data.length
    let dleft := pySlice data ⟨some npad, some 0, some (-1)⟩
    let dright := pySlice data ⟨some (-2), some (-(npad + 2)), some (-1)⟩
    if dleft.length = dright.length then
      let k := dleft.length
      some (if k < M then (List.replicate (M - k) 0 ++ dleft) ++ data ++ (dright ++ List.replicate (M - k) 0)
            else dleft ++ data ++ dright)
    else none
  else if edge = "c" then
    match data.head?, data.getLast? with
    | some a, some b => some (List.replicate M a ++ data ++ List.replicate M b)
    | _, _ => none
  else none

/-- `signal.smooth`, `signal.py:584-840`, along one axis; the items of `data` are the values (1d) or the
sub-arrays at one position of the axis, the kernel has length 1 along the other axes. `none`: an
exception (also a division by a zero kernel sum). -/
def smooth [DecidableEq K] (data : List E) (kern : List K) (edge : String) (norm : Bool) : Option (List E) :=
  let N := data.length
  let M := kern.length
  match smoothSig data M edge with
  | none => none
  | some sig =>
    if norm ∧ kern.sum = 0 then none else
    let kk := if norm then kern.map (fun v => v / kern.sum) else kern
    let ret := convValid sig kk
    if M = 0 ∨ ret.length ≠ N + M + 1 then none
    else
      let ret := if M % 2 = 0 then pySlice ret ⟨some ((M / 2 : Nat) : Int), some (-((M / 2 : Nat) : Int) - 1), none⟩
        else pySlice ret ⟨some ((M / 2 + 1 : Nat) : Int), some (-((M / 2 : Nat) : Int) - 1), none⟩
      if ret.length = N then some ret else none

end smooth

end Pwtools.Sig
