import Verif.Model.Thermo
/-!
# Model of `src/pwtools/thermo.py`: `Gibbs`

Exact arithmetic. The fit functions (`fitfunc`) are parameters and do not raise. `np.empty` gives
arrays with arbitrary content (`junk`), so that an entry which the code never assigns shows.
-/
namespace Pwtools.Thermo

/-- An array. -/
structure Arr where
  shape : List Nat
  get : List Nat → ℝ

/-- Names of the harmonic quantities. -/
inductive FName | F | Fvib | Evib | Svib | Cv
deriving DecidableEq

/-- Names of the quantities at the minimum; `GH` is `G` or `H`. -/
inductive OName | ax (i : Nat) | V | GH | B
deriving DecidableEq

/-- Keys of the result dictionaries. With `pre` the attribute `axes_prefix` (`'/ax0'`, `'/ax0-ax1'` or
`'/ax0-ax1-ax2'`) the strings are those of `Key.str`. -/
inductive Key
  | T | P | ax | V | etot
  | axT (n : FName) | PaxH | TPaxG
  | optP (n : OName) | optTP (n : OName) | alpha (n : OName) | Cp
  | other (s : String)
deriving DecidableEq

/-- `'%s' % name`. -/
def FName.str : FName → String
  | .F => "F" | .Fvib => "Fvib" | .Evib => "Evib" | .Svib => "Svib" | .Cv => "Cv"

/-- `'%s' % name`, with `gh` being `'G'` or `'H'`. -/
def OName.str (gh : String) : OName → String
  | .ax i => "ax" ++ toString i | .V => "V" | .GH => gh | .B => "B"

/-- The strings, `thermo.py:468-472`, `635-657`, `672-688`, `718-756`. -/
def Key.str (pre : String) : Key → String
  | .T => "/T/T" | .P => "/P/P" | .ax => pre ++ pre | .V => pre ++ "/V" | .etot => pre ++ "/Etot"
  | .axT n => pre ++ "/T/" ++ n.str
  | .PaxH => "/P" ++ pre ++ "/H"
  | .TPaxG => "/T/P" ++ pre ++ "/G"
  | .optP n => "/#opt/P/" ++ n.str "H"
  | .optTP n => "/#opt/T/P/" ++ n.str "G"
  | .alpha n => "/#opt/T/P/alpha_" ++ n.str "G"
  | .Cp => "/#opt/T/P/Cp"
  | .other s => s

/-- A result dictionary: for each key absent, `None` or an array. -/
abbrev Dict := Key → Option (Option Arr)

/-- `d[k] = v`. -/
def Dict.set (d : Dict) (k : Key) (v : Option Arr) : Dict := fun k' => if k' = k then some v else d k'

/-- `d.update(e)`. -/
def Dict.upd (d e : Dict) : Dict := fun k => match e k with | some v => some v | none => d k

/-- An assignment to a part of `d[k]`. Without such an array: an exception, here no effect (the theorems say
that the value is there). -/
def Dict.write (d : Dict) (k : Key) (f : Arr → Arr) : Dict :=
  match d k with
  | some (some a) => d.set k (some (f a))
  | _ => d

/-- `a[i,:] = row`. -/
def setRow (i : Nat) (row : List ℝ) (a : Arr) : Arr :=
  ⟨a.shape, fun idx => match idx with
    | [x, y] => if x = i then row.getD y 0 else a.get idx
    | _ => a.get idx⟩

/-- `a[i,j,:] = row`. -/
def setRow2 (i j : Nat) (row : List ℝ) (a : Arr) : Arr :=
  ⟨a.shape, fun idx => match idx with
    | [x, y, z] => if x = i ∧ y = j then row.getD z 0 else a.get idx
    | _ => a.get idx⟩

/-- `a[:,j] = col`. -/
def setCol (j : Nat) (col : List ℝ) (a : Arr) : Arr :=
  ⟨a.shape, fun idx => match idx with
    | [x, y] => if y = j then col.getD x 0 else a.get idx
    | _ => a.get idx⟩

/-- `a[tuple(tpidx)] = v`. -/
def setAt (tpidx : List Nat) (v : ℝ) (a : Arr) : Arr :=
  ⟨a.shape, fun idx => if idx = tpidx then v else a.get idx⟩

/-- A fit object of one variable: `fit(x)`, `fit(x, der=n)`, `fit.get_min()`. -/
structure Fit where
  ev : ℝ → ℝ
  der : Nat → ℝ → ℝ
  min : ℝ

/-- A fit object of two variables. -/
structure Fit2 where
  ev : List ℝ → ℝ
  min : List ℝ

/-- The argument `case`. -/
inductive Case | c1 | c2 | c3 | unknown
deriving DecidableEq

/-- The attributes of a `Gibbs` object. `axes` is `axes_flat`, a list of rows of length `nax`. -/
structure Gibbs where
  T : List ℝ
  P : List ℝ
  etot : List ℝ
  phdos : List (List ℝ × List ℝ)
  axes : List (List ℝ)
  nax : Nat
  volfunc : List ℝ → ℝ
  case : Case
  skipfreq : Bool
  eps : ℝ
  dosarea : Option ℝ
  integ : List ℝ → List ℝ → ℝ
  c : Const
  conv : ℝ
  fit1G : List ℝ → List ℝ → Fit
  fit2G : List (List ℝ) → List ℝ → Fit2
  fit1ax : List ℝ → List ℝ → Fit
  fitAlpha : List ℝ → List ℝ → Fit
  fitC : List ℝ → List ℝ → Fit

/-- `Gibbs.__init__`, `thermo.py:430-466`: the assertions and the choice of `case`. `none`: an
exception. -/
def Gibbs.init (g : Gibbs) (case : Option Case) : Option Gibbs :=
  if g.axes.length ≠ g.phdos.length then none
  else if g.axes.length ≠ g.etot.length then none
  else match g.nax with
    | 1 => some { g with case := case.getD .c1 }
    | 2 => some { g with case := case.getD .c2 }
    | 3 => some { g with case := case.getD .c3 }
    | _ => none

namespace Gibbs
variable (g : Gibbs) (junk : List Nat → ℝ)

/-- `self.npoints`. -/
def n : Nat := g.axes.length

/-- `self.V`, `thermo.py:449-450`. -/
def vols : List ℝ := g.axes.map g.volfunc

/-- `self.ret`, `thermo.py:467-472`. -/
def base : Dict := fun k => match k with
  | .T => some (some ⟨[g.T.length], fun idx => match idx with | [i] => g.T.getD i 0 | _ => 0⟩)
  | .P => some (some ⟨[g.P.length], fun idx => match idx with | [i] => g.P.getD i 0 | _ => 0⟩)
  | .ax => some (some ⟨[g.n, g.nax], fun idx => match idx with | [i, j] => (g.axes.getD i []).getD j 0 | _ => 0⟩)
  | .V => some (some ⟨[g.n], fun idx => match idx with | [i] => g.vols.getD i 0 | _ => 0⟩)
  | .etot => some (some ⟨[g.n], fun idx => match idx with | [i] => g.etot.getD i 0 | _ => 0⟩)
  | _ => none

/-- `np.empty(shape)`. -/
def empty (shape : List Nat) : Arr := ⟨shape, junk⟩

/-- `HarmonicThermo(freq=self.phdos[idx][:,0], dos=self.phdos[idx][:,1], T=self.T, **self.kwds)`. -/
noncomputable def harm (p : List ℝ × List ℝ) : Option (List ℝ × List ℝ) :=
  harmInit g.integ p.1 p.2 g.skipfreq g.eps g.dosarea

/-- The body of the loop in `calc_F`, `thermo.py:644-657`. -/
noncomputable def stepF (calcAll : Bool) (d : Dict) (idx : Nat) (ha : List ℝ × List ℝ) : Dict :=
  let fv := g.T.map (fvib g.c g.integ ha.1 ha.2)
  let d := d.write (.axT .F) (setRow idx (fv.map (fun v => g.etot.getD idx 0 + v)))
  let d := d.write (.axT .Fvib) (setRow idx fv)
  if calcAll then
    let sv := g.T.map (svib g.c g.integ ha.1 ha.2)
    let cv := g.T.map (cv g.c g.integ ha.1 ha.2)
    let ev := List.zipWith (fun f ts => f + ts) fv (List.zipWith (fun t s => t * s) g.T sv)
    let d := d.write (.axT .Svib) (setRow idx sv)
    let d := d.write (.axT .Evib) (setRow idx ev)
    d.write (.axT .Cv) (setRow idx cv)
  else d

/-- The loop in `calc_F`. An exception of `HarmonicThermo` leaves `calc_F`. -/
noncomputable def loopF (calcAll : Bool) : Dict → List (Nat × (List ℝ × List ℝ)) → Option Dict
  | d, [] => some d
  | d, (idx, p) :: rest =>
    match g.harm p with
    | none => none
    | some ha => loopF calcAll (g.stepF calcAll d idx ha) rest

/-- `calc_F`, `thermo.py:607-659`. -/
noncomputable def calcF (calcAll : Bool) : Option Dict :=
  let names : List FName := if calcAll then [.F, .Fvib, .Evib, .Svib, .Cv] else [.F, .Fvib]
  let d : Dict := fun k => match k with
    | .axT n => if n ∈ names then some (some (empty junk [g.n, g.T.length])) else none
    | _ => none
  (g.loopF calcAll d ((List.range g.n).zip g.phdos)).map (fun d => d.upd g.base)

/-- `self.etot + self.V * self.P[pidx] / eV_by_Ang3_to_GPa`; in `calc_G` with `F[:,tidx]` instead of
`etot`. -/
noncomputable def addPV (e : List ℝ) (p : ℝ) : List ℝ :=
  List.zipWith (fun a v => a + v * p / g.conv) e g.vols

/-- `_fit_opt_store`, `thermo.py:526-582`; `key` is `Key.optTP` or `Key.optP`. `none`: an exception. -/
noncomputable def fitOptStore (key : OName → Key) (d : Dict) (gg : List ℝ) (tpidx : List Nat) : Option Dict :=
  match g.case with
  | .c1 =>
    let fit := g.fit1G g.vols gg
    let vopt := fit.min
    let d := d.write (key .V) (setAt tpidx vopt)
    let d := d.write (key .GH) (setAt tpidx (fit.ev vopt))
    let d := (List.range g.nax).foldl (fun d iax => d.write (key (.ax iax))
      (setAt tpidx ((g.fit1ax g.vols (g.axes.map (fun r => r.getD iax 0))).ev vopt))) d
    some (d.write (key .B) (setAt tpidx (vopt * fit.der 2 vopt * g.conv)))
  | .c2 =>
    if g.nax ≠ 2 then none
    else
      let mn := gg.foldl min (gg.headD 0)
      let mx := gg.foldl max (gg.headD 0)
      let fit := g.fit2G g.axes (gg.map (fun v => (v - mn) / (mx - mn)))
      let xopt := fit.min
      let d := d.write (key (.ax 0)) (setAt tpidx (xopt.getD 0 0))
      let d := d.write (key (.ax 1)) (setAt tpidx (xopt.getD 1 0))
      let d := d.write (key .GH) (setAt tpidx (fit.ev xopt * (mx - mn) + mn))
      some (d.write (key .V) (setAt tpidx (g.volfunc xopt)))
  | .c3 => none
  | .unknown => none

/-- `_set_not_calc_none`, `thermo.py:584-595` (`volfunc_ax` is not `None`: the constructor calls it). -/
def setNotCalcNone (key : OName → Key) (d : Dict) : Dict :=
  if g.nax = 1 then (d.set (key (.ax 1)) none).set (key (.ax 2)) none
  else if g.nax = 2 then
    if g.case ≠ .c1 then (d.set (key (.ax 2)) none).set (key .B) none else d.set (key (.ax 2)) none
  else d

/-- A loop over `(idx, gg)` calling `_fit_opt_store`, with `gg` read from the dictionary by `row`. -/
noncomputable def loopOpt (key : OName → Key) (row : Dict → List Nat → List ℝ) : Dict → List (List Nat) → Option Dict
  | d, [] => some d
  | d, idx :: rest =>
    match g.fitOptStore key d (row d idx) idx with
    | none => none
    | some d' => loopOpt key row d' rest

/-- `ret[...][pidx,:]`, `ret[...][tidx,pidx,:]`. -/
def rowOf (k : Key) (d : Dict) (idx : List Nat) : List ℝ :=
  match d k with
  | some (some a) => (List.range g.n).map (fun i : Nat => a.get (idx ++ [i]))
  | _ => []

/-- `ret.update(dict((..., np.empty(shape)) for name in ['ax0', 'ax1', 'ax2', 'V', 'G', 'B']))`. -/
def addOpt (key : OName → Key) (shape : List Nat) (d : Dict) : Dict :=
  [OName.ax 0, .ax 1, .ax 2, .V, .GH, .B].foldl (fun d o => d.set (key o) (some (empty junk shape))) d

/-- `calc_H`, `thermo.py:661-689`. -/
noncomputable def calcH (calcAll : Bool) : Option Dict :=
  let d : Dict := fun k => if k = .PaxH then some (some (empty junk [g.P.length, g.n])) else none
  let d := (List.range g.P.length).foldl (fun d p => d.write .PaxH (setRow p (g.addPV g.etot (g.P.getD p 0)))) d
  let r := if calcAll then
      g.loopOpt .optP (g.rowOf .PaxH) (addOpt junk .optP [g.P.length] d) ((List.range g.P.length).map (fun p : Nat => [p]))
    else some d
  r.map (fun d => (g.setNotCalcNone .optP d).upd g.base)

/-- `ret[prefix + '/T/F'][:,tidx]`. -/
def colF (d : Dict) (t : Nat) : List ℝ :=
  match d (.axT .F) with
  | some (some a) => (List.range g.n).map (fun i : Nat => a.get [i, t])
  | _ => []

/-- The pairs of the loops over `tidx` and `pidx`. -/
def tp : List (Nat × Nat) := (List.range g.T.length).flatMap (fun t => (List.range g.P.length).map (fun p => (t, p)))

/-- The column `arr[:,pidx]`. -/
def col (a : Arr) (nT p : Nat) : List ℝ := (List.range nT).map (fun t : Nat => a.get [t, p])

/-- The part of `calc_G` on the thermal expansion, `thermo.py:743-751`, for one name. -/
noncomputable def alphaStep (d : Dict) (o : OName) : Dict :=
  match d (.optTP o) with
  | some (some a) => (List.range g.P.length).foldl (fun d p =>
      let x := col a g.T.length p
      let fit := g.fitAlpha g.T x
      d.write (.alpha o) (setCol p (List.zipWith (fun t v => fit.der 1 t / v) g.T x))) d
  | _ => d.set (.alpha o) none

/-- The part of `calc_G` on the heat capacity, `thermo.py:753-756`. -/
noncomputable def cpStep (d : Dict) : Dict :=
  let a := match d (.optTP .GH) with | some (some a) => a | _ => empty junk []
  (List.range g.P.length).foldl (fun d p =>
      let fit := g.fitC g.T ((col a g.T.length p).map (fun v => v * g.c.eV / g.c.kb))
      d.write .Cp (setCol p (g.T.map (fun t => -t * fit.der 2 t)))) (d.set .Cp (some (empty junk [g.T.length, g.P.length])))

/-- The first part of `calc_G`, `thermo.py:718-722`: the array `G`. -/
noncomputable def fillG (d : Dict) : Dict :=
  g.tp.foldl (fun d tp => d.write .TPaxG (setRow2 tp.1 tp.2 (g.addPV (g.colF d tp.1) (g.P.getD tp.2 0))))
    (d.set .TPaxG (some (empty junk [g.T.length, g.P.length, g.n])))

/-- The middle part of `calc_G`, `thermo.py:725-737`: `calc_H` and the minima. -/
noncomputable def optG (d : Dict) : Option Dict :=
  match g.calcH junk true with
  | none => none
  | some h =>
    (g.loopOpt .optTP (g.rowOf .TPaxG) (addOpt junk .optTP [g.T.length, g.P.length] (d.upd h))
        (g.tp.map (fun tp => [tp.1, tp.2]))).map (g.setNotCalcNone .optTP)

/-- The last part of `calc_G`, `thermo.py:739-756`: thermal expansion and heat capacity. -/
noncomputable def thermal (d : Dict) : Dict :=
  let names : List OName := [.ax 0, .ax 1, .ax 2, .V]
  let d := names.foldl (fun d o => d.set (.alpha o) (some (empty junk [g.T.length, g.P.length]))) d
  g.cpStep junk (names.foldl g.alphaStep d)

/-- `if ret is None: ret = self.calc_F(calc_all=calc_all)`, `thermo.py:716-717`. -/
noncomputable def startG (ret : Option Dict) (calcAll : Bool) : Option Dict :=
  match ret with
  | some d => some d
  | none => g.calcF junk calcAll

/-- `calc_G`, `thermo.py:691-758`. The result is the dictionary `ret`, which is the argument if there is one
(the caller's dictionary is changed). A missing `'/T/F'` in the argument is a `KeyError`; an array of
another shape is taken as an error as well. -/
noncomputable def calcG (ret : Option Dict) (calcAll : Bool) : Option Dict :=
  match g.startG junk ret calcAll with
  | none => none
  | some d =>
    match d (.axT .F) with
    | some (some a) =>
      if a.shape ≠ [g.n, g.T.length] then none
      else
        let d := g.fillG junk d
        let r := if calcAll then (g.optG junk d).map (g.thermal junk) else some d
        r.map (fun d => d.upd g.base)
    | _ => none

end Gibbs
end Pwtools.Thermo
