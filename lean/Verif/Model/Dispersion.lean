import Verif.Model.Num
import Verif.Model.Common
/-!
# Model of `SpecialPointsPath` and `plot_dis` of `src/pwtools/kpath.py`

A figure is modelled by what is drawn into it: the dispersion curves, the vertical lines, the ticks
of the x axis with their labels, the range of the x axis and the curve of the density of states.
Matplotlib itself is modelled by the conditions under which the calls raise (`plot`: lengths of x
and y differ; `set_xticklabels`: not a sequence, or not one label per tick, as in matplotlib ≥ 3.3).
Colors, fonts, the axis label and what an exception leaves in a half finished figure are not
modelled. Reals stand for floats, `fmt` for the conversion `"%.2g" % x`.
-/
namespace Pwtools.Dispersion
open Num

/-- k-points. -/
abbrev V3 := Fin 3 → ℝ

/-- An instance of `kpath.SpecialPointsPath`, `kpath.py:59-79`. -/
structure SpecialPoints where
  ks : List V3
  ksFrac : List V3
  symbols : Option (List Text)
  pathNorm : List ℝ

/-- The exceptions that occur here. -/
inductive Err
  | assertionError | indexError | valueError | typeError | unboundLocalError | exception
  deriving DecidableEq

/-- `SpecialPointsPath.__init__`, `kpath.py:62-79`. `none` arguments: not given. -/
noncomputable def specialPointsPath (ks ksFrac : Option (List V3)) (symbols : Option (List Text)) :
    Except Err SpecialPoints :=
  match ks, ksFrac with
  | some ks, some ksFrac =>
      match getPathNorm ks with
      | none => .error .indexError
      | some pathNorm => .ok { ks, ksFrac, symbols, pathNorm }
  | _, _ => .error .assertionError

/-- `show_coords` of `plot_dis`: `None`, `'cart'`, `'frac'` or anything else. -/
inductive Show
  | no | cart | frac | other
  deriving DecidableEq

/-- What `plot_dis` draws and returns. `axdos`: the points of the curve in the second axes, `none`
if there are no second axes (`axdos = None`). -/
structure Figure where
  curveX : List ℝ
  curveY : List (List ℝ)
  vlines : List ℝ
  vlinesLim : ℝ × ℝ
  ticks : List (ℝ × Text)
  xlim : ℝ × ℝ
  axdos : Option (List (ℝ × ℝ))

/-- One label of `kpath.py:163`: `'%s\n[%s]' % (sym, common.seq2str(kk, func=fmtfunc, sep=','))`. -/
noncomputable def coordText (fmt : ℝ → Text) (sym : Text) (kk : V3) : Text :=
  sym ++ ['\n', '['] ++ seq2str (List.ofFn kk) fmt [','] ++ [']']

/-- The labels, `kpath.py:164-175`. -/
noncomputable def labelsOf (fmt : ℝ → Text) (spp : SpecialPoints) (show' : Show) : Except Err (List Text) :=
  match show', spp.symbols with
  | .other, _ => .error .exception
  -- `set_xticklabels(None)` and `zip(None, ks_plot)`
  | _, none => .error .typeError
  | .no, some symbols => .ok symbols
  | .cart, some symbols => .ok (List.zipWith (coordText fmt) symbols spp.ks)
  | .frac, some symbols => .ok (List.zipWith (coordText fmt) symbols spp.ksFrac)

/-- `kpath.plot_dis`, `kpath.py:82-191`. `autoYlim`: `ax.get_ylim()` after the curves were drawn. -/
noncomputable def plotDis (fmt : ℝ → Text) (autoYlim : ℝ × ℝ) (pathNorm : List ℝ) (freqs : List (List ℝ))
    (spp : Option SpecialPoints) (show' : Show) (dos : Option (List (ℝ × ℝ))) (ylim : Option (ℝ × ℝ)) :
    Except Err Figure :=
  -- ax.plot(path_norm, freqs)
  if pathNorm.length ≠ freqs.length then .error .valueError else
  match spp with
  -- `axdos` is assigned only inside of `if special_points_path is not None`
  | none => .error .unboundLocalError
  | some spp =>
      let ylim := ylim.getD autoYlim
      let nrm := spp.pathNorm
      match labelsOf fmt spp show' with
      | .error e => .error e
      | .ok labels =>
          if nrm.length ≠ labels.length then .error .valueError else
          match pathNorm.head?, pathNorm.getLast? with
          | some x0, some x1 =>
              .ok { curveX := pathNorm, curveY := freqs, vlines := nrm, vlinesLim := ylim,
                    ticks := List.zip nrm labels, xlim := (x0, x1),
                    -- axdos.plot(dos[:,1], dos[:,0])
                    axdos := dos.map (fun rows => rows.map (fun r => (r.2, r.1))) }
          | _, _ => .error .indexError

end Pwtools.Dispersion
