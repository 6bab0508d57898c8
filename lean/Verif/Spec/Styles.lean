import Mathlib.Data.Real.Basic
/-!
# Specification for C153 and C154
-/
namespace Pwtools.Spec

/-- The colours, markers and line styles of `help(plot)` that are offered. -/
def plotColors : List String := ["b", "g", "r", "c", "m", "y", "k"]
/-- Markers. -/
def plotMarkers : List String := ["o", "v", "^", "<", ">", "s", "p", "*", "h", "H", "+", "x", "D"]
/-- Line styles. -/
def plotLines : List String := ["-", "--", ":", "-."]

/-- The long and the short name of each iterator that has both, with the parts of which its styles are made. -/
def styleNames : List (String × String × List (List String)) := [
  ("cycle_colors", "cc", [plotColors]), ("cycle_markers", "cm", [plotMarkers]),
  ("cycle_colors_markers", "ccm", [plotColors, plotMarkers]), ("cycle_colors_linestyles", "ccl", [plotColors, plotLines]),
  ("cycle_markers_colors", "cmc", [plotMarkers, plotColors]), ("cycle_linestyles_colors", "clc", [plotLines, plotColors])]

/-- The same for the iterators that stop. -/
def stopNames : List (String × String × List (List String)) := [
  ("iter_colors", "ic", [plotColors]), ("iter_markers", "im", [plotMarkers]),
  ("iter_colors_markers", "icm", [plotColors, plotMarkers]), ("iter_colors_linestyles", "icl", [plotColors, plotLines]),
  ("iter_markers_colors", "imc", [plotMarkers, plotColors]), ("iter_linestyles_colors", "ilc", [plotLines, plotColors])]

/-- `s` consists of one entry of each part. -/
def MadeOf (s : String) : List (List String) → Prop
  | [] => s = ""
  | [p] => s ∈ p
  | p :: ps => ∃ x ∈ p, ∃ t, MadeOf t ps ∧ s = x ++ t

/-- All styles, each once. -/
def AllStyles (parts : List (List String)) (styles : List String) : Prop :=
  styles.Nodup ∧ ∀ s, s ∈ styles ↔ MadeOf s parts

/-- How often one of two names was used before place `t` of a history. -/
def drawnBefore (long short : String) (h : List String) (t : Nat) : Nat :=
  ((h.take t).filter fun n => n = long ∨ n = short).length

end Pwtools.Spec
