import Verif.Model.Segments

/-!
# The plot of clock drift

Models `_plot_drift_several` (core.py:1213-1231): the points drawn.
-/

namespace Gemlog

/-- core.py:1210-1211 `_no_drift`. -/
def noDrift (x : Rat) : Rat := x * (1024 / 1000000)

/-- The four curves drawn, in order, as counts and heights (`none`: NaN, not drawn). -/
structure DriftPlot where
  upperData : List (Rat × Option Rat)
  upperFixes : List (Rat × Option Rat)
  lowerData : List (Rat × Option Rat)
  lowerFixes : List (Rat × Option Rat)
  deriving DecidableEq, Repr

/-- core.py:1224, 1225, 1227: `_apply_segments(x, header) - _no_drift(x) - yg[0]` at one count. -/
def driftAt (header : List HeaderRow) (y0 x : Rat) : Option Rat := (applySegments header x).map fun t => t - noDrift x - y0

/-- core.py:1228: `(drift_gps[-1] - drift_gps[0]) / (xg[-1] - xg[0])`. With equal counts this is 0/0, which is NaN in numpy. -/
def driftSlope (header : List HeaderRow) (y0 x0 x1 : Rat) : Option Rat :=
  match driftAt header y0 x1, driftAt header y0 x0 with
  | some b, some a => if x1 - x0 = 0 then none else some ((b - a) / (x1 - x0))
  | _, _ => none

/-- core.py:1230, 1231: the same without the straight line. -/
def detrendedAt (header : List HeaderRow) (y0 : Rat) (slope : Option Rat) (x : Rat) : Option Rat :=
  match driftAt header y0 x, slope with
  | some y, some s => some (y - x * s)
  | _, _ => none

/-- core.py:1218-1231, from what `_read_several` returns. Without a fix `yg[0]` raises IndexError. -/
def plotDrift {F : Type} (out : Several F) : Except Exc DriftPlot :=
  match out.gps with
  | [] => .error .other
  | g :: _ =>
    let xg := out.gps.map fun f => f.msPPS
    let xd := out.data.map Prod.fst
    let slope := driftSlope out.header g.t g.msPPS ((xg.getLast?).getD 0)
    .ok ⟨xd.map fun x => (x, driftAt out.header g.t x), xg.map fun x => (x, driftAt out.header g.t x),
      xd.map fun x => (x, detrendedAt out.header g.t slope x), xg.map fun x => (x, detrendedAt out.header g.t slope x)⟩

/-- core.py:1213-1231 `_plot_drift_several(file_list)`: the version is always the default one of `_read_several`. -/
def plotDriftSeveral {F : Type} (ops : FileOps F) (files : List F) : Except Exc DriftPlot :=
  (readSeveral ops files "0.9" true).bind plotDrift

end Gemlog
