import Verif.Model.Database

/-!
# Figures of amplitudes and lags

Models the data drawn and printed by `plot_amp` (gemlog_aux.py:8-17) and `plot_lags` (gemlog_aux.py:71-100). matplotlib's `legend(labels)` gives the labels
to the lines in the order in which they were drawn. Points whose value is NaN are not drawn.
-/

namespace Gemlog

/-- What `plot_amp` shows: labelled lines, and a printed number for each station. -/
structure AmpFigure where
  lines : List (List Nat × List (Int × Rat))
  printed : List (List Nat × Rat)

/-- gemlog_aux.py:12-14: the points of a station: start and amplitude of each row of the database. `log10` and the scale of the axis are matters of display. -/
def ampPoints (log10 : Rat → Rat) (db : List DbRow) (sta : List Nat) : List (Int × Rat) :=
  (db.filter fun r => decide (r.station = sta)).map fun r => (r.t1, log10 r.amp)

/-- gemlog_aux.py:8-17 `plot_amp`. `unique()` lists the stations in the order of their first rows; the labels are sorted (10), the lines are not (11). -/
def plotAmp (log10 : Rat → Rat) (quantile : List Rat → Rat → Rat) (db : List DbRow) : AmpFigure :=
  let stations := uniqueIn (db.map DbRow.station)
  { lines := (sortNames stations).zip (stations.map (ampPoints log10 db))
    printed := stations.map fun sta => (sta, quantile ((db.filter fun r => decide (r.station = sta)).map DbRow.amp) (1 / 4)) }

/-- gemlog_aux.py:76-81: is a window shown? The factor is 1 or NaN. -/
def LagWindow.shown (useConsistency : Bool) (w : LagWindow) : Bool := !useConsistency || w.consistency == 0

/-- gemlog_aux.py:83, 87: line `i` of lags, shifted by `i/6`; `none`: not drawn. -/
def lagLine (useConsistency : Bool) (ws : List LagWindow) (i : Nat) : List (Option Rat) :=
  ws.map fun w => if w.shown useConsistency then w.lags[i]?.map fun x : Int => (x : Rat) + (i : Rat) / 6 else none

/-- gemlog_aux.py:92, 96: line `i` of correlation coefficients. -/
def coefLine (useConsistency : Bool) (ws : List LagWindow) (i : Nat) : List (Option Rat) :=
  ws.map fun w => if w.shown useConsistency then w.coefs[i]? else none

/-- The four panels of `plot_lags`, each with three lines. -/
structure LagFigure where
  lags1 : List (List (Option Rat))
  lags0 : List (List (Option Rat))
  coefs1 : List (List (Option Rat))
  coefs0 : List (List (Option Rat))
  deriving DecidableEq, Repr

/-- gemlog_aux.py:71-100 `plot_lags` of two results of `check_lags`, with `n0` and `n1` stations. `N = 3` lines are drawn, and a row that is missing
raises IndexError. -/
def plotLags (useConsistency : Bool) (n0 n1 : Nat) (ws0 ws1 : List LagWindow) : Except Exc LagFigure :=
  if n0 < 3 ∨ n1 < 3 then .error .other
  else .ok ⟨(List.range 3).map (lagLine useConsistency ws1), (List.range 3).map (lagLine useConsistency ws0),
    (List.range 3).map (coefLine useConsistency ws1), (List.range 3).map (coefLine useConsistency ws0)⟩

end Gemlog
