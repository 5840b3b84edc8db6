import Verif.Model.HuddleFull

/-!
# What the figures of the huddle test show

Models the data drawn by gemlog/huddle_test.py: the curves of battery, temperature, A2 and A3 (356-381, 436-449) and the histogram of GPS run times (497-511). How they are
drawn is not modelled. Trusted base: matplotlib's `hist` counts as `np.histogram` does (bins half open, the last one closed; other values are not
counted), and draws every point given to `plot`.
-/

namespace Gemlog

/-- Every tenth element, beginning with the first: `l[::10]` (huddle_test.py:362); `k` elements are to be passed over first. -/
def everyTenth {α : Type} : Nat → List α → List α
  | _, [] => []
  | 0, x :: l => x :: everyTenth 9 l
  | k + 1, _ :: l => everyTenth k l

/-- huddle_test.py:360-366 and 437-438: the points of a curve: every tenth of the rows that have a time; the time is rounded to a second. -/
def curvePoints (col : HuddleRow → Option Rat) (rows : List HuddleRow) : List (Int × Option Rat) :=
  (everyTenth 0 (rows.filter fun r => r.t.isSome)).map fun r => (npRound (r.t.getD 0), col r)

/-- huddle_test.py:508-509: a run of the GPS without the interval between rows; more than 180 becomes 180. -/
def shownRunTime (interval x : Rat) : Rat := if x - interval > 180 then 180 else x - interval

/-- Bin `k` of `np.arange(10, 180, 5)` (huddle_test.py:510): from 10 + 5 k to 15 + 5 k; the last one, from 170 to 175, is closed. -/
def inBin (k : Nat) (x : Rat) : Bool :=
  decide (10 + 5 * (k : Rat) ≤ x) && (decide (x < 15 + 5 * (k : Rat)) || (decide (k = 32) && decide (x = 175)))

/-- huddle_test.py:508-511: the heights of the 33 bars. (The intervals are over eleven seconds already, 489.) -/
def gpsHistogram (interval : Rat) (rows : List HuddleRow) : List Nat :=
  let xs := ((gpsIntervals rows).filterMap id).map (shownRunTime interval)
  (List.range 33).map fun k => xs.countP (inBin k)

end Gemlog
