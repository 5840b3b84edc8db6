import Verif.Model.Drift

/-!
# Assigning times

Models `_apply_segments` (core.py:1236-1243) and the time columns made by `_assign_times`
(core.py:1245-1270).
-/

namespace Gemlog

/-- core.py:1239-1242: one pass of the loop over the header rows, for one count `x` with the time assigned so far
(`none` is NaN). -/
def segmentStep (x : Rat) (y : Option Rat) (row : HeaderRow) : Option Rat :=
  if x ≥ row.info.startMs ∧ x ≤ row.info.endMs then some (applyFit x row.info) else y

/-- core.py:1236-1243 `_apply_segments`, for one count. -/
def applySegments (header : List HeaderRow) (x : Rat) : Option Rat :=
  header.foldl (segmentStep x) none

/-- core.py:1266: the data array with the column of times. -/
def timedData (out : List (Rat × Option Rat)) (header : List HeaderRow) : List (Rat × Option Rat × Option Rat) :=
  out.map fun p => (p.1, p.2, applySegments header p.1)

/-- core.py:1257: the metadata times. -/
def timedMetadata (out : List (Rat × List (Option Rat))) (header : List HeaderRow) :
    List (Rat × List (Option Rat) × Option Rat) :=
  out.map fun p => (p.1, p.2, applySegments header p.1)

/-- core.py:1258-1260: start and end times of the header rows. -/
def headerTimes (header : List HeaderRow) : List (Option Rat × Option Rat) :=
  header.map fun r => (applySegments header r.info.startMs, applySegments header r.info.endMs)

end Gemlog
