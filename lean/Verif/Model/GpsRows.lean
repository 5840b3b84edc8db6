import Verif.Model.Process

/-!
# The table of GPS fixes that is returned and written

Models core.py `_reformat_GPS` (1410-1418), which `_assign_times` (1251) applies to the fixes of a block. The rows are what `read_gem` returns as `gps`, what
`convert` writes into the GPS file, and what `gem_network.read_gps` documents: year, date (day of year), lat, lon, t.
-/

namespace Gemlog

/-- A row of the table. -/
structure FixRow where
  year : Int
  date : Rat
  lat : Option Rat
  lon : Option Rat
  t : Rat
  deriving DecidableEq, Repr

/-- `UTCDateTime.julday`, for a number of seconds since 1970. -/
def julday (s : Int) : Int :=
  let c := dateOfDay (s / 86400)
  daysBeforeMonth c.year c.month + c.day

/-- core.py:1412: `tt.julday + tt.hour/24.0 + tt.minute/1440.0 + tt.second/86400.0`. Simplification: exact arithmetic. -/
def gpsDate (t : Rat) : Rat :=
  let s := ⌊t⌋
  (julday s : Rat) + ((s % 86400 / 3600 : Int) : Rat) / 24 + ((s % 3600 / 60 : Int) : Rat) / 1440 + ((s % 60 : Int) : Rat) / 86400

/-- core.py:1411-1417 for one fix; `int(year)` raises ValueError for NaN. -/
def gpsRow (f : Fix) : Except Exc FixRow :=
  match f.year with
  | none => .error .other
  | some y => .ok ⟨pyTrunc y, gpsDate f.t, f.lat, f.lon, f.t⟩

/-- core.py:1410-1418 `_reformat_GPS`. -/
def reformatGps (fixes : List Fix) : Except Exc (List FixRow) := fixes.mapM gpsRow

end Gemlog
