import Verif.Model.Drift

/-!
# Removing position outliers

Models `_remove_outliers` (gem_network.py:387-392). Floats are exact; no NaN. The standard deviation is compared through its
square.
-/

namespace Gemlog

/-- A row of a GPS summary: latitude, longitude, time in seconds. -/
structure GpsRow where
  lat : Rat
  lon : Rat
  t : Rat
  deriving DecidableEq, Repr

/-- gem_network.py:388: `abs(x - median) < 5 * (1e-5 + std)`, for median `m` and squared standard deviation `v`. -/
def closeTo (x m v : Rat) : Bool :=
  decide (|x - m| < 5 / 100000) || decide ((|x - m| - 5 / 100000) * (|x - m| - 5 / 100000) < 25 * v)

/-- gem_network.py:388: the rows kept by one pass. -/
def outlierPass (x : List GpsRow) : List GpsRow :=
  let lats := x.map GpsRow.lat
  let lons := x.map GpsRow.lon
  x.filter fun p => closeTo p.lat (medianRat lats) (varRat lats) && closeTo p.lon (medianRat lons) (varRat lons)

/-- gem_network.py:387-392 `_remove_outliers` with the default `N = 5`. Fuel: the number of rows. -/
def removeOutliersGo : Nat → List GpsRow → List GpsRow
  | 0, x => x
  | fuel + 1, x => if (outlierPass x).length < x.length then removeOutliersGo fuel (outlierPass x) else x

def removeOutliers (x : List GpsRow) : List GpsRow := removeOutliersGo x.length x

end Gemlog
