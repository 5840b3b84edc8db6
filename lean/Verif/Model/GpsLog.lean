import Verif.Model.Network
import Verif.Model.Tables

/-!
# The GPS file of a conversion, read back as a GPS log

Links `convert` (core.py:257-265, 307-310, which write the fixes of the blocks) with `read_gps` (gem_network.py:394-430, which reads the file again).
-/

namespace Gemlog

/-- A fix as `pd.read_csv` finds it in the GPS file (gem_network.py:428): the columns `lat`, `lon` and `t` of the row written (core.py:1410-1418). Simplification: the
text of a number is read back as the number; a missing position, which cannot occur in a row of a file that was read (C11), would be 0. -/
def gpsLogRow (f : Fix) : GpsRow := ⟨f.lat.getD 0, f.lon.getD 0, f.t⟩

/-- The rows of the GPS log of a conversion. -/
def gpsLogOf (tb : Tables) : List GpsRow := tb.gps.map gpsLogRow

end Gemlog
