import Verif.Model.Inventory
import Verif.Model.Reference

/-!
# The command line of gem_make_inventory

Models `summarize_gps_terminal` (gem_network.py:565-654) after `argparse` has parsed the command line: GPS logs and station table in, rows of the CSV file and
inventory out. The lists of serial numbers are passed on as text (636-637: the split lists are not used). The response (C92) and the writing of
the files are left out.
-/

namespace Gemlog

/-- What `argparse` gives (gem_network.py:605-619). `items`: what the paths stand for; `station`: the cells of the station table, if one is
named; times in seconds. -/
structure InventoryArgs where
  items : List GpsItem
  station : Option (List (List (List Nat))) := none
  includes : Option (List Nat) := none
  excludes : Option (List Nat) := none
  t1 : Rat := 0
  t2 : Rat := 253402214400

/-- The rows that `summarize_gps` finds (gem_network.py:635-637). -/
def terminalSummary (a : InventoryArgs) : List GpsSummary :=
  summarizeGps (.list a.items) a.t1 a.t2 (a.includes.map .text) (a.excludes.map .text)

/-- A row of the table of coordinates: the summary, the codes and the elevation (gem_network.py:536-560, 639-646). Without a station table the
station is the serial number. `none`: the station table cannot be read. -/
def terminalCoords (a : InventoryArgs) : Option (List (GpsSummary × (List Nat × List Nat × List Nat × Elevation))) :=
  match a.station with
  | none => some ((terminalSummary a).map fun r => (r, ([], r.sn, [], .default)))
  | some cells => (readStation cells).map fun table => withCodes table (terminalSummary a)

/-- The number that obspy makes of an elevation; `none`: ValueError. -/
def elevationValue : Elevation → Option Rat
  | .default => some (-9999)
  | .cell s => pyFloat s

/-- A row as a row of the station table. -/
def stationOfCoord (x : GpsSummary × (List Nat × List Nat × List Nat × Elevation)) : StationRow := ⟨x.1.sn, x.2.1, x.2.2.1, x.2.2.2.1, x.2.2.2.2⟩

/-- A row as a row of the coordinates. -/
def coordOfCoord (x : GpsSummary × (List Nat × List Nat × List Nat × Elevation)) : CoordRow where
  sn := x.1.sn
  network := x.2.1
  station := x.2.2.1
  location := x.2.2.2.1
  lat := x.1.lat
  lon := x.1.lon
  elevation := (elevationValue x.2.2.2.2).getD 0
  starttime := x.1.starttime
  endtime := x.1.endtime

/-- gem_network.py:565-654 `summarize_gps_terminal`: the inventory; `none`: an exception. The table of coordinates is also the station table (650).
Simplification: an elevation that is not a number raises also if its row is not used. -/
def inventoryTerminal (a : InventoryArgs) : Option (List NetworkInfo) :=
  match terminalCoords a with
  | none => none
  | some rows =>
    if rows.all fun x => (elevationValue x.2.2.2.2).isSome then makeInventory (rows.map stationOfCoord) ⟨true, true, true, rows.map coordOfCoord⟩
    else none

end Gemlog
