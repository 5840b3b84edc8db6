import Verif.Model.Slowness
import Verif.Model.Database
import Verif.Model.Rename

/-!
# Positions of the sensors

Models `get_coordinates` (xcorr.py:470-526) for its three forms of input. obspy's `util_geo_km` is a parameter `geo`: centre longitude and latitude, then
longitude and latitude of the point, to east and north in km. `get_geometry`, `Inventory.get_contents` and `Inventory.get_coordinates` of obspy are modelled as
they are documented. Floats are exact.
-/

namespace Gemlog

/-- A channel of an inventory: codes, longitude, latitude, elevation. Several channels may have the same codes (epochs). -/
structure InvChannel where
  network : List Nat
  station : List Nat
  location : List Nat
  channel : List Nat
  lon : Rat
  lat : Rat
  elev : Rat
  deriving DecidableEq, Repr

/-- The identifier `NET.STA.LOC.CHA` of a channel, as listed by `get_contents()['channels']` (xcorr.py:508). -/
def InvChannel.seed (c : InvChannel) : List Nat :=
  c.network ++ [46] ++ (c.station ++ [46] ++ (c.location ++ [46] ++ c.channel))

/-- What a trace has in `stats.coordinates`; `none`: there is no such entry. -/
structure TraceCoords where
  longitude : Option Rat := none
  latitude : Option Rat := none
  x : Option Rat := none
  y : Option Rat := none
  elevation : Option Rat := none
  deriving DecidableEq, Repr

/-- A trace of a stream: its codes and coordinates. -/
structure CoordTrace where
  network : List Nat
  station : List Nat
  location : List Nat
  coords : TraceCoords
  deriving DecidableEq, Repr

/-- A row of the table returned (xcorr.py:480): x and y in km, z in m; `none` for `None`. -/
structure SensorRow where
  network : Option (List Nat)
  station : Option (List Nat)
  location : Option (List Nat)
  x : Rat
  y : Rat
  z : Option Rat
  deriving DecidableEq, Repr

/-- The forms of input (xcorr.py:470-476). `y = None` beside an array is left out. -/
inductive CoordInput where
  | stream (traces : List CoordTrace)
  | inventory (channels : List InvChannel)
  | arrays (x y : List Rat)

/-- obspy's `util_geo_km(orig_lon, orig_lat, lon, lat)`. -/
abbrev GeoKm := Rat → Rat → Rat → Rat → Rat × Rat

/-- Longitude, latitude and elevation of a trace; `none`: AttributeError in `get_geometry`. -/
def TraceCoords.lonlat? (c : TraceCoords) : Option (Rat × Rat × Rat) :=
  match c.longitude, c.latitude, c.elevation with
  | some lon, some lat, some h => some (lon, lat, h)
  | _, _, _ => none

/-- x, y and elevation of a trace; `none`: KeyError (xcorr.py:499-501). -/
def TraceCoords.xy? (c : TraceCoords) : Option (Rat × Rat × Rat) :=
  match c.x, c.y, c.elevation with
  | some x, some y, some h => some (x, y, h)
  | _, _, _ => none

/-- obspy's `get_geometry(..., coordsys = 'lonlat', return_center = True)`: positions relative to the centre, and the centre. -/
def getGeometry (geo : GeoKm) (ps : List (Rat × Rat × Rat)) : List (Rat × Rat × Rat) × (Rat × Rat × Rat) :=
  let lon := meanRat (ps.map fun p => p.1)
  let lat := meanRat (ps.map fun p => p.2.1)
  let h := meanRat (ps.map fun p => p.2.2)
  (ps.map fun p => ((geo lon lat p.1 p.2.1).1, (geo lon lat p.1 p.2.1).2, p.2.2 - h), (lon, lat, h))

/-- xcorr.py:488-501: x, y and z of the traces of a stream. -/
def streamPositions (geo : GeoKm) (st : List CoordTrace) : Option (List (Rat × Rat × Rat)) :=
  match st.mapM fun tr => tr.coords.lonlat? with
  | some ps =>
    let g := getGeometry geo ps
    some (g.1.map fun p => (p.1, p.2.1, p.2.2 + g.2.2.2))                           -- 491-493
  | none => st.mapM fun tr => tr.coords.xy?                                          -- 495-501

/-- obspy's `Inventory.get_coordinates(s)`: the first channel with this identifier. -/
def seedChannel (inv : List InvChannel) (s : List Nat) : Option InvChannel := inv.find? fun c => c.seed = s

/-- xcorr.py:516-518: a row for an identifier; `none`: IndexError. -/
def inventoryRow (s : List Nat) (p : Rat × Rat) (z : Rat) : Option SensorRow :=
  match pySplit 46 s with
  | net :: sta :: loc :: _ => some ⟨some net, some sta, some loc, p.1, p.2, some z⟩
  | _ => none

/-- xcorr.py:470-526 `get_coordinates`. -/
def getCoordinates (geo : GeoKm) : CoordInput → Except Exc (List SensorRow)
  | .stream st =>
    match streamPositions geo st with
    | none => .error .other
    | some ps => .ok ((st.zip ps).map fun q => ⟨some q.1.network, some q.1.station, some q.1.location, q.2.1, q.2.2.1, some q.2.2.2⟩)   -- 503-505
  | .inventory inv =>
    let contents := sortNames (inv.map InvChannel.seed)                              -- 507
    match contents.mapM (seedChannel inv) with
    | none => .error .other
    | some chans =>
      let lon := meanRat (chans.map InvChannel.lon)                                  -- 514
      let lat := meanRat (chans.map InvChannel.lat)
      match (contents.zip chans).mapM fun q => inventoryRow q.1 (geo lon lat q.2.lon q.2.lat) q.2.elev with
      | none => .error .other
      | some rows => .ok rows
  | .arrays x y =>
    if x.length = y.length then .ok ((x.zip y).map fun p => ⟨none, none, none, p.1, p.2, none⟩)   -- 519-525
    else .error .other                                                               -- 526: ValueError of `pd.DataFrame`

/-- A code as text: xcorr.py:140, `None` in an f-string. -/
def codeText : Option (List Nat) → List Nat
  | some c => c
  | none => bytes "None"

/-- A row as `invert_for_slowness` uses it (xcorr.py:140, 155-157). -/
def SensorRow.toLoc (r : SensorRow) : LocRow := ⟨codeText r.network, codeText r.station, codeText r.location, r.x, r.y⟩

end Gemlog
