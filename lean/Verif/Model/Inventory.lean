import Verif.Model.Network

/-!
# Station tables and station inventories

Models `_fix_station_info_keys` (gem_network.py:141-151), `_get_station_info` for a file (gem_network.py:153-190), `_unique`
(gem_network.py:377-383) and `make_gem_inventory` (gem_network.py:192-279). Splitting a CSV file into cells is left to pandas;
all rows have as many cells as the first. Floats are exact.
-/

namespace Gemlog

/-! ## Station tables -/

/-- Words that pandas reads as missing values. -/
def naWords : List (List Nat) :=
  [bytes "#N/A", bytes "#N/A N/A", bytes "#NA", bytes "-1.#IND", bytes "-1.#QNAN", bytes "-NaN", bytes "-nan", bytes "1.#IND",
    bytes "1.#QNAN", bytes "<NA>", bytes "N/A", bytes "NA", bytes "NULL", bytes "NaN", bytes "None", bytes "n/a", bytes "nan",
    bytes "null"]

/-- Does `pd.read_csv(nrows = 1)` leave this cell as text? Not if it is blank, a number or a missing value. Simplification: only
decimal numbers without exponent, and not `True` or `False`, count as other than text. -/
def isTextCell (s : List Nat) : Bool :=
  (s.any fun c => !(isDigit c || c = 32 || c = 43 || c = 45 || c = 46)) && decide (s ∉ naWords)

/-- gem_network.py:154, 160: the names allowed in a header. -/
def headerNames : List (List Nat) := [bytes "sn", bytes "network", bytes "station", bytes "location", bytes "elevation"]

/-- The position of the first column with the given name, compared without regard to case. (gem_network.py:146 compares the
first two characters; the names allowed differ in them.) -/
def columnOf (header : List (List Nat)) (name : List Nat) : Option Nat := header.findIdx? fun h => lower h = name

/-- The rows of a table with the columns in the given places. -/
def tableRows (sn net sta loc : Nat) (el : Option Nat) (rows : List (List (List Nat))) : List StationRow :=
  rows.map fun r => ⟨r.getD sn [], r.getD net [], r.getD sta [], r.getD loc [], match el with
    | some i => .cell (r.getD i [])
    | none => .default⟩

/-- gem_network.py:153-190 `_get_station_info` for a file, given as cells; `none`: an exception. A table without location or
network column raises AttributeError (185-186); one without SN or station column does so at its first use, here already. In a
table without header the columns stay text, as their first cells are. -/
def readStation : List (List (List Nat)) → Option (List StationRow)
  | [] => none                                                                           -- 157: EmptyDataError
  | header :: rows =>
    if header.all isTextCell then
      if header.all fun h => decide (lower h ∈ headerNames) then                         -- 160-162
        match columnOf header (bytes "sn"), columnOf header (bytes "network"), columnOf header (bytes "station"),
            columnOf header (bytes "location") with
        | some sn, some net, some sta, some loc => some (tableRows sn net sta loc (columnOf header (bytes "elevation")) rows)
        | _, _, _, _ => none
      else if header.length = 4 then some (tableRows 0 1 2 3 none (header :: rows))      -- 164-166
      else if header.length = 5 then some (tableRows 0 1 2 3 (some 4) (header :: rows))  -- 167-169
      else none
    else none                                                                            -- 160: AttributeError, no `lower`

/-- The codes file as `gemconvert` sees it. -/
def codesOfCells (cells : List (List (List Nat))) : Option (List CodeRow) :=
  (readStation cells).map fun t => t.map fun r => ⟨r.sn, r.network, r.station, r.location⟩

/-! ## Inventories -/

/-- gem_network.py:377-383 `_unique`. -/
def uniqueGo (seen : List (List Nat)) : List (List Nat) → List (List Nat)
  | [] => seen
  | x :: l => if x ∈ seen then uniqueGo seen l else uniqueGo (seen ++ [x]) l

def uniqueIn (l : List (List Nat)) : List (List Nat) := uniqueGo [] l

/-- A row of the coordinates. -/
structure CoordRow where
  sn : List Nat
  network : List Nat
  station : List Nat
  location : List Nat
  lat : Rat
  lon : Rat
  elevation : Rat
  starttime : Rat
  endtime : Rat
  deriving DecidableEq, Repr

/-- The coordinates: which of the optional columns there are, and the rows. -/
structure Coords where
  hasSN : Bool
  hasCodes : Bool
  hasTimes : Bool
  rows : List CoordRow
  deriving DecidableEq, Repr

structure ChannelInfo where
  location : List Nat
  sn : List Nat
  lat : Rat
  lon : Rat
  elevation : Rat
  start : Rat
  stop : Rat
  deriving DecidableEq, Repr

structure StationInfo where
  name : List Nat
  channels : List ChannelInfo
  lat : Rat
  lon : Rat
  elevation : Rat
  start : Rat
  stop : Rat
  deriving DecidableEq, Repr

structure NetworkInfo where
  name : List Nat
  stations : List StationInfo
  start : Rat
  stop : Rat
  deriving DecidableEq, Repr

/-- gem_network.py:236-240: the lines of the coordinates for a location; `none`: ValueError, a serial number is not a number.
-/
def coordLines (coords : Coords) (net sta loc sn : List Nat) : Option (List CoordRow) :=
  if coords.hasSN && !coords.hasCodes then
    if (pyInt sn).isSome && coords.rows.all fun r => (pyInt r.sn).isSome then
      some (coords.rows.filter fun r => pyInt r.sn = pyInt sn)
    else none
  else some (coords.rows.filter fun r => r.network = net && r.station = sta && r.location = loc)

/-- gem_network.py:246-261: the channel for a line. 253402300799 is 9999-12-31T23:59:59. -/
def channelOf (coords : Coords) (loc sn : List Nat) (r : CoordRow) : ChannelInfo where
  location := loc
  sn := sn
  lat := r.lat
  lon := r.lon
  elevation := r.elevation
  start := if coords.hasTimes then r.starttime - 3600 else 0
  stop := if coords.hasTimes then r.endtime + 3600 else 253402300799

/-- gem_network.py:231-261: the channels of the locations in turn; outer `none`: an exception. -/
def channelsOf (table : List StationRow) (coords : Coords) (net sta : List Nat) : List (List Nat) → Option (List ChannelInfo)
  | [] => some []
  | loc :: locs =>
    match table.find? fun r => r.network = net && r.station = sta && r.location = loc with
    | none => none                                                    -- cannot happen: `iloc[0]` of no lines
    | some s =>
      match coordLines coords net sta loc s.sn with
      | none => none
      | some [] => channelsOf table coords net sta locs               -- 242-244
      | some (r :: _) => (channelsOf table coords net sta locs).map fun l => channelOf coords loc s.sn r :: l

/-- gem_network.py:267-271: the station, given its channels (not empty). -/
def stationOf (name : List Nat) (chs : List ChannelInfo) : StationInfo where
  name := name
  channels := chs
  lat := meanRat (chs.map ChannelInfo.lat)
  lon := meanRat (chs.map ChannelInfo.lon)
  elevation := meanRat (chs.map ChannelInfo.elevation)
  start := minRat (chs.map ChannelInfo.start)
  stop := maxRat (chs.map ChannelInfo.stop)

/-- gem_network.py:225-272: the stations of a network. -/
def stationsOf (table : List StationRow) (coords : Coords) (net : List Nat) : List (List Nat) → Option (List StationInfo)
  | [] => some []
  | sta :: stas =>
    match channelsOf table coords net sta
        (uniqueIn ((table.filter fun r => r.network = net && r.station = sta).map StationRow.location)) with
    | none => none
    | some [] => stationsOf table coords net stas                      -- 263-264
    | some (c :: cs) => (stationsOf table coords net stas).map fun l => stationOf sta (c :: cs) :: l

/-- gem_network.py:220-278: the networks. `np.min` of nothing raises ValueError (274). -/
def networksOf (table : List StationRow) (coords : Coords) : List (List Nat) → Option (List NetworkInfo)
  | [] => some []
  | net :: nets =>
    match stationsOf table coords net (uniqueIn ((table.filter fun r => r.network = net).map StationRow.station)) with
    | none => none
    | some [] => none
    | some (s :: ss) => (networksOf table coords nets).map fun l =>
      ⟨net, s :: ss, minRat ((s :: ss).map StationInfo.start), maxRat ((s :: ss).map StationInfo.stop)⟩ :: l

/-- gem_network.py:192-279 `make_gem_inventory`, given the station table; `none`: an exception. The columns for position and
elevation are taken to be there. -/
def makeInventory (table : List StationRow) (coords : Coords) : Option (List NetworkInfo) :=
  if !coords.hasSN && !coords.hasCodes then none                       -- 213-214
  else networksOf table coords (uniqueIn (table.map StationRow.network))

end Gemlog
