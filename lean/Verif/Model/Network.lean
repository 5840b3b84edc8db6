import Verif.Model.Outliers
import Verif.Model.Names
import Verif.Model.Select
import Verif.Model.Cli

/-!
# GPS summaries of a network

Models `read_gps` (gem_network.py:394-430) and `summarize_gps` (gem_network.py:433-561). Directory listings are lists of
files with their rows, in any order. Reading a GPS log back (`pd.read_csv`) gives the rows written. Glob characters in serial
numbers are taken literally. Floats are exact. Standard errors are kept as their squares. Printing is left out.
-/

namespace Gemlog

/-- A GPS log: its base name and its rows. -/
structure GpsFile where
  name : List Nat
  rows : List GpsRow
  deriving DecidableEq, Repr

/-- What a path in the input stands for: a directory or a file. -/
inductive GpsItem where
  | dir (files : List GpsFile)
  | file (f : GpsFile)
  deriving DecidableEq, Repr

/-- Insertion by name, for `sorted`. -/
def insertGps (f : GpsFile) : List GpsFile → List GpsFile
  | [] => [f]
  | g :: l => if nameLe f.name g.name then f :: g :: l else g :: insertGps f l

/-- Python `sorted` on the paths of one directory. -/
def sortGps : List GpsFile → List GpsFile
  | [] => []
  | f :: l => insertGps f (sortGps l)

/-- gem_network.py:418-426: the files considered for one input path. -/
def gpsCandidates (sn : List Nat) : GpsItem → List GpsFile
  | .dir files => sortGps (files.filter fun f => sn.isPrefixOf f.name)
  | .file f => if f.name.take 3 = sn then [f] else []

/-- gem_network.py:427-429: the rows of the last candidate, if there is one. -/
def gpsRowsOf (sn : List Nat) (it : GpsItem) : List GpsRow :=
  match (gpsCandidates sn it).getLast? with
  | some f => f.rows
  | none => []

/-- gem_network.py:394-430 `read_gps`: the tables of all input paths, one after the other. The paths are given in the order in
which the code visits them (sorted if a pattern was given). -/
def readGps (items : List GpsItem) (sn : List Nat) : List GpsRow := items.flatMap (gpsRowsOf sn)

/-- core.py:229-237, 265, 310: what a conversion adds to its GPS folder (here called `gps`): a log under a new name. -/
def addLog (folder : List GpsFile) (e : List Nat × List GpsRow) : List GpsFile :=
  match makeFilename (folder.map fun f => bytes "gps/" ++ f.name) (bytes "gps") e.1 (bytes "gps") with
  | some p => folder ++ [⟨p.drop 4, e.2⟩]
  | none => folder

/-- Everything before the first `gps`, and what follows it (`none`: there is no `gps`). -/
def cutGps : List Nat → List Nat × Option (List Nat)
  | [] => ([], none)
  | c :: l => if (bytes "gps").isPrefixOf (c :: l) then ([], some ((c :: l).drop 3)) else ((c :: (cutGps l).1), (cutGps l).2)

/-- gem_network.py:510: `name.split('gps')[0]`. -/
def snOfName (name : List Nat) : List Nat := (cutGps name).1

/-- gem_network.py:491, 497: the glob pattern `*gps*txt`; names that begin with a dot are not matched. -/
def isGpsName (name : List Nat) : Bool :=
  decide (name.head? ≠ some 46) &&
    match (cutGps name).2 with
    | some rest => (bytes "txt").isSuffixOf rest
    | none => false

/-- The input of `summarize_gps`: a pattern (the paths it matches) or a list of paths. -/
inductive GpsInput where
  | pattern (items : List GpsItem)
  | list (items : List GpsItem)
  deriving DecidableEq, Repr

def GpsInput.items : GpsInput → List GpsItem
  | .pattern items => items
  | .list items => items

/-- gem_network.py:487-502: the names of the files found. For a pattern, `glob(path + '/*gps*txt')` finds nothing if the path is
a file. -/
def gpsNames : GpsInput → List (List Nat)
  | .pattern items => items.flatMap fun
    | .dir files => (files.map GpsFile.name).filter isGpsName
    | .file _ => []
  | .list items => items.flatMap fun
    | .dir files => (files.map GpsFile.name).filter isGpsName
    | .file f => [f.name]

/-- `include_SN` or `exclude_SN`: a list, or a string as the command line passes it. -/
inductive SNFilter where
  | list (l : List (List Nat))
  | text (s : List Nat)
  deriving DecidableEq, Repr

/-- Python `a in s` for strings. -/
def isInfix (a : List Nat) : List Nat → Bool
  | [] => a.isEmpty
  | c :: l => a.isPrefixOf (c :: l) || isInfix a l

/-- gem_network.py:511-512: `current_SN in ...`. -/
def SNFilter.has (sn : List Nat) : SNFilter → Bool
  | .list l => decide (sn ∈ l)
  | .text s => isInfix sn s

/-- gem_network.py:511-512. -/
def snWanted (incl excl : Option SNFilter) (sn : List Nat) : Bool :=
  (match incl with
    | none => true
    | some f => f.has sn) &&
  match excl with
  | none => true
  | some f => !f.has sn

/-- gem_network.py:504-515: the serial numbers, sorted, without repetition. -/
def summaryList (inp : GpsInput) (incl excl : Option SNFilter) : List (List Nat) :=
  uniqueStr (((gpsNames inp).map snOfName).filter (snWanted incl excl))

/-- A row of the summary. -/
structure GpsSummary where
  sn : List Nat
  lat : Rat
  lon : Rat
  latSE2 : Rat          -- square of the standard error
  lonSE2 : Rat
  starttime : Rat
  endtime : Rat
  num : Nat
  deriving DecidableEq, Repr

def minRat : List Rat → Rat
  | [] => 0
  | a :: l => l.foldl min a

def maxRat : List Rat → Rat
  | [] => 0
  | a :: l => l.foldl max a

/-- gem_network.py:525-531: the row for a table that is not empty. -/
def summaryRow (sn : List Nat) (g : List GpsRow) : GpsSummary where
  sn := sn
  lat := meanRat (g.map GpsRow.lat)
  lon := meanRat (g.map GpsRow.lon)
  latSE2 := varRat (g.map GpsRow.lat) / g.length
  lonSE2 := varRat (g.map GpsRow.lon) / g.length
  starttime := minRat (g.map GpsRow.t)
  endtime := maxRat (g.map GpsRow.t)
  num := g.length

/-- gem_network.py:521-523: the rows of one serial number that are used. -/
def usedRows (inp : GpsInput) (t1 t2 : Rat) (sn : List Nat) : List GpsRow :=
  (removeOutliers (readGps inp.items sn)).filter fun r => decide (t1 ≤ r.t) && decide (r.t ≤ t2)

/-- gem_network.py:519-535. -/
def summarizeOne (inp : GpsInput) (t1 t2 : Rat) (sn : List Nat) : Option GpsSummary :=
  if 0 < (usedRows inp t1 t2 sn).length then some (summaryRow sn (usedRows inp t1 t2 sn)) else none

/-- gem_network.py:433-535 `summarize_gps`, without the station codes. `t1`, `t2`: seconds; the defaults are 1970-01-01 and
9999-12-31. -/
def summarizeGps (inp : GpsInput) (t1 t2 : Rat) (incl excl : Option SNFilter) : List GpsSummary :=
  (summaryList inp incl excl).filterMap (summarizeOne inp t1 t2)

/-- An elevation: a cell of the station table, which stays text, or the default -9999. -/
inductive Elevation where
  | cell (s : List Nat)
  | default
  deriving DecidableEq, Repr

/-- A row of the station table. -/
structure StationRow where
  sn : List Nat
  network : List Nat
  station : List Nat
  location : List Nat
  elevation : Elevation
  deriving DecidableEq, Repr

/-- gem_network.py:542-553: the codes for one serial number; the SN is compared as text. -/
def codesOf (table : List StationRow) (sn : List Nat) : List Nat × List Nat × List Nat × Elevation :=
  match table.find? fun r => r.sn = sn with
  | some r => (r.network, r.station, r.location, r.elevation)
  | none => ([], [], [], .default)

/-- gem_network.py:536-560: the summary with codes. -/
def withCodes (table : List StationRow) (rows : List GpsSummary) : List (GpsSummary × (List Nat × List Nat × List Nat × Elevation)) :=
  rows.map fun r => (r, codesOf table r.sn)

end Gemlog
