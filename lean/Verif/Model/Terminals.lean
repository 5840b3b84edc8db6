import Verif.Model.Slowness
import Verif.Model.Xcorr

/-!
# The command lines of the cross-correlation

Models `xcorr_all_terminal` (xcorr.py:10-75) and `calculate_direction_terminal` (xcorr.py:79-114) after `argparse` has parsed the command line. The files
are a function from paths to contents. Reading tables, printing them and `xcorr_all` are parameters; the inversion is `invertForSlowness`.
Printing to the screen is left out.
-/

namespace Gemlog

/-- All files, by path; `none`: there is no such file. -/
abbrev FileSys := List Nat → Option (List Nat)

/-- Write a file, replacing what was there. -/
def FileSys.write (fs : FileSys) (path content : List Nat) : FileSys := fun p => if p = path then some content else fs p

/-- What `argparse` gives for `waveform_calc_lags` (xcorr.py:26-39). Options left out have the default in the structure. -/
structure LagArgs where
  files : List (List Nat)
  output : Option (List Nat) := none
  includes : Option (List Nat) := none
  excludes : Option (List Nat) := none
  t1 : List Nat := bytes "1970-01-01"
  t2 : List Nat := bytes "9999-12-31"
  low : Rat := 5
  high : Rat := 40
  window : Rat := 5
  overlap : Rat := 0
  upsample : Rat := 1
  quiet : Bool := false

/-- The arguments of `xcorr_all` (xcorr.py:118) with their defaults. -/
structure LagCall where
  files : List (List Nat)
  t1 : List Nat := bytes "1970-01-01"
  t2 : List Nat := bytes "9999-12-31"
  ids : Option (List (List Nat)) := none
  excluded : Option (List (List Nat)) := none
  fl : Rat := 5
  fh : Rat := 20
  window : Rat := 5
  overlap : Rat := 0
  upsample : Rat := 1
  quiet : Bool := false
  deriving DecidableEq

/-- xcorr.py:71-74: the call of `xcorr_all`; 41-48: the lists are split at commas. -/
def lagCall (a : LagArgs) : LagCall where
  files := a.files
  t1 := a.t1
  t2 := a.t2
  ids := a.includes.map (pySplit 44)
  excluded := a.excludes.map (pySplit 44)
  fl := a.low
  fh := a.high
  window := a.window
  overlap := a.overlap
  upsample := a.upsample
  quiet := a.quiet

/-- xcorr.py:10-75 `xcorr_all_terminal`. `isTime`: is the text understood by `UTCDateTime`; `run`: `xcorr_all`, its table printed by `to_csv`; `writable`: can a
file with this path be opened for writing. The exception, if there is one, and the files afterwards. -/
def xcorrTerminal (isTime : List Nat → Bool) (run : LagCall → Except Exc (List Nat)) (writable : List Nat → Bool) (fs : FileSys) (a : LagArgs) :
    Option Exc × FileSys :=
  match a.output with
  | none => (some .other, fs)                                                                -- 50-51
  | some out =>
    if !isTime a.t1 then (some .other, fs)                                                   -- 53-56
    else if !isTime a.t2 then (some .other, fs)                                              -- 57-60
    else match run (lagCall a) with
      | .error e => (some e, fs)
      | .ok text => if writable out then (none, fs.write out text) else (some .other, fs)    -- 75

/-- What `argparse` gives for `waveform_calc_directions` (xcorr.py:82-84). -/
structure DirArgs where
  input : Option (List Nat) := none
  location : Option (List Nat) := none
  output : Option (List Nat) := none

/-- xcorr.py:79-114 `calculate_direction_terminal`. `readLags`: `pd.read_csv` of the contents; `readLocs`: `get_coordinates(read_inventory(...))`; `print`: the
table with the two new columns, as text. -/
def directionTerminal (readLags : List Nat → Option LagTable) (readLocs : List Nat → Option (List LocRow))
    (print : LagTable → List (Option (Rat × Rat)) → List Nat) (writable : List Nat → Bool) (fs : FileSys) (a : DirArgs) : Option Exc × FileSys :=
  match a.input, a.location, a.output with
  | some input, some location, some out =>                                                   -- 90-95
    match (fs input).bind readLags with                                                      -- 98-101
    | none => (some .other, fs)
    | some tbl =>
      match (fs location).bind readLocs with                                                 -- 102-105
      | none => (some .other, fs)
      | some locs =>
        if !writable out then (some .other, fs)                                              -- 108-112
        else
          let opened := fs.write out []                                                      -- 109: mode 'w' empties the file
          match invertForSlowness tbl locs with                                              -- 114
          | .error e => (some e, opened)
          | .ok res => (none, opened.write out (print tbl res))                              -- 115
  | _, _, _ => (some .other, fs)

end Gemlog
