import Verif.Model.MergeDays
import Verif.Model.Names
import Verif.Spec.Record

/-!
# Specification: from converted files to day files

What a user has who converts the data of several instruments, gives the files their codes with `rename_files`, and joins them with
`merge_files_day`.
-/

namespace Gemlog

/-- The recording of one instrument as `convert` writes it: its serial number, and the trace of each file. -/
structure Converted where
  sn : List Nat
  traces : List Trace
  deriving DecidableEq

/-- The files `convert` writes for an instrument, in the folder `pre`: one for each trace. -/
def Converted.files (pre fmt : List Nat) (c : Converted) : List InFile :=
  c.traces.map fun tr => ⟨pre ++ bytes "/" ++ convertedName (bytes "." ++ c.sn ++ bytes "..HDF") fmt tr.start, [tr]⟩

/-- The day, counted from 1970-01-01, on which a trace starts. -/
def Trace.startDay (tr : Trace) : Int := tr.start / 8640000

/-- The text of a day, `2020-01-31`. -/
def dayName (d : Int) : List Nat :=
  padNum 4 (dateOfDay d).year.toNat ++ bytes "-" ++ padNum 2 (dateOfDay d).month.toNat ++ bytes "-" ++ padNum 2 (dateOfDay d).day.toNat

/-- The identifier of a channel, `network.station.location.HDF`. -/
def StationRow.channelId (row : StationRow) : List Nat :=
  row.network ++ bytes "." ++ row.station ++ bytes "." ++ row.location ++ bytes ".HDF"

/-- What `merge_files_day` finds when it reads a file written by `rename_files`: the name without the folder, and the traces with their
identifiers. -/
def foundFile (dir : List Nat) (w : List Nat × Renamed) : DayFile :=
  ⟨w.1.drop (dir.length + 1),
    w.2.stream.map fun tr => (w.2.network ++ bytes "." ++ w.2.station ++ bytes "." ++ w.2.location ++ bytes ".HDF", tr)⟩

/-- The name of the file for a day and a channel. -/
def dayFileName (outdir : List Nat) (row : StationRow) (fmt : List Nat) (d : Int) : List Nat :=
  outdir ++ bytes "/" ++ dayName d ++ bytes "T00_00_00." ++ row.channelId ++ bytes "." ++ fmt

end Gemlog
