import Verif.Model.MakeInventory

/-!
# Specification: an instrument in an inventory
-/

namespace Gemlog

/-- Network, station and location. -/
structure SeedCodes where
  network : List Nat
  station : List Nat
  location : List Nat

/-- The channel is that of the summarised instrument: its serial number, position and elevation, and the times of its fixes with an hour to spare. -/
def ShowsInstrument (ch : ChannelInfo) (r : GpsSummary) (elevation : Rat) : Prop :=
  ch.sn = r.sn ∧ ch.lat = r.lat ∧ ch.lon = r.lon ∧ ch.elevation = elevation ∧ ch.start = r.starttime - 3600 ∧ ch.stop = r.endtime + 3600

/-- The codes that a station table gives to a serial number: those of its first row with that serial number, blanks if there is none. -/
def assignedCodes (table : List StationRow) (sn : List Nat) : SeedCodes :=
  ((table.find? fun s => s.sn = sn).map fun s => ⟨s.network, s.station, s.location⟩).getD ⟨[], [], []⟩

/-- The elevation likewise, -9999 if the table does not have it. -/
def assignedElevation (table : List StationRow) (sn : List Nat) : Option Rat :=
  elevationValue (((table.find? fun s => s.sn = sn).map StationRow.elevation).getD .default)

/-- The first instrument in the list, in the order of serial numbers, that has these codes. -/
def FirstWith (codes : List Nat → SeedCodes) (rows : List GpsSummary) (c : SeedCodes) (r : GpsSummary) : Prop :=
  ∃ pre post, rows = pre ++ r :: post ∧ codes r.sn = c ∧ ∀ x ∈ pre, codes x.sn ≠ c

end Gemlog
