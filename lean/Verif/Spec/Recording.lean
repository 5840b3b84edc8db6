import Verif.Spec.RawMerge
import Verif.Props.Calendar
import Verif.Props.Millis

/-!
# Specification: a recording

A recording is a list of files, each a list of lines with the true times of the events they record, in milliseconds of the
logger's clock (not wrapped). Written from the description of the formats (parsers.pyx:93-125), without using the readers.
-/

namespace Gemlog

/-- A line of a raw file of a differenced format: a sample `D<millis>,<step>`, a sample written as two lower-case letters, a GPS
fix, a status line, or a line that is neither. -/
inductive LogLine
  | sample (ms : Dec) (step : Int)
  | letters (x y : Nat)
  | fix (ms lag : Dec) (yr mo day hr mn : Int) (sec lat lon : Dec)
  | status (ms batt temp a2 a3 : Dec) (maxLag minFree maxUsed maxOver gpsFlag fs1 fsIdle : Int)
  | other (body : List Nat)

def LogLine.text : LogLine → List Nat
  | .sample ms step => lineD ms step
  | .letters x y => [x, y, 10]
  | .fix ms lag yr mo day hr mn sec lat lon => lineG ms lag yr mo day hr mn sec lat lon
  | .status ms batt temp a2 a3 maxLag minFree maxUsed maxOver gpsFlag fs1 fsIdle =>
    lineM ms batt temp a2 a3 maxLag minFree maxUsed maxOver gpsFlag fs1 fsIdle
  | .other body => body ++ [10]

/-- A line and the true time of the event. -/
structure Event where
  T : Rat
  line : LogLine

/-- The content of a file. -/
def textOf (es : List Event) : List Nat := (es.map fun e => e.line.text).flatten

/-- The line fits the line buffer, letters are lower-case, and other lines do not begin like data. -/
def LogLine.Valid : LogLine → Prop
  | .letters x y => (97 ≤ x ∧ x ≤ 122) ∧ 97 ≤ y ∧ y ≤ 122
  | .other body => (∀ b ∈ body, b ≠ 10) ∧ body.length ≤ 254 ∧
      ∀ b ∈ body.head?, b ≠ 68 ∧ b ≠ 71 ∧ b ≠ 77 ∧ ¬(97 ≤ b ∧ b ≤ 122)
  | l => l.text.length ≤ 255

/-- The counts printed in the lines agree with the true times: a full line prints the time modulo 8192, and two letters give the
distance from the previous sample, whose true time is `prev`. -/
def TimesPrinted : Option Rat → List Event → Prop
  | _, [] => True
  | prev, e :: es =>
    match e.line with
    | .sample ms _ => WrappedReading 8192 e.T ms.val ∧ TimesPrinted (some e.T) es
    | .letters x _ => (∃ q, prev = some q ∧ e.T = q + 10 + ((x : Rat) - 109)) ∧ TimesPrinted (some e.T) es
    | .fix ms .. => WrappedReading 8192 e.T ms.val ∧ TimesPrinted prev es
    | .status ms .. => WrappedReading 8192 e.T ms.val ∧ TimesPrinted prev es
    | .other _ => TimesPrinted prev es

/-- The change of pressure an event records. -/
def Event.step (e : Event) : Option Int :=
  match e.line with
  | .sample _ step => some step
  | .letters _ y => some ((y : Int) - 109)
  | _ => none

/-- The UTC second of a fix, if its line is a fix with sensible contents: non-zero position on the globe, lag of at most a
second, a real calendar time with whole seconds between 2014 and 2040. -/
def Event.FixAt (e : Event) (t : Int) : Prop :=
  match e.line with
  | .fix _ lag yr mo day hr mn sec lat lon =>
    (lat.val ≠ 0 ∧ -90 ≤ lat.val ∧ lat.val ≤ 90) ∧ (lon.val ≠ 0 ∧ -180 ≤ lon.val ∧ lon.val ≤ 180) ∧
    (0 ≤ lag.val ∧ lag.val ≤ 1000) ∧ (2014 ≤ yr ∧ yr ≤ 2040) ∧
    ∃ s : Int, sec.val = s ∧ (Instant.mk yr mo day hr mn s).Real ∧ (Instant.mk yr mo day hr mn s).time = some t
  | _ => False

/-- Kinds of events. -/
def Event.isFix (e : Event) : Bool := match e.line with | .fix .. => true | _ => false
def Event.isStatus (e : Event) : Bool := match e.line with | .status .. => true | _ => false
def Event.isOther (e : Event) : Bool := match e.line with | .other _ => true | _ => false

/-- True times of the samples, and of the fixes. -/
def sampleTimes (es : List Event) : List Rat := (es.filter fun e => e.step.isSome).map Event.T
def fixTimes (es : List Event) : List Rat := (es.filter Event.isFix).map Event.T

/-- The contents of status lines and fixes: time, and values in the order of the line or latitude and longitude. -/
def Event.statusRow (e : Event) : Option (Rat × List Rat) :=
  match e.line with
  | .status _ batt temp a2 a3 maxLag minFree maxUsed maxOver gpsFlag fs1 fsIdle =>
    some (e.T, [batt.val, temp.val, a2.val, a3.val, maxLag, minFree, maxUsed, maxOver, gpsFlag, fs1, fsIdle])
  | _ => none

def Event.fixPoint (e : Event) : Option (Rat × Rat × Rat) :=
  match e.line with
  | .fix _ _ _ _ _ _ _ _ lat lon => some (e.T, lat.val, lon.val)
  | _ => none

/-- The recorded pressures: running sums of the changes. -/
def pressuresOf (es : List Event) : List Int := runningSums 0 (es.filterMap Event.step)

/-- A file without defects, recorded with a clock that shows UTC time `a + b T` at count `T`. Nothing is said about the files before it. -/
structure SoundFile (a b : Rat) (es : List Event) : Prop where
  valid : ∀ e ∈ es, e.line.Valid
  length : es.length ≤ 65520000
  printed : TimesPrinted none es
  /-- Consecutive events are less than half a rollover apart. -/
  near : ((es.filter fun e => !e.isOther).map Event.T).IsChain fun x y => y - x < 4096 ∧ -4096 < y - x
  /-- There are samples, in order and without gaps of a second. -/
  samples : sampleTimes es ≠ []
  steady : (sampleTimes es).IsChain fun x y => 0 ≤ y - x ∧ y - x ≤ 1000
  status : ∃ e ∈ es, e.isStatus = true
  /-- At least ten fixes, in order, right by the clock. -/
  fixes : ∀ e ∈ es, e.isFix = true → ∃ t : Int, e.FixAt t ∧ (t : Rat) = a + b * e.T
  enough : 10 ≤ (fixTimes es).length
  increasing : (fixTimes es).Pairwise (· < ·)
  /-- The fixes cover more than half of the samples. -/
  covers : 1024 / 1000000 * ((sampleTimes es).getLastD 0 - (sampleTimes es).headD 0)
    < 2 * (b * ((fixTimes es).getLastD 0 - (fixTimes es).headD 0))

/-- The first event of the file is less than half a rollover from `start`. -/
def NearStart (start : Rat) (es : List Event) : Prop :=
  ∀ x ∈ ((es.filter fun e => !e.isOther).map Event.T).head?, -4096 ≤ x - start ∧ x - start < 4096

/-- A file without defects, which continues a recording; `start` is the corrected time of the last sample of the previous file (0 for the
first file). -/
structure CleanFile (a b start : Rat) (es : List Event) : Prop extends SoundFile a b es where
  near_start : NearStart start es
  after : ∀ x ∈ (sampleTimes es).head?, start ≤ x + 893 / 100

/-- Corrected time of the last sample: the logger stamps samples 8.93 ms late (core.py:1519-1526). -/
def endTime (es : List Event) : Rat := (sampleTimes es).getLastD 0 + 893 / 100

/-- Every file is clean and follows the one before. -/
def FilesFollow (a b : Rat) : Rat → List (List Event) → Prop
  | _, [] => True
  | start, es :: rest => CleanFile a b start es ∧ FilesFollow a b (endTime es) rest

/-- A recording without defects, with a clock that shows UTC time `a + b T` at count `T`. -/
structure CleanRecording (a b : Rat) (files : List (List Event)) : Prop where
  /-- The clock runs within 100 ppm of its nominal rate, 1.024 ms per count. -/
  rate : 0 < b ∧ 9999 / 10 * b ≤ 1024 / 1000 ∧ 1024 / 1000 ≤ 10001 / 10 * b
  follow : FilesFollow a b 0 files
  /-- Fixes are in order throughout. -/
  fixes : (files.flatMap fixTimes).Pairwise (· < ·)
  /-- The recording does not begin with two gaps (property C55). -/
  start : ∀ x y z l, files.flatMap sampleTimes = x :: y :: z :: l → y - x ≤ 25 ∨ z - y ≤ 25

/-- The true record: corrected UTC times and pressures of all samples. -/
def trueRecord (a b : Rat) (files : List (List Event)) : List (Rat × Int) :=
  files.flatMap fun es => ((sampleTimes es).map fun T => a + b * (T + 893 / 100)).zip (pressuresOf es)

/-- The first line gives the version of the format. -/
def HasVersion (v : String) (es : List Event) : Prop :=
  ∃ e rest, es = e :: rest ∧ e.line = .other (bytes "#GemCSV" ++ bytes v)

end Gemlog
