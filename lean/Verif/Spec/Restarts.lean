import Verif.Spec.Recording
import Verif.Props.Interp

/-!
# Specification: recordings with restarts

A logger that is switched off and on again starts counting anew, so the files of a directory need not share one clock. Here every file has
a clock and a count of its own; the files are only related by UTC time.
-/

namespace Gemlog

/-- A file and the clock of the logger while it was written: UTC time `offset + rate T` at count `T`. -/
structure ClockedFile where
  offset : Rat
  rate : Rat
  events : List Event

/-- UTC time at a count. -/
def ClockedFile.utc (f : ClockedFile) (T : Rat) : Rat := f.offset + f.rate * T

/-- The true record of a file: corrected UTC times and pressures of its samples. -/
def ClockedFile.record (f : ClockedFile) : List (Rat × Int) :=
  ((sampleTimes f.events).map fun T => f.utc (T + 893 / 100)).zip (pressuresOf f.events)

/-- The fixes of a file: UTC time, latitude, longitude. -/
def ClockedFile.fixes (f : ClockedFile) : List (Rat × Rat × Rat) :=
  (f.events.filterMap Event.fixPoint).map fun p => (f.utc p.1, p.2.1, p.2.2)

/-- The values of the status lines of a file. -/
def ClockedFile.status (f : ClockedFile) : List (List Rat) := (f.events.filterMap Event.statusRow).map Prod.snd

/-- If the count printed with the first sample of a file is the one printed with the last sample of the file before, the two are samples of
the same time. (Otherwise the times are confused, see `C100_violated_collision`.) -/
def NoCollision (f g : ClockedFile) : Prop :=
  ∀ x ∈ (sampleTimes f.events).getLast?, ∀ y ∈ (sampleTimes g.events).head?, (∃ k : Int, y = x + 8192 * k) →
    f.utc (x + 893 / 100) = g.utc (y + 893 / 100)

/-- The year of a fix is 2015 or later. -/
def Event.Since2015 (e : Event) : Prop :=
  match e.line with
  | .fix _ _ yr _ _ _ _ _ _ _ => 2015 ≤ yr
  | _ => False

/-- The first line with a count has the count of the first sample. -/
def BeginsWithSample (es : List Event) : Prop := ((es.filter fun e => !e.isOther).map Event.T).head? = (sampleTimes es).head?

/-- Files without defects, each with its own clock. -/
structure SoundClocked (now : Rat) (files : List ClockedFile) : Prop where
  sound : ∀ f ∈ files, SoundFile f.offset f.rate f.events
  /-- The clocks run within 100 ppm of the nominal rate, 1.024 ms per count. -/
  rate : ∀ f ∈ files, 0 < f.rate ∧ 9999 / 10 * f.rate ≤ 1024 / 1000 ∧ 1024 / 1000 ≤ 10001 / 10 * f.rate
  /-- The first sample of a file is not half a rollover before its first line. -/
  begins : ∀ f ∈ files, ∀ x ∈ ((f.events.filter fun e => !e.isOther).map Event.T).head?, ∀ y ∈ (sampleTimes f.events).head?, x ≤ y + 4096
  /-- Fixes are in order throughout. -/
  fixes : ((files.flatMap ClockedFile.fixes).map Prod.fst).Pairwise (· < ·)
  /-- The first file does not begin with two gaps (property C55). -/
  start : ∀ f ∈ files.head?, ∃ x y z l, sampleTimes f.events = x :: y :: z :: l ∧ (y - x ≤ 25 ∨ z - y ≤ 25)
  /-- Its first two fixes are not suspect: of 2015 or later, not in the future, and at most a day apart. -/
  trusted : ∀ f ∈ files.head?, ∃ e₁ e₂ l, f.events.filter Event.isFix = e₁ :: e₂ :: l ∧ e₁.Since2015 ∧ e₂.Since2015 ∧ f.utc e₂.T ≤ now ∧
    f.utc e₂.T - f.utc e₁.T ≤ 86400

/-- Files without defects, each with its own clock, which cannot be confused. -/
structure SoundSessions (now : Rat) (files : List ClockedFile) : Prop extends SoundClocked now files where
  distinct : files.IsChain NoCollision

/-- A session, during which the logger records without interruption: start and end (UTC, in seconds), and the spline through its points. -/
structure Session where
  start : Rat
  stop : Rat
  curve : Rat → Rat

/-- The files `fs` together hold the session `s`: no two of their samples are more than 25 ms apart. -/
structure RecordsSession (spline : Spliner) (fs : List ClockedFile) (s : Session) : Prop where
  first_ : ((fs.flatMap ClockedFile.record).map Prod.fst).head? = some s.start
  last_ : ((fs.flatMap ClockedFile.record).map Prod.fst).getLast? = some s.stop
  long : 1 / 100 ≤ s.stop - s.start
  gapless : ((fs.flatMap ClockedFile.record).map Prod.fst).IsChain fun x y => x ≤ y ∧ y - x ≤ 25 / 1000
  spline : spline ((fs.flatMap ClockedFile.record).map fun p => (p.1, some (p.2 : Rat))) = some s.curve

/-- The trace of a session: a sample for each full 10 ms, starting within 5 ms of its start, with the rounded values of the spline (unless
the start is exactly between two multiples of 10 ms, see C28). -/
structure SessionTrace (s : Session) (tr : Trace) : Prop where
  start : |tr.time 0 - s.start| ≤ 5 / 1000
  length : (tr.data.length : Int) = ⌊(s.stop - s.start) * 100⌋
  values : NotHalf (s.start * 100) → ∀ k (hk : k < tr.data.length), tr.data[k] = npRound (s.curve (tr.time k))

end Gemlog
