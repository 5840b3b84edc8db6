import Verif.Spec.Recording

/-!
# Specification: files of formats 0.8 and 0.85

Written from the description of the formats (core.py:843-930: absolute pressures, 16-bit counts, comma after the letter), without using the
reader.
-/

namespace Gemlog

/-- A line: a sample `D,<millis>,<pressure>`, a GPS fix, a status line `M,<millis>,<values>`, or a line that is neither. -/
inductive OldLine
  | sample (ms : Dec) (pressure : Int)
  | fix (ms lag : Dec) (yr mo day hr mn : Int) (sec lat lon : Dec)
  | status (ms : Dec) (values : List Field)
  | other (body : List Nat)

/-- The text of a line, without its end. -/
def OldLine.body : OldLine → List Nat
  | .sample ms x => 68 :: 44 :: joinFields [.dec ms, .int x]
  | .fix ms lag yr mo day hr mn sec lat lon =>
    71 :: 44 :: joinFields [.dec ms, .dec lag, .int yr, .int mo, .int day, .int hr, .int mn, .dec sec, .dec lat, .dec lon]
  | .status ms values => 77 :: 44 :: joinFields (.dec ms :: values)
  | .other body => body

/-- The count printed in a line. -/
def OldLine.count : OldLine → Option Rat
  | .sample ms _ => some ms.val
  | .fix ms .. => some ms.val
  | .status ms _ => some ms.val
  | .other _ => none

/-- A line and the true time of the event, in milliseconds of the logger's clock. -/
structure OldEvent where
  T : Rat
  line : OldLine

/-- The content of a file: the lines of the header, then the events. -/
def oldText (header : List (List Nat)) (es : List OldEvent) : List Nat :=
  ((header ++ es.map fun e => e.line.body).map fun l => l ++ [10]).flatten

/-- Printable text of one line without quotation marks. -/
def PlainText (s : List Nat) : Prop := ∀ b ∈ s, b < 128 ∧ b ≠ 10 ∧ b ≠ 13 ∧ b ≠ 34

/-- The line has a further field, or ends, after a letter `D`, `G` or `M` at its start (blanks and tabs may precede it). -/
def LooksLikeData (s : List Nat) : Prop :=
  ∃ pre c rest, s = pre ++ c :: rest ∧ (∀ b ∈ pre, b = 32 ∨ b = 9) ∧ (c = 68 ∨ c = 71 ∨ c = 77) ∧ (rest = [] ∨ ∃ r, rest = 44 :: r)

/-- Number of values of a status line. -/
def statusValues (version : String) : Nat := if version = "0.8" then 9 else 11

/-- A line of this version. -/
def OldLine.Valid (version : String) : OldLine → Prop
  | .status _ values => values.length = statusValues version
  | .other body => PlainText body ∧ ¬ LooksLikeData body
  | _ => True

/-- What is recorded: pressures, values of status lines, and fixes as events with the time `T`. -/
def OldEvent.sample (e : OldEvent) : Option (Rat × Int) :=
  match e.line with | .sample _ x => some (e.T, x) | _ => none
def OldEvent.status (e : OldEvent) : Option (Rat × List Rat) :=
  match e.line with | .status _ values => some (e.T, values.map Field.val) | _ => none
def OldEvent.fix (e : OldEvent) : Option Event :=
  match e.line with
  | .fix ms lag yr mo day hr mn sec lat lon => some ⟨e.T, .fix ms lag yr mo day hr mn sec lat lon⟩
  | _ => none

/-- True times of all data lines. -/
def oldTimes (es : List OldEvent) : List Rat := (es.filter fun e => e.line.count.isSome).map OldEvent.T

/-- A file of format 0.8 or 0.85 without defects, after a file that ended at `start`. -/
structure OldFile (version : String) (start : Rat) (header : List (List Nat)) (es : List OldEvent) : Prop where
  old : version = "0.8" ∨ version = "0.85"
  head : header.length = 6 ∧ ∀ l ∈ header, PlainText l
  valid : ∀ e ∈ es, e.line.Valid version
  /-- Lines print the time modulo 65536. -/
  printed : ∀ e ∈ es, ∀ c, e.line.count = some c → WrappedReading 65536 e.T c
  /-- Consecutive events are less than half a rollover apart, counted in whole milliseconds. -/
  near : (oldTimes es).IsChain fun x y => ⌊y⌋ - ⌊x⌋ < 32768 ∧ -32768 < ⌊y⌋ - ⌊x⌋
  near_start : ∀ x ∈ (oldTimes es).head?, -32768 ≤ (⌊x⌋ : Rat) - start ∧ (⌊x⌋ : Rat) - start < 32768
  samples : es.filterMap OldEvent.sample ≠ []
  statuses : es.filterMap OldEvent.status ≠ []

end Gemlog
