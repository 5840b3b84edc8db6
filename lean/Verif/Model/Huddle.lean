import Verif.Model.Drift
import Verif.Py.Num

/-!
# The huddle test

Models gemlog/huddle_test.py `verify_huddle_test` (146-722): the tests of each logger, and the tests that compare
loggers. Figures, the PDF report (739-…) and the cross-correlation test (707-732, off by default) are not modelled here;
files, the table of statistics and waveforms are in `Model/HuddleFull.lean`. The table of results is; the wording of a message is not, only which test it reports and whether it
names a logger. Numbers are exact; a missing value (NaN) is `none`.
-/

namespace Gemlog

/-- A row of a converted metadata file, as the huddle test uses it (huddle_test.py:288). -/
structure HuddleRow where
  t : Option Rat
  batt : Option Rat
  temp : Option Rat
  A2 : Option Rat
  A3 : Option Rat
  maxFifoUsed : Option Rat
  maxOverruns : Option Rat
  gpsOnFlag : Option Rat
  unusedStack1 : Option Rat
  unusedStackIdle : Option Rat
deriving DecidableEq, Repr

/-- What a test says about a logger (huddle_test.py:36-58 and the entries "OKAY"). -/
inductive HStatus where | okay | note | warning | error
deriving DecidableEq, Repr

/-- The columns of the table of results, in the order of the code. -/
inductive HTest where
  | battMin | battMax | tempMin | tempMax | flatA2 | rangeA2 | flatA3 | rangeA3
  | unusualFifo | excessiveFifo | overruns | unusedStack | gpsRunTime
deriving DecidableEq, Repr

/-- Exceptions of the huddle test. -/
inductive HExc where | indexError | valueError | zeroDivision | keyError | missing | other
deriving DecidableEq, Repr

/-- `a < b` for floats: false if one of them is NaN. -/
def nanLt : Option Rat → Option Rat → Bool
  | some a, some b => decide (a < b)
  | _, _ => false

/-- `a <= b` for floats: false if one of them is NaN. -/
def nanLe : Option Rat → Option Rat → Bool
  | some a, some b => decide (a ≤ b)
  | _, _ => false

/-- Python's `min` over a column: the first entry, replaced by any later one that compares less. (Python raises for an
empty column; the code has failed before, at line 292.) -/
def pyMinCol : List (Option Rat) → Option Rat
  | [] => none
  | x :: l => l.foldl (fun m y => if nanLt y m then y else m) x

/-- Python's `max` over a column. -/
def pyMaxCol : List (Option Rat) → Option Rat
  | [] => none
  | x :: l => l.foldl (fun m y => if nanLt m y then y else m) x

/-- huddle_test.py:306-313 and 336-343: a smallest value against a limit and a limit with a margin. -/
def lowStatus (x : Option Rat) (limit margin : Rat) : HStatus :=
  if nanLt x (some limit) then .error
  else if nanLt x (some (limit + margin)) then .warning
  else .okay

/-- huddle_test.py:316-323 and 345-352: a largest value against a limit and a limit with a margin. -/
def highStatus (x : Option Rat) (limit margin : Rat) : HStatus :=
  if nanLt (some limit) x then .error
  else if nanLt (some (limit - margin)) x then .warning
  else .okay

/-- `np.diff` of a column: NaN if one of the two values is. -/
def diffCol : List (Option Rat) → List (Option Rat)
  | a :: b :: l => (match a, b with | some x, some y => some (y - x) | _, _ => none) :: diffCol (b :: l)
  | _ => []

/-- huddle_test.py:388 and 413: the part of the steps of a column that are exactly zero. -/
def flatPart (col : List (Option Rat)) : Rat :=
  ((diffCol col).countP fun d => decide (d = some 0) : Nat) / ((col.length : Rat) - 1)

/-- huddle_test.py:394-401 and 419-426. -/
def flatStatus (col : List (Option Rat)) : HStatus :=
  if flatPart col > 99 / 100 then .error else if flatPart col > 95 / 100 then .warning else .okay

/-- huddle_test.py:391, 404-409 and 416, 429-433: every value is at least `A_min` and at most `A_max`. -/
def rangeStatus (col : List (Option Rat)) : HStatus :=
  if (col.all fun x => nanLe (some 0) x) && (col.all fun x => nanLe x (some (31 / 10))) then .okay else .error

/-- huddle_test.py:454-460: the soft limit is exceeded in more than one row of a hundred. -/
def unusualFifoStatus (col : List (Option Rat)) : HStatus :=
  if ((col.countP fun x => nanLt (some 5) x : Nat) : Rat) / col.length > 1 / 100 then .note else .okay

/-- huddle_test.py:462-466: the hard limit is exceeded. -/
def excessiveFifoStatus (col : List (Option Rat)) : HStatus :=
  if col.any fun x => nanLt (some 50) x then .note else .okay

/-- huddle_test.py:471-475: `any(column) != 0`; NaN counts as true. -/
def overrunStatus (col : List (Option Rat)) : HStatus :=
  if col.any fun x => decide (x ≠ some 0) then .warning else .okay

/-- huddle_test.py:479-483: one of the two stacks was nearly full. -/
def stackStatus (col1 colIdle : List (Option Rat)) : HStatus :=
  if (col1.any fun x => nanLe x (some 30)) || (colIdle.any fun x => nanLe x (some 30)) then .warning else .okay

/-- huddle_test.py:488-489: the steps in time between consecutive rows with the GPS off, without the first ten, and of
the others those over eleven seconds. -/
def gpsIntervals (rows : List HuddleRow) : List (Option Rat) :=
  ((diffCol ((rows.filter fun r => decide (r.gpsOnFlag = some 0)).map HuddleRow.t)).drop 10).filter
    fun d => nanLt (some 11) d

/-- huddle_test.py:491-495. -/
def gpsStatus (rows : List HuddleRow) : HStatus :=
  if (gpsIntervals rows).any fun d => nanLt (some 180) d then .warning else .okay

/-- huddle_test.py:302-495: the row of the table of results for one logger. The limits are those of lines 16-34. -/
def testRow (rows : List HuddleRow) : List (HTest × HStatus) :=
  [(.battMin, lowStatus (pyMinCol (rows.map HuddleRow.batt)) (17 / 10) (1 / 2)),
   (.battMax, highStatus (pyMaxCol (rows.map HuddleRow.batt)) 15 (1 / 2)),
   (.tempMin, lowStatus (pyMinCol (rows.map HuddleRow.temp)) (-20) 5),
   (.tempMax, highStatus (pyMaxCol (rows.map HuddleRow.temp)) 60 5),
   (.flatA2, flatStatus (rows.map HuddleRow.A2)),
   (.rangeA2, rangeStatus (rows.map HuddleRow.A2)),
   (.flatA3, flatStatus (rows.map HuddleRow.A3)),
   (.rangeA3, rangeStatus (rows.map HuddleRow.A3)),
   (.unusualFifo, unusualFifoStatus (rows.map HuddleRow.maxFifoUsed)),
   (.excessiveFifo, excessiveFifoStatus (rows.map HuddleRow.maxFifoUsed)),
   (.overruns, overrunStatus (rows.map HuddleRow.maxOverruns)),
   (.unusedStack, stackStatus (rows.map HuddleRow.unusedStack1) (rows.map HuddleRow.unusedStackIdle)),
   (.gpsRunTime, gpsStatus rows)]

/-- huddle_test.py:290-296: the label of the axis is made from the time in the second row, unless there are 86400 rows. -/
def labelCheck (rows : List HuddleRow) : Except HExc Unit :=
  if 86400 ≤ rows.length then .ok ()
  else match rows[1]? with
    | none => .error .indexError
    | some r => if r.t = none then .error .valueError else .ok ()

/-- A message printed and put into the report: the test, and the serial number if the message gives it. The warning
about the unused stack (line 480) does not. -/
structure HMessage where
  test : HTest
  sn : Option (List Nat)
deriving DecidableEq, Repr

/-- The message of a test for a logger. -/
def messageOf (sn : List Nat) (test : HTest) : HMessage :=
  ⟨test, if test = .unusedStack then none else some sn⟩

/-- The results of a run: the table of results, and the three lists of messages of single loggers. -/
structure Individual where
  results : List (List Nat × List (HTest × HStatus))
  errors : List HMessage
  warnings : List HMessage
  notes : List HMessage
deriving DecidableEq, Repr

/-- The messages of one kind for one logger, in the order of the tests. -/
def messagesFor (status : HStatus) (sn : List Nat) (row : List (HTest × HStatus)) : List HMessage :=
  (row.filter fun p => decide (p.2 = status)).map fun p => messageOf sn p.1

/-- huddle_test.py:286-495, the loop over the loggers. -/
def individualTests : List (List Nat × List HuddleRow) → Individual → Except HExc Individual
  | [], acc => .ok acc
  | (sn, rows) :: rest, acc =>
    match labelCheck rows with
    | .error e => .error e
    | .ok () =>
      individualTests rest
        { results := acc.results ++ [(sn, testRow rows)]
          errors := acc.errors ++ messagesFor .error sn (testRow rows)
          warnings := acc.warnings ++ messagesFor .warning sn (testRow rows)
          notes := acc.notes ++ messagesFor .note sn (testRow rows) }

/-- Insertion sort of serial numbers without repetitions, `unique` (huddle_test.py:72-74). Serial numbers found on disk
are three characters of a file name; they are compared character by character. -/
def snInsert (x : List Nat) : List (List Nat) → List (List Nat)
  | [] => [x]
  | y :: l => if x = y then y :: l else if x < y then x :: y :: l else y :: snInsert x l

/-- huddle_test.py:72-74 `unique`. -/
def snUnique : List (List Nat) → List (List Nat)
  | [] => []
  | x :: l => snInsert x (snUnique l)

/-- `filename[-14:-11]` (huddle_test.py:229). -/
def snOfGpsName (name : List Nat) : List Nat := (name.take (name.length - 11)).drop (name.length - 14)

/-- huddle_test.py:228-230: the serial numbers given, or those of the GPS files; without the excluded ones. -/
def huddleSNs (given gpsNames exclude : List (List Nat)) : List (List Nat) :=
  (if given.length = 0 then snUnique (gpsNames.map snOfGpsName) else given).filter fun sn => decide (sn ∉ exclude)

/-- Messages of the tests that compare loggers: late start, early stop (with the serial number), and temperatures (the
serial numbers, the time checked). -/
inductive GroupMsg where
  | start (sn : List Nat)
  | stop (sn : List Nat)
  | temperature (sns : List (List Nat)) (time : Int)
deriving DecidableEq, Repr

/-- The results of the comparison: errors, whether the warning "only one logger" is given, whether the note "start and
stop times agree" is given. -/
structure GroupResult where
  errors : List GroupMsg
  oneLogger : Bool
  agree : Bool
deriving DecidableEq, Repr

/-- `np.min` of a column of a data frame: the smallest value, without NaN. -/
def skipMin (l : List (Option Rat)) : Option Rat := pyMinCol ((l.filterMap id).map some)

/-- `np.max` of a column of a data frame: the greatest value, without NaN. -/
def skipMax (l : List (Option Rat)) : Option Rat := pyMaxCol ((l.filterMap id).map some)

/-- A float sum; NaN if one of the numbers is. -/
def nanAdd : Option Rat → Rat → Option Rat
  | some a, b => some (a + b)
  | none, _ => none

/-- huddle_test.py:613-637: start times later than the earliest by more than 20 minutes, and stop times earlier than the
latest by more than 20 minutes. -/
def startStopErrors (loggers : List (List Nat × List HuddleRow)) : List GroupMsg :=
  let upper := nanAdd (skipMin (loggers.map fun p => pyMinCol (p.2.map HuddleRow.t))) 1200
  let lower := nanAdd (skipMax (loggers.map fun p => pyMaxCol (p.2.map HuddleRow.t))) (-1200)
  loggers.flatMap fun p =>
    (if nanLe (pyMinCol (p.2.map HuddleRow.t)) upper then [] else [GroupMsg.start p.1]) ++
      (if nanLe lower (pyMaxCol (p.2.map HuddleRow.t)) then [] else [GroupMsg.stop p.1])

/-- huddle_test.py:298 `np.nanmean(np.diff(metadata.t))`; NaN if every step is. -/
def meanInterval (rows : List HuddleRow) : Option Rat :=
  let d := (diffCol (rows.map HuddleRow.t)).filterMap id
  if d = [] then none else some (d.sum / d.length)

/-- `check_interval / int(x)` (huddle_test.py:646 and 664). -/
def perMinute : Option Rat → Except HExc Rat
  | none => .error .valueError
  | some x => if pyTrunc x = 0 then .error .zeroDivision else .ok (60 / (pyTrunc x : Rat))

/-- `np.argmin`: the place of the first NaN if there is one, otherwise of the first smallest value. -/
def npArgmin (l : List (Option Rat)) : Nat :=
  if l.any (fun x => decide (x = none)) then l.findIdx fun x => decide (x = none)
  else l.findIdx fun x => decide (x = pyMinCol l)

/-- huddle_test.py:668-674: the row nearest in time. -/
def nearestRow (rows : List HuddleRow) (time : Rat) : Nat :=
  npArgmin (rows.map fun r => r.t.map fun t => |time - t|)

/-- One temperature copied into the table (huddle_test.py:682): `index` must be a row number, and the table must have
the column. -/
def tempCell (rows : List HuddleRow) (columns : Nat) (i : Nat) (index : Rat) : Except HExc (Option Rat) :=
  if index.den = 1 then
    match rows[index.num.toNat]? with
    | none => .error .keyError
    | some r => if i < columns then .ok r.temp else .error .indexError
  else .error .keyError

/-- huddle_test.py:677-682: the row of the table of temperatures for one logger. -/
def tempRow (rows : List HuddleRow) (tempStart tempEnd : Rat) (columns : Nat) (step : Rat) :
    Except HExc (List (Option Rat)) :=
  let a := nearestRow rows tempStart
  let b := nearestRow rows tempEnd
  (List.range ⌈((b : Rat) - a) / step⌉.toNat).mapM fun i => tempCell rows columns i (a + i * step)

/-- huddle_test.py:662-682, the loop over the loggers, with the step used for each. -/
def tempTable (tempStart tempEnd : Rat) (columns : Nat) :
    List (List Nat × List HuddleRow) → Except HExc (List (List Nat × List (Option Rat) × Rat))
  | [] => .ok []
  | (sn, rows) :: rest =>
    match perMinute (meanInterval rows) with
    | .error e => .error e
    | .ok step =>
      match tempRow rows tempStart tempEnd columns step with
      | .error e => .error e
      | .ok cells =>
        match tempTable tempStart tempEnd columns rest with
        | .error e => .error e
        | .ok table => .ok ((sn, cells, step) :: table)

/-- `np.round(x, 2)`. -/
def round2 (x : Rat) : Rat := (npRound (x * 100) : Rat) / 100

/-- The entry of a row of the table; cells that were not written hold NaN. -/
def cellAt (cells : List (Option Rat)) (column : Nat) : Option Rat := (cells[column]?).join

/-- huddle_test.py:686: the median of a column of the table, without NaN, to two decimals. -/
def columnMedian (table : List (List Nat × List (Option Rat) × Rat)) (column : Nat) : Option Rat :=
  let v := table.filterMap fun p => cellAt p.2.1 column
  if v = [] then none else some (round2 (medianRat v))

/-- huddle_test.py:690: a temperature more than 1.5 degrees from the median; false if one of them is NaN. -/
def tempOff : Option Rat → Option Rat → Bool
  | some x, some m => decide (3 / 2 < |x - m|)
  | _, _ => false

/-- huddle_test.py:690: the loggers more than 1.5 degrees from the median. -/
def offenders (table : List (List Nat × List (Option Rat) × Rat)) (column : Nat) : List (List Nat) :=
  (table.filter fun p => tempOff (cellAt p.2.1 column) (columnMedian table column)).map Prod.fst

/-- huddle_test.py:684-696: the loop over the columns. `times_checked` is that of the last logger (678). -/
def tempErrors (table : List (List Nat × List (Option Rat) × Rat)) (tempStart tempEnd lastStep : Rat) :
    List Nat → Except HExc (List GroupMsg)
  | [] => .ok []
  | c :: cs =>
    if offenders table c = [] then tempErrors table tempStart tempEnd lastStep cs
    else if c < ⌈(tempEnd - tempStart) / lastStep⌉.toNat then
      match tempErrors table tempStart tempEnd lastStep cs with
      | .error e => .error e
      | .ok l => .ok (.temperature (offenders table c) (pyTrunc (tempStart + c * lastStep)) :: l)
    else .error .indexError

/-- huddle_test.py:644-696: the test of temperatures. -/
def temperatureTest (loggers : List (List Nat × List HuddleRow)) : Except HExc (List GroupMsg) :=
  match perMinute (pyMinCol (loggers.map fun p => meanInterval p.2)) with
  | .error e => .error e
  | .ok width =>
    match skipMin (loggers.map fun p => pyMinCol (p.2.map HuddleRow.t)),
      skipMax (loggers.map fun p => pyMaxCol (p.2.map HuddleRow.t)) with
    | some first, some last =>
      let tempStart := first - pyMod first width
      let tempEnd := last - pyMod last width - 600
      let columns := (pyTrunc ((tempEnd - tempStart) / width)).toNat
      if columns = 0 then .error .valueError
      else match tempTable tempStart tempEnd columns loggers with
        | .error e => .error e
        | .ok table =>
          tempErrors table tempStart tempEnd ((table.getLast?.map fun p => p.2.2).getD 1) (List.range columns)
    | _, _ => .error .valueError

/-- huddle_test.py:602-696: the tests that compare loggers. -/
def groupTests (loggers : List (List Nat × List HuddleRow)) (individualOnly : Bool) : Except HExc GroupResult :=
  match temperatureTest loggers with
  | .error e => .error e
  | .ok temps =>
    .ok { errors := startStopErrors loggers ++ temps
          oneLogger := loggers.length == 1 || individualOnly
          agree := (startStopErrors loggers).isEmpty }

/-- The dictionary that the documentation of `verify_huddle_test` promises. -/
structure HuddleReport where
  individual : Individual
  group : GroupResult
deriving DecidableEq, Repr

/-- What a call leaves behind: what is printed and put into the report, and what it returns. -/
structure HuddleOutcome where
  printed : HuddleReport
  returned : Option HuddleReport
deriving DecidableEq, Repr

/-- huddle_test.py:146-722 `verify_huddle_test` for the loggers with these metadata; without loggers no axes can be
made (273). Simplification: the other ways to fail are left to `Model/HuddleFull.lean`. Nothing is returned (the only `return`, line 610, is commented out). -/
def verifyHuddle (loggers : List (List Nat × List HuddleRow)) (individualOnly : Bool) : Except HExc HuddleOutcome :=
  if loggers = [] then .error .valueError
  else match individualTests loggers ⟨[], [], [], []⟩ with
    | .error e => .error e
    | .ok ind =>
      match groupTests loggers individualOnly with
      | .error e => .error e
      | .ok g => .ok ⟨⟨ind, g⟩, none⟩

end Gemlog
