import Verif.Model.Huddle
import Verif.Model.Gaps
import Verif.Py.PyInt

/-!
# The huddle test with its files, its table of statistics and its waveforms

Models gemlog/huddle_test.py `verify_huddle_test` (146-722) with all the files it reads. `Model/Huddle.lean` models what
is tested, here are added: missing files, the serial number used as a number (372), serial numbers given twice, the
table of statistics (302-510) and the waveforms (534-561). Not modelled: figures, the PDF report, times beyond the year
9999.
-/

namespace Gemlog

/-- A row of a GPS file (huddle_test.py:523). -/
structure HuddleFix where
  lat : Option Rat
  lon : Option Rat
  t : Option Rat
deriving DecidableEq, Repr

/-- The files of one logger: `none` if they are missing. `gps` holds the rows of the GPS file, `wave` the traces of all
files `*..SN..HDF.mseed`. -/
structure HuddleFiles where
  sn : List Nat
  rows : Option (List HuddleRow)
  gps : Option (List HuddleFix)
  wave : Option (List Trace)
deriving DecidableEq, Repr

/-- A row of the table of statistics, `pstats_df` (huddle_test.py:302-503); NaN is `none`. -/
structure HuddleStats where
  battMin : Option Rat
  battMax : Option Rat
  tempMin : Option Rat
  tempMax : Option Rat
  tempMean : Option Rat
  flatA2 : Rat
  flatA3 : Rat
  fifoOver : Rat
  maxOverruns : Option Rat
  gpsMean : Option Rat
  gpsRatio : Rat
deriving DecidableEq, Repr

/-- `np.mean` of a column of a data frame: NaN is left out; NaN if there is nothing else. -/
def skipMean (l : List (Option Rat)) : Option Rat :=
  if l.filterMap id = [] then none else some ((l.filterMap id).sum / (l.filterMap id).length)

/-- huddle_test.py:498-503: the sum of the flags divided by the number of rows, times the 900 seconds of a cycle, at most 180. -/
def onTime (col : List (Option Rat)) : Rat :=
  if (col.filterMap id).sum / col.length * 900 > 180 then 180 else (col.filterMap id).sum / col.length * 900

/-- huddle_test.py:302-503: the statistics of one logger. -/
def statsOf (rows : List HuddleRow) : HuddleStats where
  battMin := pyMinCol (rows.map HuddleRow.batt)                                             -- 302
  battMax := pyMaxCol (rows.map HuddleRow.batt)                                             -- 303
  tempMin := pyMinCol (rows.map HuddleRow.temp)                                             -- 331
  tempMax := pyMaxCol (rows.map HuddleRow.temp)                                             -- 332
  tempMean := skipMean (rows.map HuddleRow.temp)                                            -- 333
  flatA2 := flatPart (rows.map HuddleRow.A2)                                                -- 388-389
  flatA3 := flatPart (rows.map HuddleRow.A3)                                                -- 413-414
  fifoOver := (((rows.map HuddleRow.maxFifoUsed).countP fun x => nanLt (some 5) x : Nat) : Rat) / rows.length  -- 453-454
  maxOverruns := pyMaxCol (rows.map HuddleRow.maxOverruns)                                  -- 470
  gpsMean := skipMean (gpsIntervals rows)                                                   -- 490
  gpsRatio := onTime (rows.map HuddleRow.gpsOnFlag)                                         -- 498-503

/-- huddle_test.py:536-542 and 553-561: the waveform that is drawn; `window` is the time shown, fixed by the first
logger (553-556): its first run without the first and last ten minutes. `spline` is the interpolation of short gaps,
`empty` what detrending and normalising a trace without samples does (scipy and obspy, not modelled). -/
def huddleWave (spline : List (Int × Int) → Int → Rat) (empty : Except HExc Unit) (window : Option (Int × Int))
    (st : List Trace) : Except HExc ((Int × Int) × Trace) :=
  match interpolateStream spline 10 st with                                                 -- 537
  | .error _ => .error .other
  | .ok out =>
    match remerge out with                                                                  -- 538-541
    | [] => .error .indexError
    | tr :: _ =>
      let w := window.getD (tr.start + 60000, tr.stop - 60000)                              -- 553-556
      if w.1 > w.2 then .error .valueError                                                  -- 558, raised by `trim`
      else if (tr.trim w.1 w.2).data = [] then
        match empty with
        | .error e => .error e
        | .ok () => .ok (w, tr.trim w.1 w.2)
      else .ok (w, tr.trim w.1 w.2)

/-- huddle_test.py:286-561: the loop body for one logger; `all` is the list of serial numbers. A serial number that
occurs twice makes a condition in line 306 ambiguous (ValueError). -/
def huddleLogger (spline : List (Int × Int) → Int → Rat) (empty : Except HExc Unit) (all : List (List Nat))
    (window : Option (Int × Int)) (l : HuddleFiles) :
    Except HExc (List HuddleRow × (Int × Int) × Trace) :=
  match l.rows with
  | none => .error .missing                                                                 -- 288
  | some rows =>
    match labelCheck rows with
    | .error e => .error e
    | .ok () =>
      if all.count l.sn > 1 then .error .valueError                                         -- 306
      else match pyInt l.sn with                                                            -- 372
        | none => .error .valueError
        | some _ =>
          match l.gps with                                                                  -- 523
          | none => .error .missing
          | some fixes =>
            if fixes.any (fun g => g.t.isNone) then .error .valueError                              -- 524
            else match l.wave with                                                          -- 536
              | none => .error .missing
              | some st =>
                match huddleWave spline empty window st with
                | .error e => .error e
                | .ok r => .ok (rows, r)

/-- huddle_test.py:286-561: the loop over the loggers; what is read and drawn for each. -/
def huddleLoop (spline : List (Int × Int) → Int → Rat) (empty : Except HExc Unit) (all : List (List Nat)) :
    Option (Int × Int) → List HuddleFiles → Except HExc (List (List Nat × List HuddleRow × Trace))
  | _, [] => .ok []
  | window, l :: rest =>
    match huddleLogger spline empty all window l with
    | .error e => .error e
    | .ok (rows, w, tr) =>
      match huddleLoop spline empty all (some w) rest with
      | .error e => .error e
      | .ok out => .ok ((l.sn, rows, tr) :: out)

/-- What a whole run leaves behind: messages and results, the table of statistics, the waveforms drawn. -/
structure HuddleRun where
  outcome : HuddleOutcome
  stats : List (List Nat × HuddleStats)
  waves : List (List Nat × Trace)
deriving DecidableEq, Repr

/-- huddle_test.py:146-722 `verify_huddle_test`, for the loggers selected (228-230), without the comparison of waveforms. -/
def huddleRun (spline : List (Int × Int) → Int → Rat) (empty : Except HExc Unit) (loggers : List HuddleFiles)
    (individualOnly : Bool) : Except HExc HuddleRun :=
  if loggers = [] then .error .valueError                                                   -- 273
  else match huddleLoop spline empty (loggers.map HuddleFiles.sn) none loggers with
    | .error e => .error e
    | .ok read =>
      match verifyHuddle (read.map fun q => (q.1, q.2.1)) individualOnly with
      | .error e => .error e
      | .ok out => .ok ⟨out, read.map fun q => (q.1, statsOf q.2.1), read.map fun q => (q.1, q.2.2)⟩

end Gemlog
