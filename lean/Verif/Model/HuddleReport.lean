import Verif.Model.HuddleFull

/-!
# The report of the huddle test

Models what gemlog/huddle_test.py puts into the PDF report (773-852, class `PDF` 78-144) as lists of lines of text. Not modelled: pages, fonts and places, so that text
running out of the page is not seen; figures; the fixed texts on tests and troubleshooting (739-766).
-/

namespace Gemlog

/-- A cell of a table in the report: a text, or a number (`none`: `nan`) as printed. -/
inductive RCell where
  | text (s : List Nat)
  | num (x : Option Rat)
deriving DecidableEq, Repr

/-- The name of a column of the table of results (huddle_test.py:308-495), as words. -/
def testTitle : HTest → List (List Nat)
  | .battMin => [bytes "Battery", bytes "min"]
  | .battMax => [bytes "Battery", bytes "max"]
  | .tempMin => [bytes "Temperature", bytes "min"]
  | .tempMax => [bytes "Temperature", bytes "max"]
  | .flatA2 => [bytes "A2", bytes "flat"]
  | .rangeA2 => [bytes "A2", bytes "range"]
  | .flatA3 => [bytes "A3", bytes "flat"]
  | .rangeA3 => [bytes "A3", bytes "range"]
  | .unusualFifo => [bytes "Unusual", bytes "FIFO", bytes "use"]
  | .excessiveFifo => [bytes "Excessive", bytes "FIFO", bytes "use"]
  | .overruns => [bytes "Max", bytes "overruns"]
  | .unusedStack => [bytes "Unused", bytes "stack"]
  | .gpsRunTime => [bytes "GPS", bytes "run", bytes "time"]

/-- The columns of the table of statistics in the order of the code (huddle_test.py:302-503), as words, with the values. -/
def statColumns (s : HuddleStats) : List (List (List Nat) × Option Rat) :=
  [([bytes "Battery", bytes "min"], s.battMin), ([bytes "Battery", bytes "max"], s.battMax), ([bytes "Temperature", bytes "min"], s.tempMin),
   ([bytes "Temperature", bytes "max"], s.tempMax), ([bytes "Temperature", bytes "average"], s.tempMean), ([bytes "A2", bytes "flat"], some s.flatA2),
   ([bytes "A3", bytes "flat"], some s.flatA3), ([bytes "fifo", bytes "over", bytes "limit"], some s.fifoOver),
   ([bytes "Max", bytes "overruns"], s.maxOverruns), ([bytes "Mean", bytes "GPS", bytes "run", bytes "time"], s.gpsMean),
   ([bytes "GPS", bytes "on-time", bytes "ratio"], some s.gpsRatio)]

/-- The entry of the table of results (huddle_test.py:54 `status.upper()` and "OKAY"). -/
def statusText : HStatus → List Nat
  | .okay => bytes "OKAY"
  | .note => bytes "NOTE"
  | .warning => bytes "WARNING"
  | .error => bytes "ERROR"

/-- huddle_test.py:117-121: two words are shortened; a title of a single word raises IndexError. -/
def shortTitle : List (List Nat) → Except HExc (List (List Nat))
  | a :: b :: l => .ok ((if a = bytes "Temperature" then bytes "Temp" else a) :: (if b = bytes "overruns" then bytes "overrun" else b) :: l)
  | _ => .error .indexError

/-- huddle_test.py:123-135: titles with less than four words get empty ones in front. -/
def padTitle (w : List (List Nat)) : List (List Nat) :=
  if w.length = 3 then [] :: w else if w.length = 2 then [] :: [] :: w else if w.length = 1 then [] :: [] :: [] :: w else w

/-- huddle_test.py:110-144 `table_col`: four lines, in which each column has one word of its title. -/
def tableHead (titles : List (List (List Nat))) : Except HExc (List (List (List Nat))) :=
  match titles.mapM shortTitle with
  | .error e => .error e
  | .ok ws => .ok ((List.range 4).map fun j => (if j = 2 then bytes "SN" else bytes " ") :: ws.map fun w => (padTitle w).getD j [])

/-- huddle_test.py:99 `np.round(x, 3)`. -/
def round3 (x : Rat) : Rat := (npRound (x * 1000) : Rat) / 1000

/-- huddle_test.py:94-103 `import_df`: line `i` begins with `SN_list[i]`. -/
def reportRows (sns : List (List Nat)) (cells : List (List RCell)) : List (List Nat × List RCell) :=
  (List.range cells.length).map fun i => (sns.getD i [], cells.getD i [])

/-- The lines about the comparison of loggers. -/
inductive GroupLine where
  | message (m : GroupMsg)
  | oneLogger
  | agree
deriving DecidableEq, Repr

/-- The report. -/
structure ReportText where
  errorsAndWarnings : List HMessage
  notes : List HMessage
  statusHead : List (List (List Nat))
  statusRows : List (List Nat × List RCell)
  statHead : List (List (List Nat))
  statRows : List (List Nat × List RCell)
  group : List GroupLine
deriving DecidableEq, Repr

/-- The names of the columns of the table of statistics. -/
def statTitles : List (List (List Nat)) := (statColumns ⟨none, none, none, none, none, 0, 0, 0, none, none, 0⟩).map Prod.fst

/-- huddle_test.py:802-834, for the serial numbers of the run and what the run has found. -/
def huddleReport (sns : List (List Nat)) (r : HuddleRun) : Except HExc ReportText :=
  let ind := r.outcome.printed.individual
  let g := r.outcome.printed.group
  match tableHead ((ind.results.head?.elim [] Prod.snd).map fun p => testTitle p.1), tableHead statTitles with
  | .ok head, .ok head' =>
    .ok { errorsAndWarnings := ind.errors ++ ind.warnings                                                         -- 803-804
          notes := ind.notes                                                                                      -- 809
          statusHead := head                                                                                      -- 813-814
          statusRows := reportRows sns (ind.results.map fun p => p.2.map fun q => RCell.text (statusText q.2))
          statHead := head'                                                                                       -- 818-819
          statRows := reportRows sns (r.stats.map fun p => (statColumns p.2).map fun q => RCell.num (q.2.map round3))
          group := g.errors.map .message ++ (if g.oneLogger then [.oneLogger] else []) ++ (if g.agree then [.agree] else []) }  -- 832-834
  | _, _ => .error .indexError

end Gemlog
