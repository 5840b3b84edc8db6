import Verif.Model.Xcorr
import Verif.Model.Windows
import Verif.Model.Database
import Verif.Model.Terminals

/-!
# Cross-correlating a data set

Models `xcorr_all` (xcorr.py:118-128) with `loop_through_days` (181-282) and `xcorr_one_day` (311-333) together: from the files to the table
of results. `Model/Days.lean` has the samples handed to the analysis on each day; here the masked samples that `Stream.merge` puts into gaps are
followed too, and what becomes of the results. Times are integer microseconds, `d` is the sampling interval. Trusted base: obspy's `Stream.merge`
masks the samples missing between two traces of a channel, sorts by identifier, and `Stream.filter` raises NotImplementedError for a trace
with masked samples.
-/

namespace Gemlog

/-- A sample of a stream; `none`: masked. -/
structure MSample where
  id : List Nat
  t : Int
  v : Option Rat
  deriving DecidableEq, Repr

/-- The value for a channel at a time; `none`: missing or masked. -/
def valueAt (st : List MSample) (id : List Nat) (t : Int) : Option Rat := st.findSome? fun s => if s.id = id ∧ s.t = t then s.v else none

/-- `Stream.merge()` for one channel: one trace, from its first to its last sample, with masked samples in the gaps. Simplification as in
`Model/Days.lean`: overlapping files, whose data would be masked where they differ, are not modelled (the first value is taken). -/
def mergeChannel (d : Int) (st : List MSample) (id : List Nat) : List MSample :=
  match (st.filter fun s => s.id = id).map MSample.t with
  | [] => []
  | t :: ts =>
    let a := ts.foldl min t
    let b := ts.foldl max t
    (List.range (((b - a) / d).toNat + 1)).map fun k : Nat => ⟨id, a + k * d, valueAt st id (a + k * d)⟩

/-- xcorr.py:261 `st.merge()`. Simplification: the channels are sorted by their identifiers as one string. -/
def mergeMasked (d : Int) (st : List MSample) : List MSample :=
  (sortNames (uniqueIn (st.map MSample.id))).flatMap (mergeChannel d st)

/-- xcorr.py:252-273: one day: the stream and the files read afterwards, and the part handed to the analysis. -/
def maskedDay (d : Int) (files : List DFile) (rows : List DRow) (ids : List (List Nat)) (t2 : Int) (day : Int × Int)
    (s : List MSample × List (List Nat)) : (List MSample × List (List Nat)) × List MSample :=
  let names := (rows.filter fun r => decide (r.t1 ≤ day.2) && decide (day.1 ≤ r.t2)).map DRow.name
  let new := readNew files names ([], s.2)
  let st := mergeMasked d (s.1 ++ new.1.map fun x => ⟨x.id, x.t, some x.v⟩)
  let st := st.filter fun x => decide (day.1 ≤ x.t) && decide (x.t ≤ t2)
  let st := st.filter fun x => decide (x.id ∈ ids)
  ((st, new.2), st.filter fun x => decide (day.1 ≤ x.t) && decide (x.t ≤ day.2))

/-- xcorr.py:246-276: what is handed to the analysis, day by day. -/
def maskedLoop (d : Int) (files : List DFile) (rows : List DRow) (ids : List (List Nat)) (t2 : Int) :
    List (Int × Int) → List MSample × List (List Nat) → List (List MSample)
  | [], _ => []
  | day :: rest, s =>
    let r := maskedDay d files rows ids t2 day s
    r.2 :: maskedLoop d files rows ids t2 rest r.1

/-- The traces of a stream without masked samples; times in seconds. -/
def wavesOf (sl : List MSample) : List WTrace :=
  (uniqueIn (sl.map MSample.id)).map fun id =>
    ⟨id, (sl.filter fun s => s.id = id).map fun s => ((s.t : Rat) / 1000000, s.v.getD 0)⟩

/-- xcorr.py:311-333 `xcorr_one_day`: `process` is upsampling, detrending, removing the first value and filtering (320-328), `f` the analysis
of a window. Filtering raises an exception for masked samples. -/
def oneDayTable {V : Type} (process : List WTrace → List WTrace) (f : List WTrace → Except Exc (List (List Nat × V))) (win overlap : Rat)
    (sl : List MSample) : Except Exc (WTable V) :=
  if sl.any fun s => s.v.isNone then .error .other else applyWindows f (process (wavesOf sl)) win overlap

/-- Number of rows of a table: the length of the column `t_mid`, which all the tables have. -/
def WTable.height {V : Type} (t : WTable V) : Nat := ((t.lookup (bytes "t_mid")).getD []).length

/-- The entries of a column, NaN if there is no such column. -/
def WTable.cells {V : Type} (t : WTable V) (key : List Nat) : List (WCell V) := (t.lookup key).getD (List.replicate t.height .nan)

/-- xcorr.py:282 `pd.concat(output_list, ignore_index = True)`: all columns, in the order in which they first appear. -/
def joinTables {V : Type} (ts : List (WTable V)) : WTable V :=
  (uniqueIn (ts.flatMap fun t => t.map Prod.fst)).map fun key => (key, ts.flatMap fun t => t.cells key)

/-- What `loop_through_days` leaves behind: for each day the table of its results (`none`: skipped after an exception), the times in the
messages about skipped days, and the value returned (`none`: `None`). -/
structure DaysOut (V : Type) where
  days : List (Option (WTable V))
  messages : List Int
  table : Option (WTable V)

/-- xcorr.py:270-282: run the analysis on each day, and put the results together. The message (275) names `t1`, the beginning of the run. -/
def collectDays {V : Type} (analyse : List MSample → Except Exc (WTable V)) (t1 : Int) (slices : List (List MSample)) : DaysOut V :=
  let days := slices.map fun sl => (analyse sl).toOption
  ⟨days, (days.filter Option.isNone).map fun _ => t1, if days.filterMap id = [] then none else some (joinTables (days.filterMap id))⟩

/-- xcorr.py:181-282 `loop_through_days(function, filenames, t1, t2, IDs)`; `none`: the exception of line 223. -/
def loopResults {V : Type} (analyse : List MSample → Except Exc (WTable V)) (d : Int) (files : List DFile) (ids : List (List Nat)) (t1 t2 : Int) :
    Option (DaysOut V) :=
  let rows := fileTable files
  let r := cutRange t1 t2 rows
  let kept := keptRows r.1 r.2 ids rows
  if kept.isEmpty then none
  else some (collectDays analyse r.1 (maskedLoop d files kept ids r.2 (dayList r.1 r.2) ([], [])))

/-- xcorr.py:71-75: `xcorr_all` as called on the command line, and the table as text. `xcorr_df.to_csv` raises AttributeError if the result is
`None`. -/
def lagText {V : Type} (print : WTable V → List Nat) (r : Option (DaysOut V)) : Except Exc (List Nat) :=
  match r with
  | none => .error .other
  | some o => o.table.elim (.error .other) fun t => .ok (print t)

end Gemlog
