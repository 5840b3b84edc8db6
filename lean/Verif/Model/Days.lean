import Verif.Py.Scan

/-!
# Day-by-day cross-correlation

Models `loop_through_days` (xcorr.py:181-282) from the readable files on. Times are integers, in microseconds since 1970, without
leap seconds. The choice of station identifiers (`_check_input_IDs`) is a parameter here.
-/

namespace Gemlog

/-- xcorr.py:227, 238: `(t + 86400 + 2).replace(hour=0, minute=0, second=0)`. The fraction of a second is kept. -/
def nextMidnight (t : Int) : Int :=
  let u := t + 86402000000
  u - u % 86400000000 + u % 1000000

/-- xcorr.py:226-231: the days after one that starts at `t`. Fuel: microseconds. -/
def moreStarts (t2 : Int) : Nat → Int → List Int
  | 0, _ => []
  | fuel + 1, t => if nextMidnight t < t2 then nextMidnight t :: moreStarts t2 fuel (nextMidnight t) else []

/-- xcorr.py:237-243: the ends of days after one that ends at `t`. -/
def moreEnds (t2 : Int) : Nat → Int → List Int
  | 0, _ => []
  | fuel + 1, t => if nextMidnight t < t2 then nextMidnight t :: moreEnds t2 fuel (nextMidnight t) else [t2]

/-- xcorr.py:225-244: the starts and ends of the days, paired by `zip` (249). -/
def dayList (t1 t2 : Int) : List (Int × Int) :=
  (t1 :: moreStarts t2 ((t2 - t1).toNat + 1) t1).zip
    ((t1 + 86400000000) :: moreEnds t2 ((t2 - t1).toNat + 1) (t1 + 86400000000))

/-- A trace in a file: identifier and samples with their times. -/
structure DTrace where
  id : List Nat
  samples : List (Int × Rat)
  deriving DecidableEq, Repr

structure DFile where
  name : List Nat
  traces : List DTrace
  deriving DecidableEq, Repr

/-- A sample as handed to the analysis. -/
structure DSample where
  id : List Nat
  t : Int
  v : Rat
  deriving DecidableEq, Repr

/-- `obspy.read`: all samples of a file. -/
def DFile.all (f : DFile) : List DSample := f.traces.flatMap fun tr => tr.samples.map fun s => ⟨tr.id, s.1, s.2⟩

/-- A line of the file table: xcorr.py:192-206. -/
structure DRow where
  name : List Nat
  t1 : Int
  t2 : Int
  id : List Nat
  deriving DecidableEq, Repr

/-- xcorr.py:202-206: start and end time of a trace. A trace has samples. -/
def rowOf (name : List Nat) (tr : DTrace) : Option DRow :=
  match tr.samples.head?, tr.samples.getLast? with
  | some a, some b => some ⟨name, a.1, b.1, tr.id⟩
  | _, _ => none

def fileTable (files : List DFile) : List DRow := files.flatMap fun f => f.traces.filterMap (rowOf f.name)

/-- xcorr.py:216-219: the rows in the time range and with the wanted identifiers. (Line 220 sorts them by time, which changes the
order in which files are read only.) -/
def keptRows (t1 t2 : Int) (ids : List (List Nat)) (rows : List DRow) : List DRow :=
  rows.filter fun r => decide (t1 ≤ r.t2) && decide (r.t1 ≤ t2) && decide (r.id ∈ ids)

/-- xcorr.py:256-259: read the files named that have not been read. -/
def readNew (files : List DFile) : List (List Nat) → List DSample × List (List Nat) → List DSample × List (List Nat)
  | [], s => s
  | n :: rest, (st, done) =>
    if n ∈ done then readNew files rest (st, done)
    else match files.find? fun f => f.name = n with
      | some f => readNew files rest (st ++ f.all, done ++ [n])
      | none => readNew files rest (st, done)

/-- xcorr.py:252-273: one day: the stream and the files read afterwards, and what is handed to the analysis. `Stream.merge` joins
the traces of a channel; overlaps between files, which it would mask, are not modelled. `trim` and `slice` take the nearest sample;
here the ends are on samples. -/
def oneDay (files : List DFile) (rows : List DRow) (ids : List (List Nat)) (t2 : Int) (day : Int × Int)
    (s : List DSample × List (List Nat)) : (List DSample × List (List Nat)) × List DSample :=
  let names := (rows.filter fun r => decide (r.t1 ≤ day.2) && decide (day.1 ≤ r.t2)).map DRow.name
  let (st, done) := readNew files names s
  let st := st.filter fun x => decide (day.1 ≤ x.t) && decide (x.t ≤ t2)
  let st := st.filter fun x => decide (x.id ∈ ids)
  ((st, done), st.filter fun x => decide (day.1 ≤ x.t) && decide (x.t ≤ day.2))

/-- xcorr.py:246-276: what is handed to the analysis, day by day. -/
def dayLoop (files : List DFile) (rows : List DRow) (ids : List (List Nat)) (t2 : Int) :
    List (Int × Int) → List DSample × List (List Nat) → List (List DSample)
  | [], _ => []
  | d :: rest, s =>
    let r := oneDay files rows ids t2 d s
    r.2 :: dayLoop files rows ids t2 rest r.1

/-- xcorr.py:209-210: the range asked for, cut to that of the data (of all channels). -/
def cutRange (t1 t2 : Int) (rows : List DRow) : Int × Int :=
  (rows.foldl (fun m r => min m r.t1) (rows.headD ⟨[], t1, t2, []⟩).t1 |> max t1,
    rows.foldl (fun m r => max m r.t2) (rows.headD ⟨[], t1, t2, []⟩).t2 |> min t2)

/-- xcorr.py:181-276 `loop_through_days`, up to the analysis; `none`: the exception of line 223. -/
def loopThroughDays (files : List DFile) (ids : List (List Nat)) (t1 t2 : Int) : Option (List (List DSample)) :=
  let rows := fileTable files
  let (t1, t2) := cutRange t1 t2 rows
  let kept := keptRows t1 t2 ids rows
  if kept.isEmpty then none else some (dayLoop files kept ids t2 (dayList t1 t2) ([], []))

end Gemlog
