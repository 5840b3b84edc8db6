import Verif.Model.Stream
import Verif.Model.Cli
import Verif.Model.Inventory
import Verif.Model.Outliers

/-!
# Summaries of converted files

Models `make_db` (gemlog_aux.py:102-148), `calc_channel_stats` (154-202), `check_lags` (32-68) and the part of the huddle test that judges
the lags (huddle_test.py:707-722). Times of traces are hundredths of a second, other times microseconds. Reading files (`obspy.read`), the
amplitude after detrending and filtering, and the cross-correlation of two traces are parameters.
-/

namespace Gemlog

/-! ## make_db -/

/-- A trace in a converted file. -/
structure DbTrace where
  station : List Nat
  location : List Nat
  trace : Trace
  deriving DecidableEq, Repr

/-- A row of the database (columns of gemlog_aux.py:140). -/
structure DbRow where
  filename : List Nat
  station : List Nat
  location : List Nat
  amp : Rat
  max : Int
  min : Int
  t1 : Int
  t2 : Int
  deriving DecidableEq, Repr

/-- `read`: `obspy.read`, `none` for an exception; `amp`: `tr.detrend('linear')`, `tr.filter('highpass', freq=0.5)`, `tr.std()`. -/
structure DbEnv where
  read : List Nat → Option (List DbTrace)
  amp : List Int → Rat

/-- Insertion into a sorted list of names. -/
def insertName (a : List Nat) : List (List Nat) → List (List Nat)
  | [] => [a]
  | b :: l => if strLt b a then b :: insertName a l else a :: b :: l

/-- gemlog_aux.py:125 `files.sort()`. -/
def sortNames : List (List Nat) → List (List Nat)
  | [] => []
  | a :: l => insertName a (sortNames l)

/-- gemlog_aux.py:134-140: the row of a file; the greatest and least sample are taken before filtering. -/
def dbRow (env : DbEnv) (file : List Nat) (tr : DbTrace) (x : Int) (l : List Int) : DbRow :=
  ⟨file, tr.station, tr.location, env.amp tr.trace.data, l.foldl Max.max x, l.foldl Min.min x, tr.trace.start, tr.trace.stop⟩

/-- gemlog_aux.py:128-144: the loop over the files. A file that cannot be read, or has no trace, is skipped; `max` of no samples raises
ValueError. -/
def makeDbLoop (env : DbEnv) : List (List Nat) → Except Exc (List DbRow)
  | [] => .ok []
  | file :: files =>
    match env.read file with
    | none => makeDbLoop env files
    | some [] => makeDbLoop env files
    | some (tr :: _) =>
      match tr.trace.data with
      | [] => .error .other
      | x :: l => (makeDbLoop env files).map (dbRow env file tr x l :: ·)

/-- gemlog_aux.py:102-148 `make_db`; `files`: the result of `glob.glob`. `pd.concat` of no rows raises ValueError. Not modelled: writing
the table to `savefile` and messages. -/
def makeDb (env : DbEnv) (files : List (List Nat)) : Except Exc (List DbRow) :=
  match makeDbLoop env (sortNames files) with
  | .error x => .error x
  | .ok [] => .error .other
  | .ok rows => .ok rows

/-! ## calc_channel_stats -/

/-- What is handed to `pd.concat`: a list of things, each a table or not. -/
inductive Part (α : Type)
  | table (rows : List α)
  | other

/-- All tables put together; `none` if something is not a table. -/
def Part.rows {α : Type} : List (Part α) → Option (List α)
  | [] => some []
  | .table r :: l => (Part.rows l).map (r ++ ·)
  | .other :: _ => none

/-- `pd.concat`: ValueError for an empty list, TypeError for anything that is not a table. -/
def pdConcat {α : Type} (parts : List (Part α)) : Except Exc (List α) :=
  if parts.isEmpty then .error .other
  else match Part.rows parts with
    | none => .error .other
    | some r => .ok r

/-- A row of the statistics: station, proportions of good and of any data, quartiles. -/
structure StatsRow where
  station : List Nat
  good : Rat
  any : Rat
  q1 : Rat
  q3 : Rat

/-- gemlog_aux.py:187: is the row of the database good? -/
def DbRow.good (r : DbRow) : Bool :=
  decide (1 / 2 < r.amp ∧ r.amp < 20000 ∧ 359800 < r.t2 - r.t1 ∧ r.t2 - r.t1 < 360200)

/-- gemlog_aux.py:194-199: the row for a station; `w`: the rows of the database for it, in the interval; `quantile` is `np.quantile`. -/
def statsRow (quantile : List Rat → Rat → Rat) (hours : Rat) (sta : List Nat) (w : List DbRow) : StatsRow :=
  ⟨sta, ((w.filter DbRow.good).length : Rat) / hours, ((w.filter fun r => decide (0 < r.amp)).length : Rat) / hours,
    quantile (w.map DbRow.amp) (1 / 4), quantile (w.map DbRow.amp) (3 / 4)⟩

/-- gemlog_aux.py:190-200: the loop over the stations. `out` is what the variable contains: at the beginning an empty list, which is not a
table, and then tables. -/
def statsLoop (quantile : List Rat → Rat → Rat) (db : List DbRow) (t1 t2 : Int) :
    Option (List StatsRow) → List (List Nat) → Except Exc (Option (List StatsRow))
  | out, [] => .ok out
  | out, sta :: stas =>
    let w := db.filter fun r => decide (r.station = sta ∧ t1 < 10000 * r.t1 ∧ 10000 * r.t2 < t2)
    if w = [] then statsLoop quantile db t1 t2 out stas
    else
      let part : Part StatsRow := match out with
        | none => .other
        | some rows => .table rows
      match pdConcat [part, .table [statsRow quantile (((t2 - t1 : Int) : Rat) / 3600000000) sta w]] with
      | .error x => .error x
      | .ok rows => statsLoop quantile db t1 t2 (some rows) stas

/-- gemlog_aux.py:154-202 `calc_channel_stats`. After the loop, `pd.concat(out)` is applied once more: to the empty list, or to a table,
which is not a list of tables (TypeError). -/
def calcChannelStats (quantile : List Rat → Rat → Rat) (db : List DbRow) (t1 t2 : Int) : Except Exc (List StatsRow) :=
  match statsLoop quantile db t1 t2 none (uniqueIn (db.map DbRow.station)) with
  | .error x => .error x
  | .ok none => pdConcat []
  | .ok (some _) => .error .other

/-! ## check_lags -/

/-- `Trace.slice(s, e)`, times in microseconds: limits are moved to the nearest sample. -/
def Trace.sliceNear (s e : Int) (tr : Trace) : Trace :=
  let a := tr.ltrim (roundAway (s - 10000 * tr.start))
  a.rtrim (roundAway (e - 10000 * a.start) - a.data.length + 1) (e < 10000 * a.start)

/-- `Stream.slice(s, e)`: empty traces are left out. -/
def sliceNearStream (s e : Int) (p : List DbTrace) : List DbTrace :=
  (p.map fun tr => { tr with trace := tr.trace.sliceNear s e }).filter fun tr => tr.trace.data.length != 0

/-- What `check_lags` returns for a window. -/
structure LagWindow where
  t : Int
  lags : List Int
  coefs : List Rat
  consistency : Int
  deriving DecidableEq, Repr

/-- gemlog_aux.py:57-60: the lags of a window; `none` if there is an exception: fewer traces than stations, or the correlation fails. -/
def windowLags (corr : Trace → Trace → Option (Int × Rat)) (nsta : Nat) (p : List DbTrace) : Option (List (Int × Rat)) :=
  (List.range nsta).mapM fun i : Nat =>
    match p[i]?, p[(i + 1) % nsta]? with
    | some a, some b => corr a.trace b.trace
    | _, _ => none

/-- gemlog_aux.py:52-65: one pass of the loop, for the window that begins at `t`. -/
def lagWindow (corr : Trace → Trace → Option (Int × Rat)) (st : List DbTrace) (nsta : Nat) (win t : Int) : Option LagWindow :=
  (windowLags corr nsta (sliceNearStream t (t + win) st)).map fun r => ⟨t, r.map Prod.fst, r.map Prod.snd, (r.map Prod.fst).sum⟩

/-- gemlog_aux.py:48-66: the loop `while t1 < max(DB.t2)`; `none`: not finished after `n` passes. -/
def lagLoop (corr : Trace → Trace → Option (Int × Rat)) (st : List DbTrace) (nsta : Nat) (win stop : Int) : Nat → Int → Option (List LagWindow)
  | 0, _ => none
  | n + 1, t1 =>
    if t1 < stop then (lagLoop corr st nsta win stop n (t1 + win)).map ((lagWindow corr st nsta win (t1 + win)).toList ++ ·)
    else some []

/-- gemlog_aux.py:39: the beginning of the hour of the first row. -/
def hourStart (t : Int) : Int := 3600000000 * (t / 3600000000)

/-- gemlog_aux.py:32-68 `check_lags`, with `n` the number of passes allowed. The filter is applied to a stream without traces (36-37),
before the files are read. `none`: an exception outside the loop (no rows; a file that cannot be read any more), `some none`: not finished. -/
def checkLags (env : DbEnv) (filt : DbTrace → DbTrace) (corr : Trace → Trace → Option (Int × Rat)) (db : List DbRow)
    (win : Int) (n : Nat) : Option (Option (List LagWindow)) :=
  match db, (db.map DbRow.filename).mapM env.read with
  | r :: rs, some files =>
    let st := ([] : List DbTrace).map filt ++ files.flatten
    let first := (rs.map DbRow.t1).foldl Min.min r.t1
    let stop := 10000 * (rs.map DbRow.t2).foldl Max.max r.t2
    some (lagLoop corr st (uniqueIn (db.map DbRow.station)).length win stop n (hourStart (10000 * first) + 1))
  | _, _ => none

/-! ## The huddle test -/

/-- huddle_test.py:711: is the window coherent? -/
def LagWindow.coherent (w : LagWindow) : Bool := decide (w.consistency = 0 ∧ 4 / 5 < medianRat w.coefs)

/-- huddle_test.py:711-718: is `Time lags are excessively nonzero` reported? The proportion is NaN if no window is coherent, and NaN is not
less than 0.8. -/
def lagsReported (ws : List LagWindow) : Bool :=
  let good := ws.filter LagWindow.coherent
  let zero := good.filter fun w => w.lags.all fun x => x == 0
  if good.length = 0 then false else decide ((zero.length : Rat) / (good.length : Rat) < 4 / 5)

end Gemlog
