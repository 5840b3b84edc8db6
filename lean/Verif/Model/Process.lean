import Verif.Model.Millis
import Verif.Model.Readers
import Verif.Py.Calendar

/-!
# From the table of lines to samples, metadata and GPS fixes

Models `_make_gps_time` (core.py:669-675), `_gps_in_bounds` (core.py:932-958) and
`_process_gemlog_data` (core.py:843-930).
-/

namespace Gemlog

/-- A table cell as `pd.to_numeric` sees it: a number, NaN (missing), or text that is not a number. -/
inductive Cell
  | num (x : Rat)
  | nan
  | text
  deriving DecidableEq, Repr

/-- `pd.to_numeric` on one cell: `none` is ValueError; NaN is `some none`. -/
def Cell.toNumeric : Cell → Option (Option Rat)
  | .num x => some (some x)
  | .nan => some none
  | .text => none

/-- A row of the table returned by a reader: `linetype`, `millis-sawtooth`, and the cells of the columns
numbered 1, 2, 3, ... -/
structure TRow where
  kind : Kind
  saw : Rat
  cells : List Cell
  deriving DecidableEq, Repr

/-- The table returned by a reader; `isBytes` if line types are `bytes` (compiled parser) rather than
`str` (core.py:878). -/
structure Table where
  isBytes : Bool
  rows : List TRow
  deriving DecidableEq, Repr

/-- The cell in column `k ≥ 1`; a missing column is NaN (simplification: pandas would raise KeyError,
but every reader creates the columns used here). -/
def TRow.col (r : TRow) (k : Nat) : Cell := r.cells.getD (k - 1) .nan

/-- core.py:711-715: the table made from the compiled parser's arrays, columns 2 to 12. -/
def cythonTable (rows : List Row) : Table :=
  ⟨true, rows.map fun r => ⟨r.kind, r.millis, .nan :: r.vals.map .num⟩⟩

/-- numpy `np.round` to an integer: round half to even. -/
def npRound (x : Rat) : Int :=
  let f := ⌊x⌋
  if x - f < 1 / 2 then f
  else if x - f > 1 / 2 then f + 1
  else if f % 2 = 0 then f else f + 1

/-- Python `int(x)` for a float: truncation towards zero. -/
def pyTrunc (x : Rat) : Int := if 0 ≤ x then ⌊x⌋ else ⌈x⌉

/-- A GPS line as numbers (core.py:911-914): the corrected millisecond count and columns 2 to 10. -/
structure GRaw where
  msPPS : Rat
  msLag : Option Rat
  year : Option Rat
  month : Option Rat
  day : Option Rat
  hour : Option Rat
  minute : Option Rat
  second : Option Rat
  lat : Option Rat
  lon : Option Rat
  deriving DecidableEq, Repr

/-- `(data < lo) | (data > hi)`; comparisons with NaN are False. -/
def outside (lo hi : Rat) : Option Rat → Bool
  | none => false
  | some x => x < lo || x > hi

/-- `x != np.round(x)`; NaN differs from itself. -/
def notWhole : Option Rat → Bool
  | none => true
  | some x => x != (npRound x : Rat)

/-- core.py:932-958 `_gps_in_bounds` on one row. -/
def gpsInBounds (g : GRaw) : Bool :=
  !(outside (-90) 90 g.lat || outside (-180) 180 g.lon || outside 0 1000 g.msLag
    || outside 2014 2040 g.year || outside 1 12 g.month || outside 1 31 g.day
    || outside 0 24 g.hour || outside 0 60 g.minute || outside 0 60 g.second
    || (g.lat == some 0 || g.lon == some 0 || notWhole g.second))

/-- core.py:669-675 `_make_gps_time`: seconds since 1970, `none` is NaN. -/
def makeGpsTime (g : GRaw) : Option Int :=
  match g.year, g.month, g.day, g.hour, g.minute, g.second with
  | some y, some mo, some d, some h, some mi, some s =>
    utcSeconds ⟨pyTrunc y, pyTrunc mo, pyTrunc d⟩ (pyTrunc h) (pyTrunc mi) (pyTrunc s)
  | _, _, _, _, _, _ => none

/-- A GPS fix with its time `t`. -/
structure Fix extends GRaw where
  t : Rat
  deriving DecidableEq, Repr

/-- Result of reading one raw file: samples (millis, counts), metadata rows (millis, values) and fixes. -/
structure FileData where
  data : List (Rat × Option Rat)
  metadata : List (Rat × List (Option Rat))
  gps : List Fix
  deriving DecidableEq, Repr

/-- core.py:845-860: roll-over of the millisecond counter; `none`: `CorruptRawFile`. -/
def rolloverOf (version : String) : Option Rat :=
  if version ∈ ["1.10", "0.9", "0.85C"] then some (2 ^ 13)
  else if version = "0.85" then some (2 ^ 16)
  else if version = "0.8" then some (2 ^ 16)
  else none

/-- core.py:845-858: number of metadata columns including `millis`. -/
def numMCols (version : String) : Nat := if version = "0.8" then 10 else 12

/-- pandas `.cumsum()` on floats: NaN entries stay NaN and are skipped in the sum. -/
def cumsumNaN (acc : Rat) : List (Option Rat) → List (Option Rat)
  | [] => []
  | none :: l => none :: cumsumNaN acc l
  | some x :: l => some (acc + x) :: cumsumNaN (acc + x) l

/-- core.py:911-914: numeric GPS row, `none` if a cell is not numeric. -/
def gRow (m : Rat) (r : TRow) : Option GRaw :=
  match (r.col 2).toNumeric, (r.col 3).toNumeric, (r.col 4).toNumeric, (r.col 5).toNumeric,
    (r.col 6).toNumeric, (r.col 7).toNumeric, (r.col 8).toNumeric, (r.col 9).toNumeric,
    (r.col 10).toNumeric with
  | some lag, some y, some mo, some d, some h, some mi, some s, some la, some lo =>
    some ⟨m, lag, y, mo, d, h, mi, s, la, lo⟩
  | _, _, _, _, _, _, _, _, _ => none

/-- core.py:919: attach the time, drop rows without a valid one. -/
def withTime (g : GRaw) : Option Fix := (makeGpsTime g).map fun (t : Int) => ⟨g, (t : Rat)⟩

/-- core.py:910-923: the GPS fixes. `none`: an exception inside the `try`. `emptyRaises` tells whether the
installed pandas raises when the result of `apply` on an empty table is assigned to a column. -/
def gpsTable (emptyRaises : Bool) (rows : List (Rat × TRow)) : Option (List Fix) :=
  match rows with
  | [] => none                                              -- get_group raises KeyError
  | rows =>
    match rows.mapM (fun p => gRow p.1 p.2) with
    | none => none                                          -- to_numeric raises
    | some gs =>
      let gs := gs.filter gpsInBounds
      if gs = [] ∧ emptyRaises then none else some (gs.filterMap withTime)

/-- core.py:843-930 `_process_gemlog_data(df, offset, version, require_gps)`. -/
def processData (emptyRaises : Bool) (table : Table) (offset : Rat) (version : String)
    (requireGps : Bool) : Except Exc FileData :=
  match rolloverOf version with
  | none => .error .corrupt                                                   -- 860
  | some R =>
    match correctedMillis R offset (table.rows.map TRow.saw) with             -- 863-872
    | none => .error .other
    | some ms =>
      let rows := ms.zip table.rows
      let dataCol :=                                                          -- 878-887
        if version ∈ ["0.8", "0.85"] then 2 else if table.isBytes then 2 else 1
      let D := rows.filter fun p => p.2.kind == .D
      let M := rows.filter fun p => p.2.kind == .M
      if D = [] ∨ M = [] then .error .other                                   -- 888-889 KeyError
      else
        match D.mapM (fun p => (p.2.col dataCol).toNumeric),                  -- 902-903
          M.mapM (fun p => (List.range (numMCols version - 1)).mapM
            fun j => (p.2.col (j + 2)).toNumeric) with
        | some adc, some meta' =>
          let adc := if version ∈ ["1.10", "0.9", "0.85C"] then cumsumNaN 0 adc else adc  -- 907
          let out (gps : List Fix) : FileData :=
            ⟨(D.map Prod.fst).zip adc, (M.map Prod.fst).zip meta', gps⟩
          match gpsTable emptyRaises (rows.filter fun p => p.2.kind == .G) with
          | some gps => .ok (out gps)
          | none => if requireGps then .error .noGPS else .ok (out [])        -- 924-928
        | _, _ => .error .other

end Gemlog
