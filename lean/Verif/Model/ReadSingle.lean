import Verif.Model.Process

/-!
# Reading one raw file with fallback, and several files in sequence

Models `_read_single` (core.py:784-841), `_read_several` (core.py:1032-1094), `_make_empty_header`
(core.py:1490-1507) and `_time_corrections` (core.py:1519-1526).
-/

namespace Gemlog

/-- The outcomes of the three table readers on a file: `_read_with_cython` (core.py:677-717),
`_read_with_pandas` (756-782) and `_read_0_8_pd` (720-754). -/
structure Readers where
  cython : Except Exc Table
  pandas : Except Exc Table
  old : Except Exc Table

/-- core.py:1519-1526 `_time_corrections`, in milliseconds. -/
def timeCorrection (version : String) : Option Rat :=
  if version ∈ ["0.8", "0.85", "0.85C", "0.9", "0.91", "1.10"] then some (893 / 100) else none

/-- core.py:825-829: exceptions re-raised at once. -/
def Exc.exitsEarly : Exc → Bool
  | .emptyRaw | .fileNotFound | .noGPS | .keyboardInterrupt => true
  | _ => false

/-- core.py:838: `output['data'][:,0] += c`. -/
def FileData.addDataTime (d : FileData) (c : Rat) : FileData :=
  { d with data := d.data.map fun p => (p.1 + c, p.2) }

/-- core.py:819-841: the loop over the readers. -/
def tryReaders (e : Bool) (offset : Rat) (requireGps : Bool) (version : String) :
    List (Except Exc Table) → Except Exc FileData
  | [] => .error .corrupt                                                    -- 841
  | r :: rs =>
    match r.bind (fun table => processData e table offset version requireGps) with
    | .error x =>
      if x.exitsEarly then .error x                                          -- 825-829
      else if x.isException then tryReaders e offset requireGps version rs   -- 830-832
      else .error x
    | .ok out =>
      if out.gps = [] ∧ requireGps = true then .error .corrupt               -- 834-835
      else
        match timeCorrection version with                                    -- 838
        | none => .error .other
        | some c => .ok (out.addDataTime c)

/-- core.py:784-841 `_read_single(filename, offset, require_gps, version)`. -/
def readSingle (e : Bool) (rd : Readers) (offset : Rat) (requireGps : Bool) (version : String) :
    Except Exc FileData :=
  tryReaders e offset requireGps version
    (if version ∈ ["1.10", "0.91", "0.9", "0.85C"] then [rd.cython, rd.pandas] else [rd.old])

/-! ## Several files -/

/-- What `_calculate_drift` returns (core.py:1157-1173); `resid_std` and `resid_MAD` are omitted because nothing
uses them. `none` is NaN. -/
structure HeaderInfo where
  lat : Option Rat
  lon : Option Rat
  startMs : Rat
  endMs : Rat
  deg3 : Rat
  deg2 : Rat
  deg1 : Rat
  deg0 : Rat
  numGps : Nat
  maxResid : Option Rat
  numNonoutliers : Nat
  deriving DecidableEq, Repr

/-- A row of the header table. -/
structure HeaderRow where
  info : HeaderInfo
  numDataPts : Nat
  sn : String
  deriving DecidableEq, Repr

/-- core.py:1490-1507 `_make_empty_header`: a row of zeros (the columns `drift_resid_MAD_nonoutliers` and
`num_gps_nonoutliers` are added later, as NaN; here none and 0). -/
def emptyRow : HeaderRow := ⟨⟨some 0, some 0, 0, 0, 0, 0, 0, 0, 0, none, 0⟩, 0, ""⟩

/-- The operations `_read_several` performs on a file name: `_read_single`, `_calculate_drift` and
`_read_SN` (which raises `CorruptRawFile`, core.py:581-587). -/
structure FileOps (F : Type) where
  read : F → (offset : Rat) → (requireGps : Bool) → (version : String) → Except Exc FileData
  drift : F → FileData → (requireGps : Bool) → Except Exc HeaderInfo
  readSN : F → Except Exc String

/-- core.py:1055-1057: all times of a file plus a constant. -/
def FileData.shift (d : FileData) (c : Rat) : FileData :=
  ⟨d.data.map fun p => (p.1 + c, p.2), d.metadata.map fun p => (p.1 + c, p.2),
    d.gps.map fun f => { f with msPPS := f.msPPS + c }⟩

/-- core.py:1059-1060: `any(dMillis < 0) or any(dMillis > 1000)`. -/
def discontinuous : List Rat → Bool
  | a :: b :: l => decide (b - a < 0) || decide (b - a > 1000) || discontinuous (b :: l)
  | _ => false

/-- core.py:1047-1052: choose the reader for the version. -/
def readVersioned {F : Type} (ops : FileOps F) (requireGps : Bool) (version : String) (f : F) (start : Rat) :
    Except Exc FileData :=
  if version ∈ ["1.10", "0.91", "0.9", "0.85C"] then ops.read f start requireGps "0.9"
  else if version ∈ ["0.8", "0.85"] then ops.read f start requireGps version
  else .error .corrupt

/-- core.py:1054-1057: first sample at or after the last one of the previous file. An empty data array
would raise IndexError (it cannot occur, see `processData`). -/
def alignStart (L : FileData) (start : Rat) : Except Exc FileData :=
  match L.data with
  | [] => .error .other
  | p :: _ => .ok (if p.1 < start then L.shift (2 ^ 13) else L)

/-- core.py:1045-1070, the body of the `try` for one file: the header row left behind and the outcome. -/
def readOne {F : Type} (ops : FileOps F) (requireGps : Bool) (version : String) (f : F) (start : Rat) :
    HeaderRow × Except Exc FileData :=
  match (readVersioned ops requireGps version f start).bind (fun L => alignStart L start) with
  | .error x => (emptyRow, .error x)
  | .ok L =>
    if discontinuous (L.data.map Prod.fst) then (emptyRow, .error .corrupt)  -- 1059-1061
    else
      match ops.drift f L requireGps with                                    -- 1063
      | .error x => (emptyRow, .error x)
      | .ok info =>
        let row := if requireGps = false ∨ L.gps ≠ [] then { emptyRow with info := info } else emptyRow
        let row := { row with numDataPts := L.data.length }                  -- 1069
        match ops.readSN f with                                              -- 1070
        | .error x => (row, .error x)
        | .ok sn => ({ row with sn := sn }, .ok L)

/-- The value returned by `_read_several`, and the running `startMillis`. A problem is the file with the class of
its message. -/
structure Several (F : Type) where
  metadata : List (Rat × List (Option Rat))
  gps : List Fix
  data : List (Rat × Option Rat)
  header : List HeaderRow
  problems : List (F × Exc)
  startMillis : Rat

/-- core.py:1075: `startMillis = D[-1,0]` (IndexError for an empty array cannot occur, see `alignStart`). -/
def lastTime (start : Rat) (D : List (Rat × Option Rat)) : Rat := (D.getLast?.map Prod.fst).getD start

/-- core.py:1042-1092: one pass of the loop. Only KeyboardInterrupt and non-`Exception`s escape. -/
def severalStep {F : Type} (ops : FileOps F) (requireGps : Bool) (version : String) (acc : Several F) (f : F) :
    Except Exc (Several F) :=
  match readOne ops requireGps version f acc.startMillis with
  | (row, .ok L) =>
    let D := acc.data ++ L.data
    .ok ⟨acc.metadata ++ L.metadata, acc.gps ++ L.gps, D, acc.header ++ [row], acc.problems,
      lastTime acc.startMillis D⟩
  | (row, .error x) =>
    if x.isException then .ok { acc with header := acc.header ++ [row], problems := acc.problems ++ [(f, x)] }
    else .error x

/-- The loop over the files. -/
def severalLoop {F : Type} (ops : FileOps F) (requireGps : Bool) (version : String) :
    List F → Several F → Except Exc (Several F)
  | [], acc => .ok acc
  | f :: fs, acc =>
    match severalStep ops requireGps version acc f with
    | .error x => .error x
    | .ok acc => severalLoop ops requireGps version fs acc

/-- core.py:1032-1094 `_read_several(fnList, version, require_gps)`. Simplification: the header table is built
row by row instead of being allocated first. -/
def readSeveral {F : Type} (ops : FileOps F) (files : List F) (version : String) (requireGps : Bool) :
    Except Exc (Several F) :=
  severalLoop ops requireGps version files ⟨[], [], [], [], [], 0⟩

end Gemlog
