import Verif.Model.Breaks
import Verif.Model.Specs
import Verif.Model.Convert

/-!
# `read_gem`, and `convert` as a whole

Models `read_gem` (core.py:413-547) and `convert` (core.py:31-335) from the contents of the raw directory on.
-/

namespace Gemlog

/-- What the reading of a directory depends on: the readers of single files, `_read_format_version` (core.py:589-599;
`none`: raises), the gain code of `_read_config` (core.py:601-618; it never raises), the clock, and the spline. -/
structure Env where
  ops : FileOps Entry
  version : Entry → Option String
  adc : Entry → Int
  now : Rat
  spline : Spliner

/-- What `read_gem` returns. -/
structure GemData where
  stream : List Trace
  header : List HeaderRow
  metadata : List (Rat × List (Option Rat) × Option Rat)
  gps : List Fix
  problems : List (Entry × Exc)
  specs : Specs

/-- core.py:499-508: drop leading files whose version cannot be read. -/
def firstReadable (env : Env) : List Entry → Option (List Entry × String × Entry)
  | [] => none
  | e :: l =>
    match env.version e with
    | some v => some (e :: l, v, e)
    | none => firstReadable env l

/-- core.py:520-525: without any fix, one row of zeros with the date 1970-01-01. -/
def zeroFix : Fix := ⟨⟨0, some 0, some 1970, some 1, some 1, some 0, some 0, some 0, some 0, some 0⟩, 0⟩

/-- core.py:509-514: the versions read, and the version passed on to `_read_several` (default `0.9`, core.py:1032). -/
def severalVersion (v : String) : Option String :=
  if v ∈ ["0.85C", "0.9", "0.91", "1.10"] then some "0.9" else if v = "0.85" ∨ v = "0.8" then some v else none

/-- core.py:1245-1270 `_assign_times(L)`. -/
def assignTimes (env : Env) (L : Several Entry) : Except Exc (List Trace) :=
  match findBreaks env.now (L.data.map Prod.fst) L.gps with
  | none => .error .corrupt
  | some _ => interpTime env.spline (timedData L.data L.header)

/-- core.py:499-547: the rest of `read_gem`, for the selected files. -/
def readFilesAs (env : Env) (files : List Entry) (SN : List Nat) (requireGps : Bool) : Except Exc GemData :=
  match firstReadable env files with
  | none => .error .corrupt
  | some (files, version, first) =>
    match severalVersion version with
    | none => .error .other
    | some v =>
      match readSeveral env.ops files v requireGps with
      | .error x => .error x
      | .ok L =>
        if L.data = [] then .error .inadequateGPS                            -- 517-518
        else
          let L := if L.gps = [] then { L with gps := [zeroFix] } else L
          match assignTimes env L with
          | .error x => .error x
          | .ok stream =>
            match bitweightInfo SN (env.adc first) (bytes "Pa") with         -- 536
            | .error x => .error x
            | .ok b => .ok ⟨stream, L.header, timedMetadata L.metadata L.header, L.gps, L.problems, b.1⟩

/-- core.py:413-547 `read_gem(path, nums, SN, require_gps)`. -/
def readGem (env : Env) (dir : List Entry) (SN : List Nat) (nums : List Int) (requireGps : Bool) : Except Exc GemData :=
  match findFiles dir SN nums with
  | [] => .error .missingRaw
  | files => readFilesAs env files SN requireGps

/-- The job of `convert` for a raw directory (core.py:191-192, 280). -/
def jobOf (env : Env) (dir : List Entry) (SN : List Nat) (nums : List Int) (blockdays : Rat) (L t2 : Int) : Job :=
  ⟨nums, blockdays, L, t2, fun block => (readGem env dir SN block true).map GemData.stream⟩

/-- core.py:31-335 `convert`: checks, then the loops. -/
def convertDir (env : Env) (isDir : Bool) (dir : List Entry) (SN : List Nat) (nums : List (Option Int))
    (blockdays : Rat) (L : Int) (t1 : Option Int) (t2 : Int) (fuel : Nat) : Run CState :=
  match convertNums isDir dir SN nums with
  | .error x => .raised x []
  | .ok ns => convertLoops (jobOf env dir SN ns blockdays L t2) t1 fuel

end Gemlog
