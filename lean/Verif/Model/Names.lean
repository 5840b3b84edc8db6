import Verif.Model.Convert
import Verif.Py.Str
import Verif.Py.Calendar

/-!
# Output file names and the output directory

Models `_make_filename` (core.py:395-402), `_make_filename_converted` (core.py:405-408) and the writing of segments
(core.py:348-354). Strings are lists of character codes.
-/

namespace Gemlog

/-- Python `f'{n:0w}'` for a natural number. -/
def padNum (w n : Nat) : List Nat := zeroPad w (natStr n)

/-- core.py:397, 400: the name with index `n`; `dirtype` is `gps` or `metadata`. -/
def indexedName (dir sn dirtype : List Nat) (n : Nat) : List Nat :=
  dir ++ bytes "/" ++ sn ++ dirtype ++ bytes "_" ++ padNum 3 n ++ bytes ".txt"

/-- core.py:398-401: the loop of `_make_filename`; `existing` lists the paths that exist. -/
def nameLoop (existing : List (List Nat)) (name : Nat → List Nat) : Nat → Nat → Option (List Nat)
  | 0, _ => none
  | fuel + 1, n => if name n ∈ existing then nameLoop existing name fuel (n + 1) else some (name n)

/-- core.py:395-402 `_make_filename`. Fuel: one more than the number of existing paths is enough (`C35`). -/
def makeFilename (existing : List (List Nat)) (dir sn dirtype : List Nat) : Option (List Nat) :=
  nameLoop existing (indexedName dir sn dirtype) (existing.length + 1) 0

/-- Python `str.lower` for ASCII. -/
def lower (s : List Nat) : List Nat := s.map fun c => if 65 ≤ c ∧ c ≤ 90 then c + 32 else c

/-- core.py:405-408 `_make_filename_converted` for a segment starting at `start` (hundredths of a second since 1970).
`id` is the trace identifier. -/
def convertedName (id fmt : List Nat) (start : Int) : List Nat :=
  let t := start / 100
  let d := dateOfDay (t / 86400)
  padNum 4 d.year.toNat ++ bytes "-" ++ padNum 2 d.month.toNat ++ bytes "-" ++ padNum 2 d.day.toNat ++ bytes "T" ++
    padNum 2 (t % 86400 / 3600).toNat ++ bytes "_" ++ padNum 2 (t % 3600 / 60).toNat ++ bytes "_" ++
    padNum 2 (t % 60).toNat ++ bytes "." ++ id ++ bytes "." ++ lower fmt

/-- A directory: the content of each file; `none`: no such file. -/
abbrev Dir (α : Type) := List Nat → Option α

/-- Writing a file replaces its content. -/
def Dir.write {α : Type} (d : Dir α) (name : List Nat) (c : α) : Dir α := fun x => if x = name then some c else d x

/-- A sequence of writes. -/
def Dir.writeAll {α : Type} (d : Dir α) (ws : List (List Nat × α)) : Dir α := ws.foldl (fun d w => d.write w.1 w.2) d

/-- core.py:346-354: the writes of a conversion, in order: each segment under its name. -/
def segmentWrites (id fmt : List Nat) (out : List Trace) : List (List Nat × Trace) :=
  out.map fun tr => (convertedName id fmt tr.start, tr)

end Gemlog
