import Verif.Model.Inventory
import Verif.Model.Names

/-!
# Renaming converted files

Models `rename_files` (gem_network.py:281-343) and `_fix_file_name_digits` (gem_network.py:365-373). Not modelled: printing, creation of the
output directory, the encoding of the files. The files are given in the order of their sorted names, with the traces obspy reads from them.
-/

namespace Gemlog

/-- Python `s.split(c)` for a single character. -/
def pySplit (c : Nat) : List Nat → List (List Nat)
  | [] => [[]]
  | x :: l =>
    if x = c then [] :: pySplit c l
    else match pySplit c l with
      | [] => [[x]]
      | w :: ws => (x :: w) :: ws

/-- Python `s.replace(old, new)` for non-empty `old`; the number counts the characters still to be skipped. -/
def replaceGo (old new : List Nat) : Nat → List Nat → List Nat
  | _, [] => []
  | k + 1, _ :: l => replaceGo old new k l
  | 0, c :: l => if old.isPrefixOf (c :: l) then new ++ replaceGo old new (old.length - 1) l else c :: replaceGo old new 0 l

/-- Python `s.replace(old, new)`. -/
def pyReplace (old new s : List Nat) : List Nat := replaceGo old new 0 s

/-- A value put into a pattern: a non-negative integer or a text. -/
inductive PatVal where
  | num (n : Nat)
  | str (s : List Nat)
  deriving DecidableEq, Repr

/-- `format(value, spec)` for the empty specification and `0wd` with one digit `w`. Other specifications count as an exception (a
simplification). -/
def formatValue : PatVal → List Nat → Option (List Nat)
  | .num n, [] => some (natStr n)
  | .str s, [] => some s
  | .num n, [z, w, d] => if z = 48 ∧ isDigit w = true ∧ d = 100 then some (padNum (w - 48) n) else none
  | _, _ => none

/-- The replacement of `{body}`; `none`: KeyError or ValueError. -/
def replaceField (dict : List (List Nat × PatVal)) (body : List Nat) : Option (List Nat) :=
  match dict.lookup (body.takeWhile (fun c => decide (c ≠ 58))) with
  | none => none
  | some v => formatValue v ((body.dropWhile (fun c => decide (c ≠ 58))).drop 1)

/-- Where `str.format` is in a pattern: in the text, after `{`, after `}`, or in a field. -/
inductive PatState where
  | text
  | opened
  | closed
  | field (body : List Nat)

/-- Python `pattern.format(**dict)`; `none`: an exception. Nested fields count as an exception (a simplification). -/
def formatGo (dict : List (List Nat × PatVal)) : PatState → List Nat → Option (List Nat)
  | .text, [] => some []
  | _, [] => none
  | .text, c :: l =>
    if c = 123 then formatGo dict .opened l
    else if c = 125 then formatGo dict .closed l
    else (formatGo dict .text l).map (c :: ·)
  | .opened, c :: l =>
    if c = 123 then (formatGo dict .text l).map (123 :: ·)
    else if c = 125 then none
    else formatGo dict (.field [c]) l
  | .closed, c :: l => if c = 125 then (formatGo dict .text l).map (125 :: ·) else none
  | .field b, c :: l =>
    if c = 123 then none
    else if c = 125 then
      match replaceField dict b with
      | none => none
      | some v => (formatGo dict .text l).map (v ++ ·)
    else formatGo dict (.field (b ++ [c])) l

/-- Python `pattern.format(**dict)`. -/
def pyFormat (dict : List (List Nat × PatVal)) (pattern : List Nat) : Option (List Nat) := formatGo dict .text pattern

/-- gem_network.py:365-373 `_fix_file_name_digits`. -/
def fixDigits (fn : List Nat) : List Nat :=
  let fn := pyReplace (bytes "{year}") (bytes "{year:04d}") fn
  let fn := pyReplace (bytes "{mon}") (bytes "{mon:02d}") fn
  let fn := pyReplace (bytes "{day}") (bytes "{day:02d}") fn
  let fn := pyReplace (bytes "{hour}") (bytes "{hour:02d}") fn
  let fn := pyReplace (bytes "{min}") (bytes "{min:02d}") fn
  let fn := pyReplace (bytes "{sec}") (bytes "{sec:02d}") fn
  pyReplace (bytes "{jd}") (bytes "{jd:03d}") fn

/-- gem_network.py:333-336: the values for a file whose earliest trace starts at `start` (hundredths of a second since 1970). -/
def nameDict (row : StationRow) (fmt : List Nat) (start : Int) : List (List Nat × PatVal) :=
  let t := start / 100
  let d := dateOfDay (t / 86400)
  [(bytes "year", .num d.year.toNat), (bytes "mon", .num d.month.toNat), (bytes "day", .num d.day.toNat),
   (bytes "jd", .num (daysBeforeMonth d.year d.month + d.day).toNat), (bytes "hour", .num (t % 86400 / 3600).toNat),
   (bytes "min", .num (t % 3600 / 60).toNat), (bytes "sec", .num (t % 60).toNat), (bytes "net", .str row.network),
   (bytes "sta", .str row.station), (bytes "loc", .str row.location), (bytes "chan", .str (bytes "HDF")), (bytes "fmt", .str fmt)]

/-- A converted file: its path and its traces. -/
structure InFile where
  path : List Nat
  stream : List Trace
  deriving DecidableEq, Repr

/-- A renamed file: the codes of its traces, and the traces. -/
structure Renamed where
  network : List Nat
  station : List Nat
  location : List Nat
  stream : List Trace
  deriving DecidableEq, Repr

/-- gem_network.py:316-317: the serial number in the name; `none`: IndexError. -/
def nameSN (path : List Nat) : Option (List Nat) := (pySplit 46 ((pySplit 47 path).getLastD []))[2]?

/-- gem_network.py:319: the first row with the serial number. -/
def rowFor (table : List StationRow) (sn : List Nat) : Option StationRow := (table.filter fun r => r.sn = sn).head?

/-- gem_network.py:326-331: the earliest start; `none`: IndexError. -/
def earliest : List Trace → Option Int
  | [] => none
  | tr :: l => some (l.foldl (fun t tr => min t tr.start) tr.start)

/-- gem_network.py:314-341: the loop over the files. Returns what was written, in order, and whether it came to its end. -/
def renameLoop (table : List StationRow) (dir fmt : List Nat) : List Nat → List InFile → List (List Nat × Renamed) × Bool
  | _, [] => ([], true)
  | pattern, f :: l =>
    match nameSN f.path with
    | none => ([], false)
    | some sn =>
      match rowFor table sn with
      | none => renameLoop table dir fmt pattern l
      | some row =>
        match earliest f.stream with
        | none => ([], false)
        | some t1 =>
          let pattern := fixDigits pattern
          match pyFormat (nameDict row fmt t1) pattern with
          | none => ([], false)
          | some name =>
            let r := renameLoop table dir fmt pattern l
            ((dir ++ bytes "/" ++ name, ⟨row.network, row.station, row.location, f.stream⟩) :: r.1, r.2)

/-- gem_network.py:281-343 `rename_files`. -/
def renameFiles (table : List StationRow) (dir fmt pattern : List Nat) (files : List InFile) : List (List Nat × Renamed) × Bool :=
  if files = [] then ([], false) else renameLoop table dir fmt pattern files

/-- gem_network.py:282. -/
def defaultPattern : List Nat := bytes "{year}-{mon}-{day}T{hour}_{min}_{sec}.{net}.{sta}.{loc}.{chan}.{fmt}"

end Gemlog
