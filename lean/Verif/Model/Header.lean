import Verif.Model.Select
import Verif.Model.Whole

/-!
# The header of a raw file

Models `_read_SN` (core.py:581-587) and `_read_config` (core.py:601-618) on the content of a file. Simplifications: lines end with
a newline, possibly after a carriage return; contents hold no quotation marks and no undecodable bytes.
-/

namespace Gemlog

/-- A line as `pd.read_csv` sees it: without newline and carriage return. -/
def csvText (line : List Nat) : List Nat :=
  let s := chomp line
  if s.getLast? = some 13 then s.dropLast else s

/-- pandas skips lines that are empty or hold only blanks and tabs. -/
def csvBlank (s : List Nat) : Bool := s.all fun b => decide (b = 32) || decide (b = 9)

/-- The values pandas takes for missing when it reads a table. -/
def naValues : List (List Nat) :=
  ["", "#N/A", "#N/A N/A", "#NA", "-1.#IND", "-1.#QNAN", "-NaN", "-nan", "1.#IND", "1.#QNAN", "<NA>", "N/A", "NA", "NULL", "NaN",
    "None", "n/a", "nan", "null"].map bytes

/-- `comment = '#'`: the rest of the line is ignored. -/
def cutComment (s : List Nat) : List Nat := s.takeWhile fun b => decide (b ≠ 35)

/-- core.py:583: the rows of the table read by `_read_SN`, which skips three lines. -/
def snRows (content : List Nat) : List (List (List Nat)) :=
  ((((textLines content).drop 3).map fun l => cutComment (csvText l)).filter fun s => !csvBlank s).map splitComma

/-- core.py:581-587 `_read_SN(fn)`. The row is looked up by its label 0, so it must be the first row; if another row is of
type `S`, the lookup raises. `odd` stands for what pandas does if the first row has more than two fields (some become the index). -/
def readSNOf (odd : List (List (List Nat)) → SNRead) (content : List Nat) : SNRead :=
  match snRows content with
  | [] => .raises
  | [t] :: _ => if t = bytes "S" then .nan else .raises
  | [t, s] :: _ => if t = bytes "S" then (if s ∈ naValues then .nan else .str s) else .raises
  | rows => odd rows

/-- The configuration of a logger. -/
structure Config where
  gpsMode : Int
  gpsCycle : Int
  gpsQuota : Int
  adcRange : Int
  ledShutoff : Int
  serialOutput : Int
  deriving DecidableEq, Repr

/-- core.py:602-607. -/
def defaultConfig : Config := ⟨1, 15, 20, 0, 0, 0⟩

/-- core.py:613-614: the row as a configuration; `none`: the row is not of type `C`, or a value is missing or not an integer
(`int` raises, and the exception is ignored). Simplification: a row of more than seven fields (the first become the index) is not taken for
one of type `C`. -/
def configOf (row : List (List Nat)) : Option Config :=
  match row with
  | [c, x1, x2, x3, x4, x5, x6] =>
    if c = bytes "C" then
      match pyInt x1, pyInt x2, pyInt x3, pyInt x4, pyInt x5, pyInt x6 with
      | some a1, some a2, some a3, some a4, some a5, some a6 => some ⟨a1, a2, a3, a4, a5, a6⟩
      | _, _, _, _, _, _ => none
    else none
  | _ => none

/-- core.py:612: `pd.read_csv(fn, skiprows = j+1, nrows = 1, ...)`: the first row that is not blank after `j + 1` lines. -/
def configRow (content : List Nat) (j : Nat) : Option (List (List Nat)) :=
  ((((textLines content).drop (j + 1)).map csvText).find? fun s => !csvBlank s).map splitComma

/-- core.py:601-618 `_read_config(fn)`. -/
def readConfig (content : List Nat) : Config :=
  ((List.range 10).findSome? fun j => (configRow content j).bind configOf).getD defaultConfig

/-- The outcome of `_read_SN` as used by `_read_several` (core.py:1069). -/
def SNRead.result : SNRead → Except Exc String
  | .raises => .error .corrupt
  | .nan => .ok "nan"
  | .str s => .ok (String.ofList (s.map Char.ofNat))

/-- The files, with serial numbers and gain read from their contents. -/
def RawDisk.withHeaders (odd : List (List (List Nat)) → SNRead) (d : RawDisk) : RawDisk :=
  { d with readSN := fun e => (readSNOf odd (d.content e)).result, adc := fun e => (readConfig (d.content e)).adcRange }

end Gemlog
