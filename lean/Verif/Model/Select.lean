import Verif.Model.Names
import Verif.Py.PyInt
import Verif.Model.Readers

/-!
# Which raw files are read

Models `_find_nonmissing_files` (core.py:621-658) and the checks at the start of `convert` (core.py:131-185).
File names are given without the directory (all have the same one).
-/

namespace Gemlog

/-- The outcome of `_read_SN` (core.py:581-587): it raises, finds an empty field (NaN), or a text. -/
inductive SNRead where
  | raises
  | nan
  | str (s : List Nat)
  deriving DecidableEq, Repr

/-- What is used of a file in the raw directory: its name, size in bytes and internal serial number. -/
structure Entry where
  name : List Nat
  size : Nat
  sn : SNRead
  deriving DecidableEq, Repr

/-- The pattern `FILE[0-9][0-9][0-9][0-9].???` (core.py:133, 624). -/
def isRawName (s : List Nat) : Bool :=
  decide (s.length = 12) && decide (s.take 4 = bytes "FILE") && ((s.drop 4).take 4).all isDigit &&
    decide ((s.drop 8).take 1 = bytes ".")

/-- core.py:169, 639: `int(fn[-8:-4])`, for four digits. -/
def fileNum (s : List Nat) : Int := digitsVal ((s.drop (s.length - 8)).take 4)

/-- core.py:629: `fn[-3:]`. -/
def fileExt (s : List Nat) : List Nat := s.drop (s.length - 3)

/-- Python's order of strings. -/
def nameLe : List Nat → List Nat → Bool
  | [], _ => true
  | _ :: _, [] => false
  | a :: l, b :: m => decide (a < b) || (decide (a = b) && nameLe l m)

/-- Insertion into a sorted list. -/
def insertEntry (e : Entry) : List Entry → List Entry
  | [] => [e]
  | f :: l => if nameLe e.name f.name then e :: f :: l else f :: insertEntry e l

/-- core.py:625: `fnList.sort()`. -/
def sortEntries : List Entry → List Entry
  | [] => []
  | e :: l => insertEntry e (sortEntries l)

/-- core.py:629-635: the serial number a file counts for. The array holds three characters per element: longer texts
are cut. -/
def slotSN (e : Entry) : List Nat :=
  if fileExt e.name = bytes "TXT" then
    match e.sn with
    | .raises => fileExt e.name
    | .nan => bytes "nan"
    | .str s => s.take 3
  else fileExt e.name

/-- core.py:621-658 `_find_nonmissing_files(path, SN, nums)`. -/
def findFiles (dir : List Entry) (SN : List Nat) (nums : List Int) : List Entry :=
  let files := sortEntries (dir.filter fun e => isRawName e.name)
  let good := files.filter fun e => decide (fileNum e.name ∈ nums) && decide (slotSN e = SN)
  good.filter fun e => decide (e.size > 10)

/-- Insertion sort of numbers (core.py:185: `nums.sort()`). -/
def insertNum (n : Int) : List Int → List Int
  | [] => [n]
  | m :: l => if n ≤ m then n :: m :: l else m :: insertNum n l

/-- core.py:185. -/
def sortNums : List Int → List Int
  | [] => []
  | n :: l => insertNum n (sortNums l)

/-- core.py:153-154: the candidate files: extension `SN` or `TXT`. (`SN` holds no wildcard here, see `pyInt`.) -/
def candidates (dir : List Entry) (SN : List Nat) : List Entry :=
  (dir.filter fun e => isRawName e.name && decide (fileExt e.name = SN)) ++
    dir.filter fun e => isRawName e.name && decide (fileExt e.name = bytes "TXT")

/-- core.py:131-185: the checks of `convert` and the sorted list of file numbers. `SN` is `str(SN)`; `nums` may start with
NaN (`none`), which means all. -/
def convertNums (isDir : Bool) (dir : List Entry) (SN : List Nat) (nums : List (Option Int)) : Except Exc (List Int) :=
  if isDir = false then .error .missingRaw                                        -- 131-132
  else if (dir.filter fun e => isRawName e.name).length = 0 then .error .missingRaw -- 133-134
  else if (pyInt SN).isNone then .error .other                                    -- 135-139
  else if SN.length ≠ 3 then .error .other                                        -- 140-141
  else
    let fn := candidates dir SN
    let mine := fn.filter fun e => decide (e.sn = .str SN)                        -- 157-166
    let corrupt := fn.any fun e => decide (e.sn = .raises)
    let all := mine.map fun e => fileNum e.name
    let found := if nums.length = 0 ∨ nums.head? = some none then all             -- 170-175
      else all.filter fun n => decide (some n ∈ nums)
    if found.length = 0 then .error (if corrupt then .corrupt else .missingRaw)   -- 178-182
    else .ok (sortNums found)

end Gemlog
