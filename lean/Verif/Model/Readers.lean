import Verif.Model.Parser

/-!
# Exceptions, and the reader based on the compiled parser
-/

namespace Gemlog

/-- The exceptions the code distinguishes (exceptions.py:6-33 and Python's own). `other` stands for any
other subclass of `Exception`, `baseOther` for one that is not (`BaseException`, `SystemExit`). -/
inductive Exc
  | emptyRaw
  | fileNotFound
  | corrupt
  | noGPS
  | inadequateGPS
  | discontinuousGPS
  | missingRaw
  | keyboardInterrupt
  | other
  | baseOther
  deriving DecidableEq, Repr

/-- exceptions.py:11-28: subclasses of `CorruptRawFile`. -/
def Exc.isCorrupt : Exc → Bool
  | .corrupt | .noGPS | .inadequateGPS | .discontinuousGPS => true
  | _ => false

/-- Is it caught by `except Exception`? -/
def Exc.isException : Exc → Bool
  | .keyboardInterrupt | .baseOther => false
  | _ => true

/-- core.py:707-710: an empty table is reported, and one without GPS rows if GPS is required. -/
def checkRows (requireGps : Bool) (rows : List Row) : Except Exc (List Row) :=
  if rows = [] then .error .emptyRaw
  else if (∀ r ∈ rows, r.kind ≠ .G) ∧ requireGps then .error .noGPS
  else .ok rows

/-- core.py:677-717 `_read_with_cython(filename, require_gps)`. `content` is the content of the file,
`none` if it does not exist; `buf0`, `buf1` are the uninitialised line buffers of the two calls of the
parser (1560000 rows, then 42 times as many). Simplification: the extension module is installed. -/
def readWithCython (buf0 buf1 : List Nat) (requireGps : Bool) (content : Option (List Nat)) :
    Except Exc (List Row) :=
  match content with
  | none => .error .fileNotFound
  | some c =>
    match parseGemN 1560000 buf0 c with
    | some rows => checkRows requireGps rows
    | none =>
      match parseGemN (1560000 * 6 * 7) buf1 c with
      | some rows => checkRows requireGps rows
      | none => .error .other

end Gemlog
