import Verif.Py.Scan

/-!
# The log file of gemconvert

Models `convert_single_SN` (gemconvert.py:24-48) and `parse_error` (gemconvert.py:64-71): what one conversion leaves in `gemconvert_logfile.txt`. The
conversion itself is a parameter: it returns a list of problems, raises an exception or is interrupted. Simplifications: the time stamps of the
entries and the trace of an exception are left out, and the serial number is a text.
-/

namespace Gemlog

/-- Python's `str.find`: the first place where `pat` is found in `s`; `none`: -1. -/
def strFind (pat : List Nat) : List Nat → Option Nat
  | [] => if pat = [] then some 0 else none
  | c :: s => if pat.isPrefixOf (c :: s) then some 0 else (strFind pat s).map (· + 1)

/-- What becomes of `gemlog.convert`: it returns `count` problems (printed as `text`), raises an exception with the message given, or the user presses
control-C. -/
inductive ConvEnd where
  | ended (count : Nat) (text : List Nat)
  | failed (message : List Nat)
  | interrupted
  deriving DecidableEq, Repr

/-- logging.INFO and logging.ERROR. -/
inductive LogLevel where
  | info
  | error
  deriving DecidableEq, Repr

/-- An entry of the log file. -/
structure LogEntry where
  level : LogLevel
  text : List Nat
  deriving DecidableEq, Repr

/-- gemconvert.py:67. -/
def largeArrayText : List Nat := bytes "Tried to allocate very large data array, probably due to large time gap between adjacent files"

/-- gemconvert.py:69. -/
def malformedText : List Nat := bytes "Suspected malformed file"

/-- gemconvert.py:66: `e.find(pat) > 0`. -/
def foundAfterStart (pat s : List Nat) : Bool :=
  match strFind pat s with
  | some i => decide (i > 0)
  | none => false

/-- gemconvert.py:64-71 `parse_error`. -/
def parseError (e : List Nat) : List Nat :=
  if foundAfterStart (bytes "Unable to allocate") e then largeArrayText
  else if foundAfterStart (bytes "NULLType") e then malformedText
  else e

/-- gemconvert.py:24-48 `convert_single_SN`: the entries in the log file. -/
def singleLog (sn : List Nat) : ConvEnd → List LogEntry
  | .ended count text =>
    [⟨.info, bytes "Beginning " ++ sn⟩] ++ (if count > 0 then [⟨.info, bytes "Non-fatal errors: " ++ text⟩] else []) ++
      [⟨.info, bytes "Completed " ++ sn⟩]
  | .failed message =>
    [⟨.info, bytes "Beginning " ++ sn⟩, ⟨.error, parseError message⟩, ⟨.info, bytes "Fatal error in " ++ sn⟩, ⟨.info, bytes "Completed " ++ sn⟩]
  | .interrupted => [⟨.info, bytes "Beginning " ++ sn⟩, ⟨.info, bytes "Interrupted by user"⟩]

/-- gemconvert.py:24-48: what it prints behind its arguments. -/
def singlePrinted (sn : List Nat) : ConvEnd → List Nat
  | .ended _ _ => sn ++ bytes " done"
  | .failed message => message
  | .interrupted => bytes "Interrupted"

end Gemlog
