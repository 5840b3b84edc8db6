import Verif.Py.PyInt
import Verif.Model.Parser

/-!
# Transcoding to the compact raw format

Models `_convert_raw_091_110` (gemlog_aux.py:413-455). Lines are those Python's text mode yields,
each including its newline. Simplification: the file contains no carriage returns and is valid in
the default encoding, so text mode changes nothing.
-/

namespace Gemlog

/-- gemlog_aux.py:433-455: one iteration of the loop. Result: the strings written, and
`millis_current`; `none` is an exception (IndexError, ValueError, `Corrupt input file head`). -/
def transcodeLine (i : Nat) (millisCurrent : Int) (line : List Nat) :
    Option (List (List Nat) × Int) :=
  if line.head? = some 68 then                                          -- 434 line[0] == 'D'
    let l := splitComma line                                            -- 435
    match l[1]? with
    | none => none
    | some l1 =>
      match pyInt l1, pyInt ((l.getD 0 []).drop 1) with                 -- 436-438
      | some p, some ms =>
        let diff := (ms - millisCurrent) % 8192                         -- 439
        if p.natAbs ≤ 12 ∧ (diff - 10).natAbs ≤ 12 ∧ i > 0 then         -- 441
          some ([[(diff - 10 + 109).toNat, (p + 109).toNat, 10]], ms)   -- 442-445
        else some ([line], ms)                                          -- 446-447
      | _, _ => none
  else if i = 0 then                                                    -- 448
    if line.take 7 = bytes "#GemCSV" then
      some ([bytes "#GemCSV1.1\n", bytes "#adcMSSAMP\n"], millisCurrent)
    else none
  else some ([line], millisCurrent)                                     -- 454-455

/-- gemlog_aux.py:433: the loop over the lines. -/
def transcodeGo (i : Nat) (millisCurrent : Int) : List (List Nat) → Option (List (List Nat))
  | [] => some []
  | line :: rest =>
    match transcodeLine i millisCurrent line with
    | none => none
    | some (w, ms) => (transcodeGo (i + 1) ms rest).map (w ++ ·)

/-- gemlog_aux.py:413-455: the content of the output file; `version` is the result of
`_read_format_version(infile)`. -/
def transcode (version : String) (lines : List (List Nat)) : Option (List Nat) :=
  if version ∈ ["0.85C", "0.9", "0.91"] then (transcodeGo 0 0 lines).map List.flatten else none

end Gemlog
