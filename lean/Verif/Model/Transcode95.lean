import Verif.Model.Transcode

/-!
# Transcoding to the raw format 0.95

Models `_convert_raw_091_095` (gemlog_aux.py:380-410). Lines are those Python's text mode yields, each including its newline.
Simplification: the file contains no carriage returns and is valid in the default encoding, so text mode changes nothing.
-/

namespace Gemlog

/-- A hexadecimal digit as printed by `hex` and changed to upper case (gemlog_aux.py:399). -/
def hexDigit (d : Nat) : Nat := if d < 10 then 48 + d else 55 + d

/-- Worker for `hexStr`; the first argument is fuel (never exhausted for `hexStr`). -/
def hexStrAux : Nat → Nat → List Nat → List Nat
  | 0, _, acc => acc
  | f + 1, n, acc => if n < 16 then hexDigit n :: acc else hexStrAux f (n / 16) (hexDigit (n % 16) :: acc)

/-- gemlog_aux.py:399: `hex(n)[2:].upper()`. -/
def hexStr (n : Nat) : List Nat := hexStrAux (n + 1) n []

/-- gemlog_aux.py:390-410: one iteration of the loop: the strings written; `none` is an exception (IndexError, ValueError,
`Corrupt input file head`). -/
def transcode95Line (i : Nat) (line : List Nat) : Option (List (List Nat)) :=
  if line.head? = some 68 then                                          -- 391 line[0] == 'D'
    let l := splitComma line                                            -- 392
    match (l[1]?).bind pyInt with                                       -- 393
    | none => none
    | some p =>
      if p.natAbs ≤ 12 then                                             -- 395
        match pyInt ((l.getD 0 []).drop 1) with                         -- 396
        | none => none
        | some ms => some [(p + 109).toNat :: hexStr (ms % 4096).toNat ++ [10]]   -- 397-399
      else some [line]                                                  -- 400-401
  else if i = 0 then                                                    -- 402
    if line.take 7 = bytes "#GemCSV" then some [bytes "#GemCSV0.95\n", bytes "#adcMSSAMP\n"] else none
  else some [line]                                                      -- 408-409

/-- gemlog_aux.py:390: the loop over the lines. -/
def transcode95Go (i : Nat) : List (List Nat) → Option (List (List Nat))
  | [] => some []
  | line :: rest =>
    match transcode95Line i line with
    | none => none
    | some w => (transcode95Go (i + 1) rest).map (w ++ ·)

/-- gemlog_aux.py:380-410: the content of the output file; `version` is the result of `_read_format_version(infile)`. -/
def transcode95 (version : String) (lines : List (List Nat)) : Option (List Nat) :=
  if version ∈ ["0.85C", "0.9", "0.91"] then (transcode95Go 0 lines).map List.flatten else none

end Gemlog
