import Verif.Py.Num

/-!
# Millisecond counter unwrapping

Models `_unwrap_millis` (core.py:662-665), the unwrapping part of
`_process_gemlog_data` (core.py:862-872), and the unwrapping loop of the reference
reader `_slow__read_single_v0_9` (core.py:982, 1001-1003).
-/

namespace Gemlog

/-- core.py:662-665 `_unwrap_millis(new, old, maxNegative, rollover)`. -/
def unwrapMillis (new old maxNegative rollover : Rat) : Rat :=
  old + pyMod (new - pyMod old rollover + maxNegative) rollover - maxNegative

/-- core.py:863 `diff() < -(rollover/2)` as 0/1 (a comparison with NaN is False). -/
def isUp (R : Rat) : Option Rat → Int
  | none => 0
  | some d => if d < -(R / 2) then 1 else 0

/-- core.py:864 `diff() > (rollover/2)` as 0/1 (a comparison with NaN is False). -/
def isDown (R : Rat) : Option Rat → Int
  | none => 0
  | some d => if d > R / 2 then 1 else 0

/-- core.py:863 `(df['millis-sawtooth'].diff() < -(rollover/2))`. -/
def stepUp (R : Rat) (saw : List Rat) : List Int := (pdDiff saw).map (isUp R)

/-- core.py:864 `(df['millis-sawtooth'].diff() > (rollover/2))`. -/
def stepDown (R : Rat) (saw : List Rat) : List Int := (pdDiff saw).map (isDown R)

/-- core.py:863-865 column `millis-stairstep`. -/
def stairstep (R : Rat) (saw : List Rat) : List Rat :=
  (List.zipWith (fun a b => a - b) (cumsum (stepUp R saw)) (cumsum (stepDown R saw))).map
    fun (n : Int) => (n : Rat) * R

/-- core.py:866 column `millis-corrected` before the offset is applied. -/
def correctedRaw (R : Rat) (saw : List Rat) : List Rat :=
  List.zipWith (fun a b => a + b) (stairstep R saw) saw

/-- core.py:867-872: the constant added to `millis-corrected`, given its first entry. -/
def offsetShift (R offset first : Rat) : Rat :=
  (offset - first) + pyMod (first - pyMod offset R + R / 2) R - R / 2

/-- core.py:862-872: unwrapped millis of all rows. `none` is the IndexError of
`.iloc[0]` on an empty table. -/
def correctedMillis (R offset : Rat) (saw : List Rat) : Option (List Rat) :=
  match correctedRaw R saw with
  | [] => none
  | first :: rest => some ((first :: rest).map fun m => m + offsetShift R offset first)

/-- core.py:1001-1003: the reference reader unwraps line by line against the
previously unwrapped value. -/
def slowUnwrapFrom (millis : Rat) : List Rat → List Rat
  | [] => []
  | s :: l =>
    let m := unwrapMillis s millis (2 ^ 12) (2 ^ 13)
    m :: slowUnwrapFrom m l

/-- core.py:982 `millis = offset % 2**13`, then the loop. -/
def slowUnwrap (offset : Rat) (saw : List Rat) : List Rat :=
  slowUnwrapFrom (pyMod offset (2 ^ 13)) saw

end Gemlog
