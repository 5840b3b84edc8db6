import Verif.Spec.Recording

/-!
# Specification: files both readers can read

Written from the description of the format, without using the readers.
-/

namespace Gemlog

/-- The content of a file. -/
def logText (ls : List LogLine) : List Nat := (ls.map LogLine.text).flatten

/-- The count printed in a line. -/
def LogLine.count : LogLine → Option Rat
  | .sample ms _ => some ms.val
  | .fix ms .. => some ms.val
  | .status ms .. => some ms.val
  | _ => none

/-- Kinds of lines. -/
def LogLine.isSample : LogLine → Bool | .sample .. => true | _ => false
def LogLine.isFix : LogLine → Bool | .fix .. => true | _ => false
def LogLine.isStatus : LogLine → Bool | .status .. => true | _ => false

/-- No line in the two-letter form of format 1.10, and no odd bytes in other lines. -/
def LogLine.Plain : LogLine → Prop
  | .letters .. => False
  | .other body => ∀ b ∈ body, 0 < b ∧ b < 128 ∧ b ≠ 13
  | _ => True

/-- A file that prints all its lines in full, with counts between 0 and 8191 that never rise by exactly half a rollover from one
line to the next, and that is within the size the reference reader allows. -/
structure PlainFile (ls : List LogLine) : Prop where
  valid : ∀ l ∈ ls, l.Valid ∧ l.Plain
  range : ∀ c ∈ ls.filterMap LogLine.count, 0 ≤ c ∧ c < 8192
  jump : (ls.filterMap LogLine.count).IsChain fun a b => b - a ≠ 4096
  samples : ls.countP LogLine.isSample ≤ 750000
  statuses : ls.countP LogLine.isStatus ≤ 15000
  fixes : ls.countP LogLine.isFix ≤ 15000

/-- The line is a fix with sensible contents and a real calendar time. -/
def LogLine.GoodFix (l : LogLine) : Prop := ∃ t : Int, (Event.mk 0 l).FixAt t

end Gemlog
