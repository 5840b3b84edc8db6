import Verif.Spec.OldFormat
import Verif.Spec.Reference
import Verif.Model.Header
import Verif.Model.Reference

/-!
# Specification: files that both readers of the differenced formats can read
-/

namespace Gemlog

/-- A line the table reader can read: a sample with a whole, unsigned count; a fix; a status line; or a line of printable text that is empty or
does not begin with a blank, whose first field is not missing and whose second field, if there is one, is missing or a number. -/
def LogLine.Tabular : LogLine → Prop
  | .sample ms _ => ms.neg = false ∧ ms.fp = []
  | .letters .. => False
  | .other body => (∀ b ∈ body, b ≠ 0) ∧ PlainText body ∧ (body = [] ∨ ((∀ b ∈ body.head?, b ≠ 32 ∧ b ≠ 9) ∧ (splitComma body).headD [] ∉ naValues ∧
      ∀ g, (splitComma body)[1]? = some g → g ∈ naValues ∨ ∃ x, pyFloat g = some x))
  | _ => True

/-- A file of a differenced format without two-letter lines: six lines of header, and lines with the true times of their events. -/
structure TabularFile (start : Rat) (header es : List Event) : Prop where
  head : header.length = 6 ∧ ∀ e ∈ header, e.isOther = true ∧ e.line.Valid ∧ e.line.Plain
  lines : ∀ e ∈ es, e.line.Valid ∧ e.line.Tabular
  printed : TimesPrinted none es
  /-- Consecutive events are less than half a rollover apart (by one millisecond at least). -/
  near : ((es.filter fun e => !e.isOther).map Event.T).IsChain fun x y => y - x < 4095 ∧ -4095 < y - x
  near_start : ∀ x ∈ ((es.filter fun e => !e.isOther).map Event.T).head?, -4095 ≤ x - start ∧ x - start < 4095
  samples : sampleTimes es ≠ []
  status : ∃ e ∈ es, e.isStatus = true
  length : es.length ≤ 1560000

end Gemlog
