import Verif.Spec.Recording

/-!
# Specification: recordings that are merged before they are read

What a file must be like for `gem_cat`, and what a group of files is as one recording. Written from the description of the formats, without
using the model of `gem_cat`.
-/

namespace Gemlog

/-- A raw file for merging: the version, lines that are not samples and not blank, the first sample as a full line, and other lines; no line
is too long, no pressure has more than 20 digits, and there is a status line. -/
structure MergeFile (es : List Event) : Prop where
  shape : ∃ (v : String) (T0 : Rat) (head : List Event) (T : Rat) (ms : Dec) (step : Int) (rest : List Event),
    v ∈ ["0.85C", "0.9", "1.10"] ∧ es = ⟨T0, .other (bytes "#GemCSV" ++ bytes v)⟩ :: (head ++ ⟨T, .sample ms step⟩ :: rest) ∧
    (∀ e ∈ head, e.step = none ∧ ∃ b ∈ e.line.text, b ≠ 32 ∧ b ≠ 10) ∧ ms.text.length ≤ 100
  valid : ∀ e ∈ es, e.line.Valid
  length : es.length ≤ 65520000
  range : ∀ p ∈ pressuresOf es, p.natAbs < 10 ^ 20
  status : ∃ e ∈ es, e.isStatus = true

/-- A file from its first sample on. -/
def fromSample (es : List Event) : List Event := es.dropWhile fun e => e.step.isNone

/-- What happened during a group of files, apart from the lines before the first samples of all but the first file. -/
def joinedLog : List (List Event) → List Event
  | [] => []
  | es :: rest => es ++ rest.flatMap fromSample

end Gemlog
