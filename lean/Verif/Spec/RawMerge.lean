import Verif.Spec.RawFormat

/-!
# Specification: raw files for merging

What a raw file of a differenced format is, and which pressures it records.
-/

namespace Gemlog

/-- The file has a line beginning with `G`. -/
def HasFix (content : List Nat) : Prop := content.head? = some 71 ∨ ∃ a b, content = a ++ 10 :: 71 :: b

/-- A line behind the first sample: a sample `D<millis>,<step>`, a sample written as two lower-case letters, or any line that is
not a sample. -/
inductive RawLine
  | sample (t : Dec) (step : Int)
  | letters (x y : Nat)
  | other (body : List Nat)

def RawLine.text : RawLine → List Nat
  | .sample t step => lineD t step
  | .letters x y => [x, y, 10]
  | .other body => body ++ [10]

def RawLine.Valid : RawLine → Prop
  | .sample t step => (lineD t step).length ≤ 255
  | .letters x y => (97 ≤ x ∧ x ≤ 122) ∧ 97 ≤ y ∧ y ≤ 122
  | .other body => (∀ b ∈ body, b ≠ 10) ∧ body.length ≤ 254 ∧ ∀ b ∈ body.head?, b ≠ 68 ∧ ¬ (97 ≤ b ∧ b ≤ 122)

/-- The change of pressure the line records. -/
def RawLine.step : RawLine → Option Int
  | .sample _ step => some step
  | .letters _ y => some ((y : Int) - 109)
  | .other _ => none

/-- A raw file: the version, further lines that are not samples, the first sample (whose value is an absolute pressure) and the other lines. -/
structure RawText where
  version : String
  head : List (List Nat)
  t : Dec
  first : Int
  rest : List RawLine

def RawText.text (f : RawText) : List Nat :=
  bytes "#GemCSV" ++ bytes f.version ++ [10] ++ (f.head.map (· ++ [10])).flatten ++ lineD f.t f.first ++
    (f.rest.map RawLine.text).flatten

/-- Running sums. -/
def runningSums (acc : Int) : List Int → List Int
  | [] => []
  | x :: l => (acc + x) :: runningSums (acc + x) l

/-- The absolute pressures recorded in a file. -/
def RawText.pressures (f : RawText) : List Int := runningSums 0 (f.first :: f.rest.filterMap RawLine.step)

/-- Well-formed: no line is too long, no pressure has more than 20 digits, the lines before the first sample are not
empty and not samples, and there is a metadata line. -/
structure RawText.Valid (f : RawText) : Prop where
  head : ∀ l ∈ f.head, (∃ b ∈ l, b ≠ 32) ∧ (∀ b ∈ l, b ≠ 10) ∧ l.length ≤ 254 ∧
    ∀ b ∈ l.head?, b ≠ 68 ∧ ¬ (97 ≤ b ∧ b ≤ 122)
  time : f.t.text.length ≤ 100
  rest : ∀ l ∈ f.rest, l.Valid
  range : ∀ p ∈ f.pressures, p.natAbs < 10 ^ 20
  meta' : ∃ body, (body ∈ f.head ∨ RawLine.other body ∈ f.rest) ∧ body.head? = some 77

end Gemlog
