import Verif.Spec.Recording

/-!
# Specification: lines lost from a recording

Some lines of a raw file are missing, or replaced by something that is not a data line. What the rest says about the recording: a full line `D<millis>,<step>` gives the time of
its sample, but a line of two letters gives only the distance from the sample before it, and all lines give only the change of pressure.
-/

namespace Gemlog

/-- What became of a line. -/
inductive Fate
  | kept
  | lost
  | junk (body : List Nat)
  deriving DecidableEq

/-- The text of a file with damaged lines. -/
def damagedText : List (Event × Fate) → List Nat
  | [] => []
  | (e, .kept) :: l => e.line.text ++ damagedText l
  | (_, .lost) :: l => damagedText l
  | (_, .junk body) :: l => body ++ [10] ++ damagedText l

/-- A sample whose line gives its time. -/
def Event.isFull (e : Event) : Bool := match e.line with | .sample .. => true | _ => false

/-- A sample whose line is kept: its true time and pressure; how much too early it seems to be; and how much pressure is missing. -/
structure Survivor where
  time : Rat
  pressure : Int
  early : Rat
  missing : Int

/-- The samples whose lines are kept. `early`: the time lost since the last full line that is kept; `prev`, `p`: true time and pressure of the sample before; `missing`: the
sum of the changes of pressure lost. -/
def survivors : Rat → Rat → Int → Int → List (Event × Fate) → List Survivor
  | _, _, _, _, [] => []
  | early, prev, p, missing, (e, f) :: l =>
    match e.step with
    | none => survivors early prev p missing l
    | some d =>
      match f with
      | .kept =>
        if e.isFull then ⟨e.T, p + d, 0, missing⟩ :: survivors 0 e.T (p + d) missing l
        else ⟨e.T, p + d, early, missing⟩ :: survivors early e.T (p + d) missing l
      | _ => survivors (early + (e.T - prev)) e.T (p + d) (missing + d) l

/-- True times and pressures of the samples whose lines are kept. -/
def keptSamples : Int → List (Event × Fate) → List (Rat × Int)
  | _, [] => []
  | p, (e, f) :: l =>
    match e.step with
    | none => keptSamples p l
    | some d => if f = .kept then (e.T, p + d) :: keptSamples (p + d) l else keptSamples (p + d) l

/-- The time lost between two full lines never exceeds 800 ms. -/
def BriefLoss : Rat → Rat → List (Event × Fate) → Prop
  | _, _, [] => True
  | early, prev, (e, f) :: l =>
    if e.step.isSome then
      if f = .kept then BriefLoss (if e.isFull then 0 else early) e.T l
      else early + (e.T - prev) ≤ 800 ∧ BriefLoss (early + (e.T - prev)) e.T l
    else BriefLoss early prev l

/-- Samples are at most 100 ms apart, and every other data line is within 500 ms of the sample before it; `c`: the time of the sample before. -/
def Around : Rat → List Event → Prop
  | _, [] => True
  | c, e :: es =>
    if e.step.isSome then (0 ≤ e.T - c ∧ e.T - c ≤ 100) ∧ Around e.T es
    else (e.isOther = false → -500 ≤ e.T - c ∧ e.T - c ≤ 500) ∧ Around c es

/-- True time of the first sample. -/
def firstTime (es : List Event) : Rat := (sampleTimes es).headD 0

/-- The lines lost are few: the first sample, a status line and ten fixes with the first and last of them are kept; the losses are brief; and junk does not look like data. -/
structure FewLost (l : List (Event × Fate)) : Prop where
  junk : ∀ q ∈ l, ∀ body, q.2 = .junk body → (LogLine.other body).Valid
  first : ∃ pre e post, l = pre ++ (e, Fate.kept) :: post ∧ (∀ q ∈ pre, q.1.step = none) ∧ e.step.isSome = true
  brief : BriefLoss 0 (firstTime (l.map Prod.fst)) l
  status : ∃ q ∈ l, q.1.isStatus = true ∧ q.2 = .kept
  enough : 10 ≤ (l.filter fun q => q.1.isFix && q.2 = Fate.kept).length
  ends : (∀ q ∈ (l.filter fun q => q.1.isFix).head?, q.2 = .kept) ∧ ∀ q ∈ (l.filter fun q => q.1.isFix).getLast?, q.2 = .kept

/-- The recording is sampled steadily and its files follow one another within 2.5 s. -/
def SteadyFrom : Rat → List (List Event) → Prop
  | _, [] => True
  | start, es :: rest => Around (firstTime es) es ∧ (-2500 ≤ firstTime es - start ∧ firstTime es - start ≤ 2500) ∧ SteadyFrom (endTime es) rest

/-- The times that the samples of a file seem to have. -/
def seemingTimes (l : List (Event × Fate)) : List Rat :=
  (survivors 0 (firstTime (l.map Prod.fst)) 0 0 l).map fun s => s.time - s.early

/-- The record that the remaining lines give. -/
def damagedRecord (a b : Rat) (files : List (List (Event × Fate))) : List (Rat × Int) :=
  files.flatMap fun l => (survivors 0 (firstTime (l.map Prod.fst)) 0 0 l).map fun s =>
    (a + b * (s.time - s.early + 893 / 100), s.pressure - s.missing)

end Gemlog
