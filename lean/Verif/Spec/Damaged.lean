import Verif.Spec.Restarts
import Verif.Props.ReadGemMore

/-!
# Specification: damaged files

What a damaged file is: one that the reader refuses, or whose clock cannot be determined, wherever it is in the sequence of files.
-/

namespace Gemlog

/-- The file is refused whatever the count at which the record before it ended: it cannot be read, has no samples, its samples are out of
order or more than a second apart, or its clock cannot be determined. -/
def Refused (env : Env) (e : Entry) : Prop :=
  ∀ start, (∃ x : Exc, x.isException = true ∧ env.ops.read e start true "0.9" = .error x) ∨
    ∃ L, env.ops.read e start true "0.9" = .ok L ∧
      (L.data = [] ∨ ∃ P, Placed start L P ∧ (¬ Steady P ∨ ∃ x : Exc, x.isException = true ∧ env.ops.drift e P true = .error x))

/-- A damaged file. If its first line is legible as a format version at all, it is one of the compact formats
(otherwise see `C101_violated_version`), and its gain setting is legible or missing (see `C101_violated_gain`). -/
structure Damaged (env : Env) (e : Entry) : Prop where
  refused : Refused env e
  version : ∀ v, env.version e = some v → v ∈ ["0.85C", "0.9", "0.91", "1.10"]
  gain : env.adc e = 0 ∨ env.adc e = 1

/-- The counts of the samples of the accepted file are not zero. (They are whole numbers plus 8.93.) -/
def NeverZero (env : Env) (e : Entry) : Prop :=
  ∀ start P, Outcome env.ops true "0.9" start e (.ok P) → ∀ p ∈ P.data, p.1 ≠ 0

/-- The directory without the files marked as bad. -/
def without (bad : Entry → Bool) (dir : List Entry) : List Entry := dir.filter fun e => !bad e

end Gemlog
