import Verif.Spec.Record
import Verif.Model.Stream

/-!
# Overlapping traces
-/

namespace Gemlog

/-- Traces with samples, in the order of their starts. -/
def StartsUp (p : List Trace) : Prop := (∀ tr ∈ p, tr.data ≠ []) ∧ p.Pairwise fun a b => a.start < b.start

/-- The trace has a sample at that time. -/
def Covers (t : Trace) (k : Int) : Prop := t.start ≤ k ∧ k ≤ t.stop

/-- The two traces say the same wherever both have a sample. -/
def Agree (a b : Trace) : Prop := ∀ k x y, (k, x) ∈ samples [a] → (k, y) ∈ samples [b] → x = y

/-- The samples of `b` after the end of `a`. -/
def laterThan (a b : Trace) : List (Int × Int) := (samples [b]).filter fun q => decide (a.stop < q.1)

/-- In the overlap with `b`, the samples of `a` are those of the straight line (cut to integers) that leads in as many steps
from the last sample of `a` to the first one of `b`. -/
def OnLine (a b : Trace) : Prop :=
  ∃ x y, (a.stop, x) ∈ samples [a] ∧ (b.start, y) ∈ samples [b] ∧
    ∀ k v, (k, v) ∈ samples [a] → b.start ≤ k → k ≤ b.stop →
      v = pyTrunc ((x : Rat) + ((k - b.start : Int) + 1) * ((y - x : Int) : Rat) / ((min a.stop b.stop - b.start + 1 : Int) + 1))

/-- Traces without a gap above 30 ms: each one starts at most 30 ms after the latest end so far. -/
def Unbroken : Int → List Trace → Prop
  | _, [] => True
  | e, b :: l => b.start ≤ e + 3 ∧ Unbroken (max e b.stop) l

end Gemlog
