import Verif.Spec.Record
import Verif.Model.Stream

/-!
# Specification: records with gaps
-/

namespace Gemlog

/-- Samples at the same time are the same. -/
def Consistent (s : List (Int × Int)) : Prop := ∀ t x y, (t, x) ∈ s → (t, y) ∈ s → x = y

/-- Separated traces in order of time: not empty, and at least one sample is missing between neighbours. -/
def Separate (p : List Trace) : Prop := (∀ tr ∈ p, tr.data ≠ []) ∧ p.IsChain fun a b => a.stop + 1 < b.start

/-- No sample is missing between the first and the last. -/
def Gapless (s : List (Int × Int)) : Prop := ∀ a ∈ s, ∀ b ∈ s, ∀ t, a.1 ≤ t → t ≤ b.1 → ∃ x, (t, x) ∈ s

/-- The samples up to `g` hundredths of a second around the gap between two traces. -/
def around (s : List (Int × Int)) (g : Int) (a b : Trace) : List (Int × Int) :=
  s.filter fun q => decide (a.stop - g ≤ q.1 ∧ q.1 ≤ b.start + g)

/-- The sample put into the gap between `a` and `b` at time `q.1`: the value of the spline through the samples around the gap, cut to an
integer. Times for the spline count from the first of these samples. -/
def FilledAt (spline : List (Int × Int) → Int → Rat) (g : Int) (s : List (Int × Int)) (a b : Trace) (q : Int × Int) : Prop :=
  a.stop < q.1 ∧ q.1 < b.start ∧ ∃ t0 x0, (around s g a b).head? = some (t0, x0) ∧
    q.2 = pyTrunc (spline ((around s g a b).map fun p => (p.1 - t0, p.2)) (q.1 - t0))

end Gemlog
