import Mathlib.Analysis.Real.Sqrt

/-! # Mean, standard deviation and median, as in textbooks -/

namespace Gemlog.Stats

/-- Arithmetic mean. -/
def mean (v : List Rat) : Rat := v.sum / v.length

/-- Standard deviation (dividing by the number of values). -/
noncomputable def std (v : List Rat) : Real := Real.sqrt (mean (v.map fun x => (x - mean v) ^ 2) : Rat)

/-- `m` is the median of `v`: the middle one of the values in increasing order, or the mean of the middle two. -/
def IsMedian (m : Rat) (v : List Rat) : Prop :=
  ∃ s : List Rat, s.Perm v ∧ s.Pairwise (· ≤ ·) ∧
    ((∃ a b, s = a ++ m :: b ∧ a.length = b.length) ∨
      ∃ a b x y, s = a ++ x :: y :: b ∧ a.length = b.length ∧ m = (x + y) / 2)

end Gemlog.Stats
