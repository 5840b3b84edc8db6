import Verif.Model.Interp

/-!
# Specification: time-stamped records

What a stream of traces means, independently of how the code handles it: a list of samples with their times (in
hundredths of a second).
-/

namespace Gemlog

/-- The samples `l` with their times, the first at time `k`. -/
def stamps (k : Int) : List Int → List (Int × Int)
  | [] => []
  | x :: l => (k, x) :: stamps (k + 1) l

/-- All samples of a stream with their times. -/
def samples (p : List Trace) : List (Int × Int) := p.flatMap fun tr => stamps tr.start tr.data

/-- Times strictly increase. -/
def Increasing (s : List (Int × Int)) : Prop := s.Pairwise fun a b => a.1 < b.1

/-- A stream in order: no empty traces, and the samples follow each other in time. -/
def InOrder (p : List Trace) : Prop := (∀ tr ∈ p, tr.data ≠ []) ∧ Increasing (samples p)

/-- The samples inserted between two neighbours 20 or 30 ms apart: the straight line between them, cut to integers. -/
def between (a b : Int × Int) : List (Int × Int) :=
  if b.1 - a.1 = 2 then [(a.1 + 1, Int.tdiv (a.2 + b.2) 2)]
  else if b.1 - a.1 = 3 then [(a.1 + 1, Int.tdiv (2 * a.2 + b.2) 3), (a.1 + 2, Int.tdiv (a.2 + 2 * b.2) 3)]
  else []

/-- The record with its small gaps (up to two missing samples) filled. -/
def fillIn : List (Int × Int) → List (Int × Int)
  | [] => []
  | [a] => [a]
  | a :: b :: l => a :: (between a b ++ fillIn (b :: l))

/-- The samples at or after a time in microseconds. -/
def from_ (t : Int) (s : List (Int × Int)) : List (Int × Int) := s.filter fun a => decide (t ≤ 10000 * a.1)

end Gemlog
