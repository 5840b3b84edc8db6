import Verif.Props.LagSymmetry
import Mathlib.Order.Interval.Finset.Defs
import Mathlib.Data.Int.Interval
import Mathlib.Data.Finset.Max

/-!
# C119: exactly when exchanging two channels changes the sign of their lag
-/

namespace Gemlog

/-- **C119, exactly.** Exchanging the two channels changes the sign of the lag if and only if the correlation, within the largest shift allowed, has one maximum only. -/
theorem C119_exchange_exact (a b : List Rat) (m : Nat) :
    maxShift (correlate b a m) = -maxShift (correlate a b m) ↔
      ∃ s : Int, -(m : Int) ≤ s ∧ s ≤ m ∧
        ∀ t : Int, -(m : Int) ≤ t → t ≤ m → t ≠ s → crossCorr (demean a) (demean b) t < crossCorr (demean a) (demean b) s := by
  constructor
  · intro h
    obtain ⟨s, hs, hmax⟩ := Finset.exists_max_image (Finset.Icc (-(m : Int)) m) (crossCorr (demean a) (demean b)) ⟨0, by simp⟩
    rw [Finset.mem_Icc] at hs
    have hmax' : ∀ r : Int, -(m : Int) ≤ r → r ≤ m → crossCorr (demean a) (demean b) r ≤ crossCorr (demean a) (demean b) s :=
      fun r h1 h2 => hmax r (Finset.mem_Icc.mpr ⟨h1, h2⟩)
    refine ⟨s, hs.1, hs.2, fun t h1 h2 hne => lt_of_le_of_ne (hmax' t h1 h2) fun heq => ?_⟩
    rcases lt_or_gt_of_ne hne with hlt | hlt
    · exact C119_violated_ties a b m t s h1 hlt hs.2 heq (fun r g1 g2 => (hmax' r g1 g2).trans heq.symm.le) h
    · exact C119_violated_ties a b m s t hs.1 hlt h2 heq.symm hmax' h
  · rintro ⟨s, h1, h2, h⟩
    obtain ⟨e1, e2⟩ := C119_exchange_partial a b m s h1 h2 h
    rw [e1, e2]

/-- A pulse one sample later in the second channel: one maximum, at -1. Two constant channels: all shifts are equal, and both orders give the same lag. -/
example : maxShift (correlate [0, 3, 0, 0] [0, 0, 3, 0] 2) = -1 ∧ maxShift (correlate [0, 0, 3, 0] [0, 3, 0, 0] 2) = 1 ∧
    maxShift (correlate [1, 1, 1] [1, 1, 1] 1) = -1 ∧ crossCorr (demean [1, 1, 1]) (demean [1, 1, 1]) 1 = 0 := by
  decide +kernel

end Gemlog
