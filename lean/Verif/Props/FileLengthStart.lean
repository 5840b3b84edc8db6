import Verif.Props.FileLength

/-!
# C124, C29: a given start, and a record in which nothing is filled in
-/

namespace Gemlog

/-- Specification: wherever samples are missing, at least three are (fewer would be filled in). -/
def NothingToFill (s : List (Int × Int)) : Prop := s.IsChain fun a b => b.1 - a.1 = 1 ∨ 4 ≤ b.1 - a.1

theorem fillIn_nothing : ∀ {s : List (Int × Int)}, NothingToFill s → fillIn s = s
  | [], _ => rfl
  | [_], _ => rfl
  | a :: b :: l, h => by
    obtain ⟨h1, h2⟩ := List.isChain_cons_cons.mp h
    rw [fillIn, fillIn_nothing h2, between, if_neg (by omega), if_neg (by omega)]
    rfl

/-- **C29, given start.** If nothing is to be filled in, a conversion from a given start writes exactly the recorded samples from this start on, in order, whatever the
lengths of blocks and files. -/
theorem C29_given_start_exact (j : Job) (t1 : Int) (h : Ordinary j) (hfill : NothingToFill j.recorded) (h0 : 0 ≤ t1)
    (hreach : ∃ q ∈ j.recorded, t1 ≤ 10000 * q.1) :
    ∃ s, Settles (convertLoops j (some t1)) (.done s) ∧ samples s.w.out = j.recorded.filter fun q => decide (t1 ≤ 10000 * q.1) := by
  obtain ⟨d1, rest, hd, hrec⟩ := ordinary_first h
  obtain ⟨l, hl, hL⟩ := h.length
  have hR : j.recorded = samples (d1 ++ rest) := by unfold Job.recorded; rw [hrec]
  have ho := h.order
  rw [hrec] at ho
  have hf := h.far
  rw [hR] at hf hreach hfill
  obtain ⟨s, c1, c2, c3, -, -⟩ := C29_given_start j l t1 h.block hl hL h.skips d1 rest hd ho h0 hf hreach
  rw [fillIn_nothing hfill] at c3
  refine ⟨s, c1, ?_⟩
  rw [hR]
  exact (c2.antisymm c3).symm

/-- **C124, with a given start, if nothing is to be filled in.** Two conversions with different lengths of the output files write the same samples in the same order. -/
theorem C124_given_start_same (j : Job) (L t1 : Int) (h : Ordinary j) (h' : Ordinary { j with L := L }) (hfill : NothingToFill j.recorded) (h0 : 0 ≤ t1)
    (hreach : ∃ q ∈ j.recorded, t1 ≤ 10000 * q.1) :
    ∃ s s', Settles (convertLoops j (some t1)) (.done s) ∧ Settles (convertLoops { j with L := L } (some t1)) (.done s') ∧
      samples s.w.out = samples s'.w.out := by
  obtain ⟨s, a1, a2⟩ := C29_given_start_exact j t1 h hfill h0 hreach
  obtain ⟨s', b1, b2⟩ := C29_given_start_exact { j with L := L } t1 h' hfill h0 hreach
  exact ⟨s, s', a1, b1, by rw [a2, b2]; rfl⟩

theorem firstVisit_any (L : Int) (h : L = 7200000000 ∨ L = 60000000) : Ordinary { firstVisit with L := L } := by
  rcases h with rfl | rfl
  · exact ⟨by decide, ⟨720000, by decide, rfl⟩, skips_visit _, ⟨by decide +kernel, by unfold Increasing; decide +kernel⟩, by decide +kernel,
      by decide +kernel, ⟨(9359900, 4), by decide +kernel, by decide +kernel⟩⟩
  · exact ⟨by decide, ⟨6000, by decide, rfl⟩, skips_visit _, ⟨by decide +kernel, by unfold Increasing; decide +kernel⟩, by decide +kernel,
      by decide +kernel, ⟨(9359900, 4), by decide +kernel, by decide +kernel⟩⟩

/-- Three runs of samples, converted from the middle of the second with files of two hours and of a minute. -/
example : NothingToFill firstVisit.recorded ∧ ∃ s s', Settles (convertLoops firstVisit (some 93598990000)) (.done s) ∧
    Settles (convertLoops { firstVisit with L := 60000000 } (some 93598990000)) (.done s') ∧ samples s.w.out = samples s'.w.out := by
  have hf : NothingToFill firstVisit.recorded := by unfold NothingToFill; decide +kernel
  exact ⟨hf, C124_given_start_same firstVisit 60000000 93598990000 (firstVisit_any _ (.inl rfl)) (firstVisit_any _ (.inr rfl)) hf (by decide)
    ⟨(9359900, 4), by decide +kernel, by decide⟩⟩

end Gemlog
