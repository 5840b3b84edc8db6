import Verif.Props.FileLengthStart

/-!
# C129: a later start only leaves out what is before it
-/

namespace Gemlog

/-- **C129.** If nothing is to be filled in: of two conversions of the same files, the one with the later start writes exactly those samples of the other one that are not
before its start, in the same order. -/
theorem C129_later_start (j : Job) (t t' : Int) (h : Ordinary j) (hfill : NothingToFill j.recorded) (h0 : 0 ≤ t) (hlater : t ≤ t')
    (hreach : ∃ q ∈ j.recorded, t' ≤ 10000 * q.1) :
    ∃ s s', Settles (convertLoops j (some t)) (.done s) ∧ Settles (convertLoops j (some t')) (.done s') ∧
      samples s'.w.out = (samples s.w.out).filter fun q => decide (t' ≤ 10000 * q.1) := by
  obtain ⟨r, hr, hr'⟩ := hreach
  obtain ⟨s, a1, a2⟩ := C29_given_start_exact j t h hfill h0 ⟨r, hr, by omega⟩
  obtain ⟨s', b1, b2⟩ := C29_given_start_exact j t' h hfill (by omega) ⟨r, hr, hr'⟩
  refine ⟨s, s', a1, b1, ?_⟩
  rw [a2, b2, List.filter_filter]
  apply List.filter_congr
  intro q _
  simp only [← Bool.decide_and, decide_eq_decide]
  omega

/-- **C129, no start given.** If nothing is to be filled in, a conversion without a start writes the same as one that starts at the first whole second of the record, and so
exactly those samples of any conversion with an earlier start that are not before this second. -/
theorem C129_no_start (j : Job) (h : Ordinary j) (hfill : NothingToFill j.recorded) :
    (∃ s s', Settles (convertLoops j none) (.done s) ∧ Settles (convertLoops j (some (firstSecond j.recorded))) (.done s') ∧
      samples s.w.out = samples s'.w.out) ∧
    ∀ t, 0 ≤ t → t ≤ firstSecond j.recorded → ∃ s s', Settles (convertLoops j none) (.done s) ∧ Settles (convertLoops j (some t)) (.done s') ∧
      samples s.w.out = (samples s'.w.out).filter fun q => decide (firstSecond j.recorded ≤ 10000 * q.1) := by
  obtain ⟨s, a1, a2⟩ := ordinary_out h
  rw [fillIn_nothing hfill] at a2
  have h0 : 0 ≤ firstSecond j.recorded := by
    unfold firstSecond
    have : 0 ≤ (j.recorded.head?.map Prod.fst).getD 0 := by
      cases hh : j.recorded.head? with
      | none => exact le_rfl
      | some q => exact h.positive q (List.mem_of_head? hh)
    omega
  obtain ⟨s', b1, b2⟩ := C29_given_start_exact j _ h hfill h0 h.reaches
  refine ⟨⟨s, s', a1, b1, by rw [a2, b2]; rfl⟩, fun t ht0 ht => ?_⟩
  obtain ⟨u, u', c1, c2, c3⟩ := C129_later_start j t _ h hfill ht0 ht h.reaches
  refine ⟨s, u, a1, c1, ?_⟩
  rw [← c3]
  have : u' = s' := by
    obtain ⟨-, N, hN⟩ := c2
    obtain ⟨-, M, hM⟩ := b1
    have e := (hN (max N M) (le_max_left _ _)).symm.trans (hM (max N M) (le_max_right _ _))
    cases e
    rfl
  rw [this, a2, b2]
  rfl

/-- **C129, recorded samples (missing: the samples filled into short gaps, see `C129_violated_filling`).** Whatever is filled in, a recorded sample that is not before the
later start is written by both conversions. -/
theorem C129_recorded_partial (j : Job) (t t' : Int) (h : Ordinary j) (h0 : 0 ≤ t) (hlater : t ≤ t') (hreach : ∃ q ∈ j.recorded, t' ≤ 10000 * q.1) :
    ∃ s s', Settles (convertLoops j (some t)) (.done s) ∧ Settles (convertLoops j (some t')) (.done s') ∧
      (∀ q ∈ j.recorded, q ∈ samples s'.w.out ↔ q ∈ samples s.w.out ∧ t' ≤ 10000 * q.1) ∧ ∀ q ∈ samples s'.w.out, t' ≤ 10000 * q.1 := by
  obtain ⟨r, hr, hr'⟩ := hreach
  obtain ⟨d1, rest, hd, hrec⟩ := ordinary_first h
  obtain ⟨l, hl, hL⟩ := h.length
  have hR : j.recorded = samples (d1 ++ rest) := by unfold Job.recorded; rw [hrec]
  have ho := h.order
  rw [hrec] at ho
  have hf := h.far
  rw [hR] at hf hr ⊢
  obtain ⟨s, a1, a2, a3, -, -⟩ := C29_given_start j l t h.block hl hL h.skips d1 rest hd ho h0 hf ⟨r, hr, by omega⟩
  obtain ⟨s', b1, b2, b3, -, -⟩ := C29_given_start j l t' h.block hl hL h.skips d1 rest hd ho (by omega) hf ⟨r, hr, hr'⟩
  refine ⟨s, s', a1, b1, fun q hq => ⟨fun hm => ?_, fun ⟨_, hm⟩ => b2.subset (mem_from.mpr ⟨hq, hm⟩)⟩, fun q hq => (mem_from.mp (b3.subset hq)).2⟩
  have := (mem_from.mp (b3.subset hm)).2
  exact ⟨a2.subset (mem_from.mpr ⟨hq, by omega⟩), this⟩

/-- **C129 is violated by samples that are filled in.** A later start can add a sample: with files of a tenth of a second, the conversion that starts a day later fills in the
missing sample at 00:00:00.11 of that day, and the other one leaves it out. -/
theorem C129_violated_filling :
    isDone (convertLoops (fillingJob 100000) (some 0) 12) = true ∧ isDone (convertLoops (fillingJob 100000) (some 86400010000) 12) = true ∧
    8640011 ∉ (samples (convertLoops (fillingJob 100000) (some 0) 12).written).map Prod.fst ∧
    8640011 ∈ (samples (convertLoops (fillingJob 100000) (some 86400010000) 12).written).map Prod.fst := by decide +kernel

/-- A record in which the sample at 1.02 s is missing. -/
def shortGapJob : Job where
  nums := [0]
  blockdays := 1
  L := 1000000
  t2 := 253402300799000000
  read := fun b => if b = [0] then .ok [⟨100, [1, 2]⟩, ⟨103, [4, 5]⟩] else .error .missingRaw

/-- **C129 is violated if no start is given.** Then a short gap of the first block is filled in; with the same start given, it is not. -/
theorem C129_violated_no_start :
    firstSecond shortGapJob.recorded = 1000000 ∧ isDone (convertLoops shortGapJob none 12) = true ∧ isDone (convertLoops shortGapJob (some 1000000) 12) = true ∧
    samples (convertLoops shortGapJob none 12).written = [(100, 1), (101, 2), (102, 3), (103, 4), (104, 5)] ∧
    samples (convertLoops shortGapJob (some 1000000) 12).written = [(100, 1), (101, 2), (103, 4), (104, 5)] := by decide +kernel

/-- Three runs of samples, converted from the middle of the second and from the beginning of the third. -/
example : ∃ s s', Settles (convertLoops firstVisit (some 93598990000)) (.done s) ∧ Settles (convertLoops firstVisit (some 93599980000)) (.done s') ∧
    samples s'.w.out = (samples s.w.out).filter fun q => decide (93599980000 ≤ 10000 * q.1) :=
  C129_later_start firstVisit _ _ firstVisit_ordinary (by unfold NothingToFill; decide +kernel) (by decide) (by decide)
    ⟨(9359998, 7), by decide +kernel, by decide⟩

example : 0 < firstSecond firstVisit.recorded ∧ (9359850, 1) ∈ firstVisit.recorded ∧ 10000 * 9359850 < firstSecond firstVisit.recorded := by decide +kernel

end Gemlog
