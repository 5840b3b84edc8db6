import Verif.Props.Convert

/-!
# C29: the length of the output files does not matter
-/

namespace Gemlog

/-- **C29, file lengths.** The samples written do not depend on the length of the output files: under the conditions of `C29_nothing_lost`, conversions with two file lengths,
both whole numbers of 10 ms samples, write the same samples in the same order. -/
theorem C29_length_irrelevant (j : Job) (l l' : Int) (hb : 0 < j.blockdays) (hl : 0 < l) (hl' : 0 < l') (hL : j.L = 10000 * l)
    (hs : j.OnlySkips) (d1 rest : List Trace) (hd : FirstData j d1 rest) (ho : InOrder (d1 ++ rest))
    (hpos : ∀ q ∈ samples (d1 ++ rest), 0 ≤ q.1)
    (hfar : ∀ q ∈ samples (d1 ++ rest), 10000 * q.1 + max (10000 * l) (10000 * l') + j.day + 1000000 ≤ j.t2)
    (k x0 h : Int) (hk : (samples d1).head? = some (k, x0)) (hh1 : h % 1000000 = 0) (hh2 : 10000 * k ≤ h)
    (hh3 : h < 10000 * k + 1000000) (hh4 : ∃ q ∈ samples (d1 ++ rest), h ≤ 10000 * q.1) :
    ∃ s s', Settles (convertLoops j none) (.done s) ∧ Settles (convertLoops { j with L := 10000 * l' } none) (.done s') ∧
      samples s.w.out = samples s'.w.out := by
  obtain ⟨s, h1, h2, -⟩ := C29_nothing_lost j l hb hl hL hs d1 rest hd ho hpos (fun q hq => by have := hfar q hq; rw [hL]; omega) k x0 h hk hh1 hh2 hh3 hh4
  obtain ⟨s', h1', h2', -⟩ := C29_nothing_lost { j with L := 10000 * l' } l' hb hl' rfl hs d1 rest ⟨hd.1, hd.2⟩ ho hpos
    (fun q hq => by have := hfar q hq; show 10000 * q.1 + 10000 * l' + j.day + 1000000 ≤ j.t2; omega) k x0 h hk hh1 hh2 hh3 hh4
  exact ⟨s, s', h1, h1', by rw [h2, h2']⟩

/-- Two hours and 90 minutes. -/
example : ∃ s s', Settles (convertLoops demoJob none) (.done s) ∧ Settles (convertLoops { demoJob with L := 10000 * 540000 } none) (.done s') ∧
    samples s.w.out = samples s'.w.out :=
  C29_length_irrelevant demoJob 720000 540000 (by decide) (by decide) (by decide) rfl demoJob_skips _ _ demoJob_first
    ⟨by decide +kernel, by unfold Increasing; decide +kernel⟩ (by decide +kernel) (by decide +kernel) 9359850 1 93599000000
    (by decide +kernel) (by decide) (by decide) (by decide) ⟨(9359900, 4), by decide +kernel, by decide⟩

end Gemlog
