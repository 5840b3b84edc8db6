import Verif.Props.FileLengthStart

/-!
# C123: two visits converted with a given start
-/

namespace Gemlog

/-- **C123, with a given start.** If nothing is to be filled in and a start is given, the conversion of all files writes exactly what the conversions of the two visits write, one after the
other: no samples of the second visit are lost, which otherwise are (`C123_violated_joint`). The lengths of blocks and files may differ. -/
theorem C123_given_start (j j1 j2 : Job) (t : Int) (h : Ordinary j) (h1 : Ordinary j1) (h2 : Ordinary j2) (hrec : j.recorded = j1.recorded ++ j2.recorded)
    (hfill : NothingToFill j.recorded) (h0 : 0 ≤ t) (hreach1 : ∃ q ∈ j1.recorded, t ≤ 10000 * q.1) (hreach2 : ∃ q ∈ j2.recorded, t ≤ 10000 * q.1) :
    ∃ s s1 s2, Settles (convertLoops j (some t)) (.done s) ∧ Settles (convertLoops j1 (some t)) (.done s1) ∧ Settles (convertLoops j2 (some t)) (.done s2) ∧
      samples s.w.out = samples s1.w.out ++ samples s2.w.out := by
  have hf := hfill
  unfold NothingToFill at hf
  rw [hrec, List.isChain_append] at hf
  obtain ⟨q, hq, hq'⟩ := hreach1
  obtain ⟨s, a1, a2⟩ := C29_given_start_exact j t h hfill h0 ⟨q, by rw [hrec]; exact List.mem_append_left _ hq, hq'⟩
  obtain ⟨s1, b1, b2⟩ := C29_given_start_exact j1 t h1 hf.1 h0 ⟨q, hq, hq'⟩
  obtain ⟨s2, c1, c2⟩ := C29_given_start_exact j2 t h2 hf.2.1 h0 hreach2
  exact ⟨s, s1, s2, a1, b1, c1, by rw [a2, b2, c2, hrec, List.filter_append]⟩

/-- Two visits; the second begins at 26:00:00.05, which is not a whole second. -/
def visitsJob (nums : List Int) : Job where
  nums := nums
  blockdays := 1
  L := 7200000000
  t2 := 253402300799360500
  read := fun b =>
    if b = [3, 4] then .ok [⟨9359850, [1, 2, 3]⟩, ⟨9359998, [7, 8]⟩]
    else if b = [40, 41] then .ok [⟨9360005, [2, 2]⟩, ⟨9360500, [9]⟩]
    else .error .missingRaw

theorem visitsJob_skips (nums : List Int) : (visitsJob nums).OnlySkips := by
  intro b _ x h
  have h' : (if b = [3, 4] then (.ok [⟨9359850, [1, 2, 3]⟩, ⟨9359998, [7, 8]⟩] : Except Exc (List Trace))
    else if b = [40, 41] then .ok [⟨9360005, [2, 2]⟩, ⟨9360500, [9]⟩] else .error .missingRaw) = .error x := h
  split at h'
  · cases h'
  · split at h'
    · cases h'
    · cases h'; rfl

theorem visitsJob_ordinary (nums : List Int) (h : nums = [3, 4, 40, 41] ∨ nums = [3, 4] ∨ nums = [40, 41]) : Ordinary (visitsJob nums) := by
  rcases h with rfl | rfl | rfl
  · exact ⟨by decide, ⟨720000, by decide, rfl⟩, visitsJob_skips _, ⟨by decide +kernel, by unfold Increasing; decide +kernel⟩, by decide +kernel, by decide +kernel,
      ⟨(9359998, 7), by decide +kernel, by decide +kernel⟩⟩
  · exact ⟨by decide, ⟨720000, by decide, rfl⟩, visitsJob_skips _, ⟨by decide +kernel, by unfold Increasing; decide +kernel⟩, by decide +kernel, by decide +kernel,
      ⟨(9359998, 7), by decide +kernel, by decide +kernel⟩⟩
  · exact ⟨by decide, ⟨720000, by decide, rfl⟩, visitsJob_skips _, ⟨by decide +kernel, by unfold Increasing; decide +kernel⟩, by decide +kernel, by decide +kernel,
      ⟨(9360500, 9), by decide +kernel, by decide +kernel⟩⟩

example : ∃ s s1 s2, Settles (convertLoops (visitsJob [3, 4, 40, 41]) (some 0)) (.done s) ∧ Settles (convertLoops (visitsJob [3, 4]) (some 0)) (.done s1) ∧
    Settles (convertLoops (visitsJob [40, 41]) (some 0)) (.done s2) ∧ samples s.w.out = samples s1.w.out ++ samples s2.w.out :=
  C123_given_start _ _ _ 0 (visitsJob_ordinary _ (.inl rfl)) (visitsJob_ordinary _ (.inr (.inl rfl))) (visitsJob_ordinary _ (.inr (.inr rfl)))
    (by decide +kernel) (by unfold NothingToFill; decide +kernel) le_rfl ⟨(9359998, 7), by decide +kernel, by decide⟩ ⟨(9360500, 9), by decide +kernel, by decide⟩

end Gemlog
