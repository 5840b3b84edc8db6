import Verif.Props.Limits

namespace Gemlog

/-!
# Conversions of several blocks with nothing to write (C33)

Together, `C29_given_start`, `C33_violated_start` and the case of data in the last block only give the exact condition.
-/

/-- The first block with data is the last one, and all the data are before `t1`: the conversion ends normally and writes nothing. -/
theorem last_block_nothing (j : Job) (t1 : Int) (hb : 0 < j.blockdays) (hs : j.OnlySkips) (before : List (List Int)) (b : List Int)
    (hblocks : j.blocks = before ++ [b]) (hbefore : j.record before = []) (hdata : j.streamOf b ≠ []) (ho : InOrder (j.streamOf b))
    (hlate : ∀ q ∈ samples (j.streamOf b), 10000 * q.1 < t1) :
    ∃ s, Settles (convertLoops j (some t1)) (.done s) ∧ s.w.out = [] := by
  obtain ⟨n2, a1, a2⟩ := firstData_exact hb hs hblocks hbefore hdata
  obtain ⟨d1, hd1⟩ : ∃ d1, d1 = j.streamOf b := ⟨_, rfl⟩
  rw [← hd1] at a1 hdata ho hlate
  have hn2 : n2 > j.last := by
    by_contra h
    rw [blocksFrom_cons hb (not_lt.mp h)] at a2
    simp at a2
  obtain ⟨tr0, p0, hp0⟩ := List.exists_cons_of_ne_nil hdata
  obtain ⟨trl, htrl⟩ := exists_last hdata
  have hst0 : 10000 * tr0.start < t1 := by
    obtain ⟨x, r, e⟩ := head_samples (p := p0) (ho.1 tr0 (by rw [hp0]; simp))
    exact hlate (tr0.start, x) (by rw [hp0, e]; simp)
  have hstop : 10000 * trl.stop < t1 := by
    obtain ⟨x, r, e⟩ := last_samples htrl (ho.1 trl (List.mem_of_getLast? htrl))
    exact hlate (trl.stop, x) (by rw [e]; simp)
  have hmax : max t1 (10000 * tr0.start) = t1 := max_eq_left (by omega)
  have hmain : Settles (fun n => mainLoop j n ⟨n2, t1, ⟨d1, t1, []⟩, before ++ [b]⟩) (.done ⟨n2, t1, ⟨d1, t1, []⟩, before ++ [b]⟩) := by
    apply settles_succ
    simp only [mainLoop, if_pos hn2]
    exact settles_const (by simp)
  have hrest : Settles (fun n => writeRest j.L j.t2 n ⟨d1, t1, []⟩) (.done ⟨d1, t1, []⟩) := by
    apply settles_succ
    have hcond : ¬ (t1 ≤ 10000 * trl.stop) := by omega
    simp only [writeRest, htrl, if_neg hcond]
    exact settles_const (by simp)
  have hrun : ∀ n, startRun j (some t1) n (n2, d1, before ++ [b]) =
      (mainLoop j n ⟨n2, t1, ⟨d1, t1, []⟩, before ++ [b]⟩).bind fun s =>
        (writeRest j.L j.t2 n s.w).bind fun w => .done { s with w := w } := by
    intro n
    unfold startRun startTime
    simp only [hp0, hmax]
  have : Settles (fun n => (firstBlock j n (j.nums.head?.getD 0 : Int) []).bind (startRun j (some t1) n))
      (.done ⟨n2, t1, ⟨d1, t1, []⟩, before ++ [b]⟩) := by
    refine settles_bind a1 ?_
    simp only [hrun]
    exact settles_bind hmain (settles_bind hrest (settles_const (by simp)))
  exact ⟨_, this, rfl⟩

/-- **C33, exactly, for several blocks and a far end.** Let the requested start `t1` be a multiple of the sample interval, the requested end `t2` be far
after `t1` and the data, the file length be on the sample grid, and `b` the first block with data. The conversion ends normally if and only if some
sample of the record is not before `t1`, or `b` is the last block. Missing: `t2` inside the data, see `C33_one_block_exact_partial` for one block. -/
theorem C33_blocks_exact_partial (j : Job) (l t1 : Int) (hb : 0 < j.blockdays) (hl : 0 < l) (hL : j.L = 10000 * l)
    (hs : j.OnlySkips) (before after : List (List Int)) (b : List Int) (hblocks : j.blocks = before ++ b :: after)
    (hbefore : j.record before = []) (hdata : j.streamOf b ≠ []) (ho : InOrder (j.streamOf b ++ j.record after))
    (ht1 : 0 ≤ t1) (hgrid : 10000 ∣ t1) (ht2 : t1 + 10000 ≤ j.t2)
    (hfar : ∀ q ∈ samples (j.streamOf b ++ j.record after), 10000 * q.1 + j.L + j.day + 1000000 ≤ j.t2) :
    (∃ s, Settles (convertLoops j (some t1)) (.done s)) ↔
      (∃ q ∈ samples (j.streamOf b ++ j.record after), t1 ≤ 10000 * q.1) ∨ after = [] := by
  constructor
  · rintro ⟨s, h⟩
    by_contra hc
    rw [not_or] at hc
    obtain ⟨h1, h2⟩ := hc
    have hlate : ∀ q ∈ samples (j.streamOf b ++ j.record after), 10000 * q.1 + 5000 < t1 := by
      intro q hq
      obtain ⟨m, rfl⟩ := hgrid
      have : ¬ (10000 * m ≤ 10000 * q.1) := fun h => h1 ⟨q, hq, h⟩
      omega
    have := settles_unique h (C33_violated_start j l t1 hb hl hL hs before after b hblocks hbefore hdata h2 ho ht2 hlate)
    simp at this
  · intro h
    by_cases hq : ∃ q ∈ samples (j.streamOf b ++ j.record after), t1 ≤ 10000 * q.1
    · obtain ⟨s, h1, _⟩ := C29_given_start j l t1 hb hl hL hs _ _ ⟨⟨before, b, after, hblocks, hbefore, rfl, rfl⟩, hdata⟩ ho ht1 hfar hq
      exact ⟨s, h1⟩
    · rcases h with h | h
      · exact absurd h hq
      · obtain ⟨s, h1, _⟩ := last_block_nothing j t1 hb hs before b (by rw [hblocks, h]) hbefore hdata (inOrder_append.mp ho).1 (by
          intro q hq'
          by_contra hc
          exact hq ⟨q, by rw [samples_append]; exact List.mem_append_left _ hq', by omega⟩)
        exact ⟨s, h1⟩

/-- The example conversion from a start inside the record, and from one after it. -/
example : (∃ s, Settles (convertLoops demoJob (some 93600000000)) (.done s)) ∧ ¬ ∃ s, Settles (convertLoops demoJob (some 94200000000)) (.done s) := by
  have h := fun t1 ht1 hg ht2 => C33_blocks_exact_partial demoJob 720000 t1 (by decide) (by decide) rfl demoJob_skips [] [[], [], [40, 41]] [3, 4]
    (by decide +kernel) (by decide +kernel) (by decide +kernel) ⟨by decide +kernel, by unfold Increasing; decide +kernel⟩ ht1 hg ht2 (by decide +kernel)
  constructor
  · rw [h _ (by decide) (by decide) (by decide)]
    left
    decide +kernel
  · rw [h _ (by decide) (by decide) (by decide)]
    rintro (h | h)
    · revert h
      decide +kernel
    · simp at h

end Gemlog
