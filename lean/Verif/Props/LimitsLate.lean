import Verif.Props.LimitsEnd

/-!
# C32: samples after the requested end
-/

namespace Gemlog

/-- **C32 is violated by every record of one block** that has a sample after the requested end `t2`, in the same window of the file length as `t2` and the requested start `t1`: that sample
is written, and then the conversion fails. -/
theorem C32_violated_late (j : Job) (l c k t1 : Int) (hl : 0 < l) (hL : j.L = 10000 * l) (ht2 : j.t2 = 10000 * c) (d : List Trace) (h : OneBlock j d)
    (ho : InOrder d) (ht1 : 0 ≤ t1) (hk : k * j.L ≤ t1) (hlim : t1 ≤ j.t2) (q : Int × Int) (hq : q ∈ samples d) (hlate : j.t2 < 10000 * q.1)
    (hwin : 10000 * q.1 < (k + 1) * j.L) :
    ∃ out, Settles (convertLoops j (some t1)) (.raised .other out) ∧ q ∈ samples out := by
  obtain ⟨tr0, p0, hp0⟩ := List.exists_cons_of_ne_nil h.ne
  obtain ⟨trl, htrl⟩ := exists_last h.ne
  have hLpos : 0 < j.L := by omega
  have hstart : tr0.start ≤ q.1 := by
    have hq' := hq
    rw [hp0] at hq' ho
    exact start_le ho hq'
  have hstop := le_stop ho htrl hq
  obtain ⟨x, hx⟩ : ∃ x, x = max t1 (10000 * tr0.start) := ⟨_, rfl⟩
  have hx0 : 0 ≤ x := by omega
  have hxq : x ≤ 10000 * q.1 := by omega
  have hend : windowEnd j.L x = (k + 1) * j.L := by
    have e1 : windowEnd j.L x = x.tdiv j.L * j.L + j.L := rfl
    have e2 : x.tdiv j.L = k := by
      rw [Int.tdiv_eq_ediv_of_nonneg hx0]
      have e3 : (k + 1) * j.L = k * j.L + j.L := by ring
      refine le_antisymm ?_ ?_
      · have := Int.ediv_lt_of_lt_mul hLpos (show x < (k + 1) * j.L by omega)
        omega
      · exact Int.le_ediv_of_mul_le hLpos (by omega)
    rw [e1, e2]
    ring
  have hend' : windowEnd j.L x = 10000 * ((k + 1) * l) := by rw [hend, hL]; ring
  have hbody : writeBody j.L j.t2 ⟨d, x, []⟩ = .raised .other ([] ++ sliceStream x (windowEnd j.L x - 1) d) := by
    unfold writeBody
    rw [show writeWindow j.L d x = (sliceStream x (windowEnd j.L x - 1) d, windowEnd j.L x) from rfl]
    simp only
    rw [hend', ht2, hp0]
    rcases trimStream_cases (10000 * ((k + 1) * l)) (10000 * c) tr0 p0 with ⟨g1, _⟩ | ⟨p', _, g2, _⟩
    · rw [g1]
    · exfalso
      have hlimits : trimLimits (10000 * ((k + 1) * l)) (10000 * c) tr0 = ((k + 1) * l, c) := by
        unfold trimLimits
        have e1 : 10000 * ((k + 1) * l) - 10000 * tr0.start = 10000 * ((k + 1) * l - tr0.start) := by ring
        have e2 : 10000 * c - 10000 * tr0.stop = 10000 * (c - tr0.stop) := by ring
        rw [e1, e2, roundAway_mul, roundAway_mul]
        simp
      rw [hlimits] at g2
      simp only at g2
      have : (k + 1) * j.L = 10000 * ((k + 1) * l) := by rw [hL]; ring
      omega
  have hrest : Settles (fun n => writeRest j.L j.t2 n ⟨d, x, []⟩) (.raised .other ([] ++ sliceStream x (windowEnd j.L x - 1) d)) := by
    apply settles_succ
    simp only [writeRest, htrl, if_pos (show x ≤ 10000 * trl.stop by omega), hbody, Run.bind]
    exact settles_const (by simp)
  rw [hx] at hrest
  obtain ⟨n2, hs⟩ := oneBlock_run h hp0 t1 hrest
  refine ⟨_, hs, ?_⟩
  rw [List.nil_append, samples_sliceStream, List.mem_filter, ← hx, hend]
  refine ⟨hq, ?_⟩
  simp only [Bool.and_eq_true, decide_eq_true_eq]
  omega

/-- The hypotheses hold for a record with samples at 0.06 and 700 seconds, files of an hour and an end at 600 seconds. -/
example : ∃ out, Settles (convertLoops ⟨[0], 1, 3600000000, 600000000, fun _ => .ok [⟨6, [1]⟩, ⟨70000, [2]⟩]⟩ (some 0)) (.raised .other out) ∧ (70000, 2) ∈ samples out :=
  C32_violated_late _ 360000 60000 0 0 (by decide) rfl rfl [⟨6, [1]⟩, ⟨70000, [2]⟩]
    ⟨by decide, ⟨0, [], rfl, by intro n hn; rw [List.mem_singleton.mp hn]; exact ⟨by decide, by norm_num⟩⟩, rfl, by simp⟩
    ⟨by decide, by unfold Increasing; decide⟩ (by decide) (by decide) (by decide) _ (by decide) (by decide) (by decide)

end Gemlog
