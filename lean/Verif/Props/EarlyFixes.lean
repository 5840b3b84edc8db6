import Verif.Props.Tables

/-!
# C67: fixes before the requested start
-/

namespace Gemlog

/-- **C67 is violated by every conversion with a given start `t1` (microseconds) that reads a fix of an earlier time in any but the first block with data.** When the conversion has ended, the GPS file holds
the fix `f` although it is earlier than a second before `t1`; such a fix of the first block with data is left out. -/
theorem C67_violated_fixes (j : TableJob) (t1 : Int) (fuel : Nat) (s : CState) (tb : Tables) (hrun : convertT j (some t1) fuel = .done (s, tb))
    (g0 : GemData) (gs : List GemData) (hdata : j.dataOf s.reads = g0 :: gs) (g : GemData) (hg : g ∈ gs) (f : Fix) (hf : f ∈ g.gps)
    (_hearly : 1000000 * f.t ≤ (t1 : Rat) - 1000000) :
    f ∈ tb.gps ∧ ∀ f' ∈ g0.gps, 1000000 * f'.t ≤ (t1 : Rat) - 1000000 → (∀ g ∈ gs, f' ∉ g.gps) → f' ∉ tb.gps := by
  have h := C67_tables j (some t1) fuel
  rw [hrun] at h
  cases hc : convertLoops j.job (some t1) fuel with
  | running => rw [hc] at h; cases h
  | raised x o => rw [hc] at h; cases h
  | done s' =>
    rw [hc] at h
    have h' : (s, tb) = (s', tablesFor (some t1) (j.dataOf s'.reads)) := by injection h
    obtain ⟨rfl, e⟩ := Prod.mk.inj h'
    rw [hdata] at e
    rw [e]
    show f ∈ (g0.gps.filter fun f => decide ((t1 : Rat) - 1000000 < 1000000 * f.t)) ++ gs.flatMap GemData.gps ∧ ∀ f' ∈ g0.gps, _ → _ →
      f' ∉ (g0.gps.filter fun f => decide ((t1 : Rat) - 1000000 < 1000000 * f.t)) ++ gs.flatMap GemData.gps
    refine ⟨List.mem_append_right _ (List.mem_flatMap.mpr ⟨g, hg, hf⟩), fun f' _ h2 h3 h4 => ?_⟩
    rcases List.mem_append.mp h4 with h4 | h4
    · have := (List.mem_filter.mp h4).2
      simp only [decide_eq_true_eq] at this
      linarith
    · obtain ⟨g, hg, h5⟩ := List.mem_flatMap.mp h4
      exact h3 g hg h5

/-- The hypotheses hold for the conversion of `C67_violated_early_fixes`. -/
example : ∃ s tb g0 g, convertT demoTables (some 93605000000) 20 = .done (s, tb) ∧ demoTables.dataOf s.reads = [g0, g] ∧ gpsAt 3 93600 ∈ g.gps ∧
    1000000 * (gpsAt 3 93600).t ≤ (93605000000 : Rat) - 1000000 := by
  have h : convertLoops demoJob (some 93605000000) 20 = .done ⟨51, 259200000000, ⟨[], 100800000000, [⟨9360500, [9]⟩]⟩,
      [[3, 4], [], [], [40, 41]]⟩ := by decide +kernel
  have h' := C67_tables demoTables (some 93605000000) 20
  rw [demoTables_job, h] at h'
  refine ⟨_, _, _, _, h', demoTables_data, by simp, by unfold gpsAt; norm_num⟩

end Gemlog
