import Verif.Props.Noise

/-!
# C93: the noise level of the IMS models and in decibels
-/

namespace Gemlog

theorem quad_covered (num : Numerics) (t : List (ℝ × ℝ)) (a b : ℝ) (hab : a ≤ b) (ha : Covered (t.map Prod.fst) a) (hb : Covered (t.map Prod.fst) b) :
    quadSpline num t a b = some (num.integral (num.curve t) a b) := by
  have hcov : ∀ x, a ≤ x → x ≤ b → (splineAt num t x).isSome := by
    intro x h1 h2
    obtain ⟨⟨y, hy, hy'⟩, _⟩ := ha
    obtain ⟨_, ⟨z, hz, hz'⟩⟩ := hb
    have hc : Covered (t.map Prod.fst) x := ⟨⟨y, hy, hy'.trans h1⟩, ⟨z, hz, h2.trans hz'⟩⟩
    rw [spline_covered hc]
    rfl
  unfold quadSpline
  apply if_pos
  constructor
  · apply hcov <;> · unfold outerNode; linarith
  · apply hcov <;> · unfold outerNode; linarith

/-- **C93, noise levels of the IMS models.** For a band within the table, the noise level of each IMS model is the integral over the band of the curve through ten to the power of the column of
the model: as it is for power, its square root for amplitudes, and ten times its logarithm in decibels. Likewise in decibels for the Gem. -/
theorem C93_noise_levels (num : Numerics) (freq : Option (List ℝ)) (a b : ℝ) (hab : a ≤ b) :
    (∀ (rows : List ImsRow) (model : List Nat) (col : ImsRow → ℝ),
      (lower model ∈ [bytes "low", bytes "min"] ∧ col = ImsRow.min) ∨ (lower model = bytes "med" ∧ col = ImsRow.med) ∨
        (lower model ∈ [bytes "high", bytes "hi", bytes "max"] ∧ col = ImsRow.max) →
      Covered (rows.map ImsRow.f) a → Covered (rows.map ImsRow.f) b →
      ∃ p m d, imsNoise num rows model freq (bytes "power") (some a) (some b) = .ok p ∧ imsNoise num rows model freq (bytes "amp") (some a) (some b) = .ok m ∧
        imsNoise num rows model freq (bytes "dB") (some a) (some b) = .ok d ∧
        p.noise = some (num.integral (num.curve (rows.map fun r => (r.f, (10 : ℝ) ^ col r))) a b) ∧
        (0 < num.integral (num.curve (rows.map fun r => (r.f, (10 : ℝ) ^ col r))) a b →
          m.noise = some (Real.sqrt (num.integral (num.curve (rows.map fun r => (r.f, (10 : ℝ) ^ col r))) a b)) ∧
          d.noise = some (10 * Real.logb 10 (num.integral (num.curve (rows.map fun r => (r.f, (10 : ℝ) ^ col r))) a b)))) ∧
    ∀ (table : List (ℝ × ℝ)) (v : ℝ), 0.97 ≤ v → Covered (table.map Prod.fst) a → Covered (table.map Prod.fst) b →
      ∃ d, gemNoise num table freq (bytes "dB") (some v) (some a) (some b) = .ok d ∧
        (0 < num.integral (num.curve (table.map fun q => (q.1, q.2 ^ 2))) a b →
          d.noise = some (10 * Real.logb 10 (num.integral (num.curve (table.map fun q => (q.1, q.2 ^ 2))) a b))) := by
  have e1 : lower (bytes "power") = bytes "power" := by decide +kernel
  have e2 : lower (bytes "amp") ≠ bytes "power" := by decide +kernel
  have e3 : (lower (bytes "amp")).take 3 = bytes "amp" := by decide +kernel
  have e4 : lower (bytes "dB") ≠ bytes "power" := by decide +kernel
  have e5 : (lower (bytes "dB")).take 3 ≠ bytes "amp" := by decide +kernel
  have e6 : lower (bytes "dB") = bytes "db" := by decide +kernel
  have hdb : ∀ x : ℝ, 0 < x → (some x).bind npDecibel = some (10 * Real.logb 10 x) := by
    intro x hx
    rw [Option.bind_some]
    unfold npDecibel
    simp [hx]
  refine ⟨?_, ?_⟩
  · intro rows model col hcol ha hb
    have hc : imsColumn model = some col := by
      unfold imsColumn
      rcases hcol with ⟨h, rfl⟩ | ⟨h, rfl⟩ | ⟨h, rfl⟩
      · simp only [List.mem_cons, List.not_mem_nil, or_false] at h
        rw [if_pos h]
      · rw [if_neg (by rw [h]; decide +kernel), if_pos h]
      · simp only [List.mem_cons, List.not_mem_nil, or_false] at h
        rcases h with h | h | h <;> rw [if_neg (by rw [h]; decide +kernel), if_neg (by rw [h]; decide +kernel), if_pos (by simp [h])]
    have hq := quad_covered num (rows.map fun r => (r.f, (10 : ℝ) ^ col r)) a b hab (by rw [List.map_map]; exact ha) (by rw [List.map_map]; exact hb)
    unfold imsNoise
    rw [hc]
    dsimp only
    unfold noiseHelper
    simp only [if_pos e1, if_neg e2, if_pos e3, if_neg e4, if_neg e5, if_pos e6, Option.bind_some, hq]
    refine ⟨_, _, _, rfl, rfl, rfl, rfl, fun h => ⟨npSqrt_pos h.le, ?_⟩⟩
    exact hdb _ h
  · intro table v hv ha hb
    have hq := quad_covered num (table.map fun q => (q.1, q.2 ^ 2)) a b hab (by rw [List.map_map]; exact ha) (by rw [List.map_map]; exact hb)
    unfold gemNoise
    dsimp only
    rw [if_pos hv]
    unfold noiseHelper
    simp only [if_neg e4, if_neg e5, if_pos e6, Option.bind_some, hq]
    exact ⟨_, rfl, fun h => hdb _ h⟩

/-- The first and last frequencies of the IMS table, and a band within it. -/
example : (0.1 : ℝ) ≤ 4 ∧ Covered [0, 9.9944444] 0.1 ∧ Covered [0, 9.9944444] 4 := by
  unfold Covered
  simp
  norm_num

end Gemlog
