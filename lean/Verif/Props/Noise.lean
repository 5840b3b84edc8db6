import Verif.Spec.Noise

/-!
# Property C93: noise spectra
-/

namespace Gemlog

theorem covered_iff {table : List (ℝ × ℝ)} {f : ℝ} : Covered (table.map Prod.fst) f ↔ (∃ p ∈ table, p.1 ≤ f) ∧ ∃ p ∈ table, f ≤ p.1 := by
  unfold Covered
  simp

theorem spline_covered {num : Numerics} {table : List (ℝ × ℝ)} {f : ℝ} (h : Covered (table.map Prod.fst) f) :
    splineAt num table f = some (num.curve table f) := by
  unfold splineAt
  exact if_pos (covered_iff.1 h)

theorem spline_outside {num : Numerics} {table : List (ℝ × ℝ)} {f : ℝ} (h : ¬Covered (table.map Prod.fst) f) : splineAt num table f = none := by
  unfold splineAt
  exact if_neg (fun h' => h (covered_iff.2 h'))

theorem spline_knots {num : Numerics} {table : List (ℝ × ℝ)} (h : num.Through table) :
    (table.map Prod.fst).map (splineAt num table) = table.map fun p => some p.2 := by
  rw [List.map_map]
  apply List.map_congr_left
  intro p hp
  simp only [Function.comp_apply]
  rw [spline_covered (covered_iff.2 ⟨⟨p, hp, le_refl _⟩, ⟨p, hp, le_refl _⟩⟩), h p hp]

theorem npSqrt_pos {x : ℝ} (h : 0 ≤ x) : npSqrt x = some (Real.sqrt x) := by
  unfold npSqrt
  exact if_neg (not_lt.2 h)

theorem npDecibel_pos {x : ℝ} (h : 0 < x) : npDecibel x = some (10 * Real.logb 10 x) := by
  unfold npDecibel
  exact if_neg (not_le.2 h)

theorem sameLevel_of {x : Option ℝ} (h : PositiveOrMissing x) : SameLevel x (x.bind npSqrt) (x.bind npDecibel) := by
  cases x with
  | none => exact .inl ⟨rfl, rfl, rfl⟩
  | some v =>
    have hv := h v rfl
    refine .inr ⟨v, Real.sqrt v, 10 * Real.logb 10 v, rfl, npSqrt_pos hv.le, npDecibel_pos hv, Real.sqrt_nonneg _, Real.sq_sqrt hv.le, ?_⟩
    rw [mul_div_cancel_left₀ _ (by norm_num : (10 : ℝ) ≠ 0)]
    exact Real.rpow_logb (by norm_num) (by norm_num) hv

/-! ## Tables -/

/-- **C93, the table of the Gem.** Without frequencies given, the frequencies are those of the file; the amplitude spectrum holds the amplitudes of
the file, the power spectrum their squares and the decibels are twenty times their logarithms; for every version from 0.97 on, every curve
through the points and every band. -/
theorem C93_gem_table (num : Numerics) (table : List (ℝ × ℝ)) (v : ℝ) (hv : 0.97 ≤ v) (fmin fmax : Option ℝ)
    (hpos : ∀ p ∈ table, 0 < p.2) (hthrough : num.Through (table.map fun p => (p.1, p.2 ^ 2))) :
    (∃ r, gemNoise num table none (bytes "power") (some v) fmin fmax = .ok r ∧ r.freqs = table.map (·.1) ∧ r.spectrum = table.map fun p => some (p.2 ^ 2)) ∧
    (∃ r, gemNoise num table none (bytes "amp") (some v) fmin fmax = .ok r ∧ r.freqs = table.map (·.1) ∧ r.spectrum = table.map fun p => some p.2) ∧
    ∃ r, gemNoise num table none (bytes "dB") (some v) fmin fmax = .ok r ∧ r.freqs = table.map (·.1) ∧
      r.spectrum = table.map fun p => some (20 * Real.logb 10 p.2) := by
  have hk := spline_knots hthrough
  have hf : (table.map fun p => (p.1, p.2 ^ 2)).map Prod.fst = table.map (·.1) := by rw [List.map_map]; rfl
  rw [hf] at hk
  have e1 : lower (bytes "power") = bytes "power" := by decide +kernel
  have e2 : lower (bytes "amp") ≠ bytes "power" := by decide +kernel
  have e3 : (lower (bytes "amp")).take 3 = bytes "amp" := by decide +kernel
  have e4 : lower (bytes "dB") ≠ bytes "power" := by decide +kernel
  have e5 : (lower (bytes "dB")).take 3 ≠ bytes "amp" := by decide +kernel
  have e6 : lower (bytes "dB") = bytes "db" := by decide +kernel
  refine ⟨?_, ?_, ?_⟩
  · unfold gemNoise noiseHelper
    simp only [if_pos hv, if_pos e1, Option.getD_none]
    refine ⟨_, rfl, hf, ?_⟩
    simp only [hf]
    rw [hk, List.map_map]
    rfl
  · unfold gemNoise noiseHelper
    simp only [if_pos hv, if_neg e2, if_pos e3, Option.getD_none]
    refine ⟨_, rfl, hf, ?_⟩
    simp only [hf]
    rw [hk, List.map_map, List.map_map]
    apply List.map_congr_left
    intro p hp
    simp only [Function.comp_apply, Option.bind_some]
    rw [npSqrt_pos (sq_nonneg _), Real.sqrt_sq (hpos p hp).le]
  · unfold gemNoise noiseHelper
    simp only [if_pos hv, if_neg e4, if_neg e5, if_pos e6, Option.getD_none]
    refine ⟨_, rfl, hf, ?_⟩
    simp only [hf]
    rw [hk, List.map_map, List.map_map]
    apply List.map_congr_left
    intro p hp
    simp only [Function.comp_apply, Option.bind_some]
    rw [npDecibel_pos (pow_pos (hpos p hp) 2), Real.logb_pow]
    congr 1
    push_cast
    ring

/-- A curve that goes through two given points, and the points of a table with two lines. -/
noncomputable def demoNumerics : Numerics where
  curve table f := match table with
    | [p, q] => p.2 + (f - p.1) / (q.1 - p.1) * (q.2 - p.2)
    | _ => 0
  integral g a b := (b - a) * g ((a + b) / 2)

example : (∀ p ∈ [((1 : ℝ), (2 : ℝ)), (3, 4)], 0 < p.2) ∧ demoNumerics.Through ([((1 : ℝ), (2 : ℝ)), (3, 4)].map fun p => (p.1, p.2 ^ 2)) := by
  refine ⟨by intro p hp; simp at hp; rcases hp with rfl | rfl <;> norm_num, ?_⟩
  intro p hp
  simp at hp
  rcases hp with rfl | rfl <;> · unfold demoNumerics; norm_num

/-- **C93, the IMS models.** `low` and `min` give ten to the power of the second column, `med` of the third, `high`, `hi` and `max` of the fourth, in any
capitalisation; at the file's frequencies, a file with its columns in order gives models in order. -/
theorem C93_ims_models (num : Numerics) (rows : List ImsRow) (model : List Nat) (fmin fmax : Option ℝ) (col : ImsRow → ℝ)
    (hcol : (lower model ∈ [bytes "low", bytes "min"] ∧ col = ImsRow.min) ∨ (lower model = bytes "med" ∧ col = ImsRow.med) ∨
      (lower model ∈ [bytes "high", bytes "hi", bytes "max"] ∧ col = ImsRow.max))
    (hthrough : num.Through (rows.map fun r => (r.f, (10 : ℝ) ^ col r))) :
    ∃ r, imsNoise num rows model none (bytes "power") fmin fmax = .ok r ∧ r.freqs = rows.map ImsRow.f ∧
      r.spectrum = rows.map fun r => some ((10 : ℝ) ^ col r) := by
  have e1 : lower (bytes "power") = bytes "power" := by decide +kernel
  have hc : imsColumn model = some col := by
    unfold imsColumn
    rcases hcol with ⟨h, rfl⟩ | ⟨h, rfl⟩ | ⟨h, rfl⟩
    · rw [if_pos (by simpa using h)]
    · rw [h]
      rw [if_neg (by decide +kernel), if_pos rfl]
    · have h' : lower model = bytes "high" ∨ lower model = bytes "hi" ∨ lower model = bytes "max" := by simpa using h
      have n1 : ¬(lower model = bytes "low" ∨ lower model = bytes "min") := by rcases h' with h' | h' | h' <;> rw [h'] <;> decide +kernel
      have n2 : ¬(lower model = bytes "med") := by rcases h' with h' | h' | h' <;> rw [h'] <;> decide +kernel
      rw [if_neg n1, if_neg n2, if_pos h']
  have hk := spline_knots hthrough
  have hf : (rows.map fun r => (r.f, (10 : ℝ) ^ col r)).map Prod.fst = rows.map ImsRow.f := by rw [List.map_map]; rfl
  rw [hf] at hk
  unfold imsNoise noiseHelper
  rw [hc]
  simp only [if_pos e1, Option.getD_none]
  refine ⟨_, rfl, hf, ?_⟩
  simp only [hf]
  rw [hk, List.map_map]
  rfl

example : lower (bytes "Med") = bytes "med" ∧ lower (bytes "MAX") ∈ [bytes "high", bytes "hi", bytes "max"] := by decide +kernel

/-- **C93, the order of the models.** -/
theorem C93_ims_order (num : Numerics) (rows : List ImsRow) (fmin fmax : Option ℝ) (horder : ∀ r ∈ rows, r.min ≤ r.med ∧ r.med ≤ r.max)
    (hthrough : ∀ col : ImsRow → ℝ, num.Through (rows.map fun r => (r.f, (10 : ℝ) ^ col r))) :
    ∃ lo me hi, imsNoise num rows (bytes "low") none (bytes "power") fmin fmax = .ok lo ∧ imsNoise num rows (bytes "med") none (bytes "power") fmin fmax = .ok me ∧
      imsNoise num rows (bytes "high") none (bytes "power") fmin fmax = .ok hi ∧
      lo.spectrum.length = rows.length ∧ me.spectrum.length = rows.length ∧ hi.spectrum.length = rows.length ∧
      ∀ (i : Nat) a b c, lo.spectrum[i]? = some (some a) → me.spectrum[i]? = some (some b) → hi.spectrum[i]? = some (some c) → 0 < a ∧ a ≤ b ∧ b ≤ c := by
  obtain ⟨lo, h1, _, s1⟩ := C93_ims_models num rows (bytes "low") fmin fmax ImsRow.min (.inl ⟨by decide +kernel, rfl⟩) (hthrough _)
  obtain ⟨me, h2, _, s2⟩ := C93_ims_models num rows (bytes "med") fmin fmax ImsRow.med (.inr (.inl ⟨by decide +kernel, rfl⟩)) (hthrough _)
  obtain ⟨hi, h3, _, s3⟩ := C93_ims_models num rows (bytes "high") fmin fmax ImsRow.max (.inr (.inr ⟨by decide +kernel, rfl⟩)) (hthrough _)
  refine ⟨lo, me, hi, h1, h2, h3, by rw [s1, List.length_map], by rw [s2, List.length_map], by rw [s3, List.length_map], ?_⟩
  intro i a b c ha hb hc
  rw [s1, List.getElem?_map] at ha
  rw [s2, List.getElem?_map] at hb
  rw [s3, List.getElem?_map] at hc
  cases hr : rows[i]? with
  | none => rw [hr] at ha; simp at ha
  | some r =>
    rw [hr] at ha hb hc
    simp only [Option.map_some, Option.some.injEq] at ha hb hc
    obtain ⟨o1, o2⟩ := horder r (List.mem_of_getElem? hr)
    subst ha hb hc
    exact ⟨Real.rpow_pos_of_pos (by norm_num) _, Real.rpow_le_rpow_of_exponent_le (by norm_num) o1, Real.rpow_le_rpow_of_exponent_le (by norm_num) o2⟩

/-- Two lines with their columns in order, and a curve through any two points. -/
example : (∀ r ∈ [ImsRow.mk 0 (-1) 0 2, ImsRow.mk 1 (-2) (-1) 1], r.min ≤ r.med ∧ r.med ≤ r.max) ∧
    ∀ col : ImsRow → ℝ, demoNumerics.Through ([ImsRow.mk 0 (-1) 0 2, ImsRow.mk 1 (-2) (-1) 1].map fun r => (r.f, (10 : ℝ) ^ col r)) := by
  refine ⟨by intro r hr; simp at hr; rcases hr with rfl | rfl <;> norm_num, ?_⟩
  intro col p hp
  simp at hp
  rcases hp with rfl | rfl <;> · unfold demoNumerics; norm_num

/-! ## Kinds of spectra -/

theorem noise_kinds (num : Numerics) (table : List (ℝ × ℝ)) (freqs : List ℝ) (fmin fmax : Option ℝ) :
    KindsAgree (fun t => noiseHelper num table (some freqs) t fmin fmax) (table.map Prod.fst) freqs := by
  intro power amp db hp ha hd
  have n1 : lower amp ≠ bytes "power" := by
    intro h
    rw [h] at ha
    exact absurd ha (by decide +kernel)
  have n2 : lower db ≠ bytes "power" := by rw [hd]; decide +kernel
  have n3 : (lower db).take 3 ≠ bytes "amp" := by rw [hd]; decide +kernel
  unfold noiseHelper
  simp only [if_pos hp, if_neg n1, if_pos ha, if_neg n2, if_neg n3, if_pos hd, Option.getD_some]
  refine ⟨_, _, _, rfl, rfl, rfl, rfl, rfl, rfl, by simp, by simp, by simp, ?_, fun h => sameLevel_of h⟩
  intro i f x y z hf hx hy hz
  rw [List.getElem?_map, hf] at hx
  rw [List.getElem?_map, List.getElem?_map, hf] at hy hz
  simp only [Option.map_some, Option.some.injEq] at hx hy hz
  subst hx hy hz
  refine ⟨?_, fun h => sameLevel_of h⟩
  by_cases h : Covered (table.map Prod.fst) f
  · rw [spline_covered h]
    simp [h]
  · rw [spline_outside h]
    simp [h]

/-- **C93, kinds.** For the same frequencies and band, the three kinds of spectrum agree, for every table, curve and integral; for the Gem and for each IMS
model. -/
theorem C93_kinds (num : Numerics) (freqs : List ℝ) (fmin fmax : Option ℝ) :
    (∀ (table : List (ℝ × ℝ)) (v : ℝ), 0.97 ≤ v →
      KindsAgree (fun t => gemNoise num table (some freqs) t (some v) fmin fmax) (table.map Prod.fst) freqs) ∧
    ∀ (rows : List ImsRow) (model : List Nat), lower model ∈ ["low", "min", "med", "high", "hi", "max"].map bytes →
      KindsAgree (fun t => imsNoise num rows model (some freqs) t fmin fmax) (rows.map ImsRow.f) freqs := by
  refine ⟨?_, ?_⟩
  · intro table v hv
    have h := noise_kinds num (table.map fun p => (p.1, p.2 ^ 2)) freqs fmin fmax
    rw [List.map_map] at h
    unfold gemNoise
    simp only [if_pos hv]
    exact h
  · intro rows model hm
    have hc : ∃ col, imsColumn model = some col := by
      unfold imsColumn
      by_cases h1 : lower model = bytes "low" ∨ lower model = bytes "min"
      · exact ⟨_, if_pos h1⟩
      · rw [if_neg h1]
        by_cases h2 : lower model = bytes "med"
        · exact ⟨_, if_pos h2⟩
        · rw [if_neg h2]
          simp only [List.map_cons, List.map_nil, List.mem_cons, List.not_mem_nil, or_false] at hm
          exact ⟨_, if_pos (by tauto)⟩
    obtain ⟨col, hc⟩ := hc
    have h := noise_kinds num (rows.map fun r => (r.f, (10 : ℝ) ^ col r)) freqs fmin fmax
    rw [List.map_map] at h
    unfold imsNoise
    simp only [hc]
    exact h

example : lower (bytes "Power") = bytes "power" ∧ (lower (bytes "Amplitude")).take 3 = bytes "amp" ∧ lower (bytes "dB") = bytes "db" := by decide +kernel

/-- **C93, the noise level.** For a band within the table, the noise is the integral of the power spectrum over the band: as it is for power, its square root for
amplitudes. -/
theorem C93_noise (num : Numerics) (table : List (ℝ × ℝ)) (freq : Option (List ℝ)) (v a b : ℝ) (hv : 0.97 ≤ v) (hab : a ≤ b)
    (ha : Covered (table.map Prod.fst) a) (hb : Covered (table.map Prod.fst) b) :
    ∃ p m, gemNoise num table freq (bytes "power") (some v) (some a) (some b) = .ok p ∧ gemNoise num table freq (bytes "amp") (some v) (some a) (some b) = .ok m ∧
      p.noise = some (num.integral (num.curve (table.map fun q => (q.1, q.2 ^ 2))) a b) ∧ p.noiseUnits = bytes "Pa^2" ∧
      (0 ≤ num.integral (num.curve (table.map fun q => (q.1, q.2 ^ 2))) a b →
        m.noise = some (Real.sqrt (num.integral (num.curve (table.map fun q => (q.1, q.2 ^ 2))) a b))) ∧ m.noiseUnits = bytes "Pa" := by
  have hcov : ∀ x, a ≤ x → x ≤ b → (splineAt num (table.map fun q => (q.1, q.2 ^ 2)) x).isSome := by
    intro x h1 h2
    obtain ⟨⟨y, hy, hy'⟩, _⟩ := ha
    obtain ⟨_, ⟨z, hz, hz'⟩⟩ := hb
    have hc : Covered ((table.map fun q => (q.1, q.2 ^ 2)).map Prod.fst) x := by
      rw [List.map_map]
      exact ⟨⟨y, hy, hy'.trans h1⟩, ⟨z, hz, h2.trans hz'⟩⟩
    rw [spline_covered hc]
    rfl
  have hq : quadSpline num (table.map fun q => (q.1, q.2 ^ 2)) a b = some (num.integral (num.curve (table.map fun q => (q.1, q.2 ^ 2))) a b) := by
    unfold quadSpline
    apply if_pos
    constructor
    · apply hcov <;> · unfold outerNode; linarith
    · apply hcov <;> · unfold outerNode; linarith
  have e1 : lower (bytes "power") = bytes "power" := by decide +kernel
  have e2 : lower (bytes "amp") ≠ bytes "power" := by decide +kernel
  have e3 : (lower (bytes "amp")).take 3 = bytes "amp" := by decide +kernel
  unfold gemNoise noiseHelper
  simp only [if_pos hv, if_pos e1, if_neg e2, if_pos e3, Option.bind_some, hq]
  refine ⟨_, _, rfl, rfl, rfl, rfl, ?_, rfl⟩
  intro h
  exact npSqrt_pos h

/-- The band of the example in the documentation, and the first and the last frequency in the file. -/
example : Covered [0.005, 50] 0.1 ∧ Covered [0.005, 50] 20 := by
  unfold Covered
  simp
  norm_num

/-- **C93, refusals.** Another kind of spectrum, another model and a version that is older than 0.97 or not a number are refused. -/
theorem C93_refused (num : Numerics) (table : List (ℝ × ℝ)) (rows : List ImsRow) (freq : Option (List ℝ)) (fmin fmax : Option ℝ) :
    (∀ spectype, lower spectype ≠ bytes "power" → (lower spectype).take 3 ≠ bytes "amp" → lower spectype ≠ bytes "db" →
      (∀ v, gemNoise num table freq spectype v fmin fmax = .error .other) ∧ ∀ m, imsNoise num rows m freq spectype fmin fmax = .error .other) ∧
    (∀ spectype m, lower m ∉ ["low", "min", "med", "high", "hi", "max"].map bytes → imsNoise num rows m freq spectype fmin fmax = .error .other) ∧
    (∀ spectype v, (∀ x, v = some x → x < 0.97) → gemNoise num table freq spectype v fmin fmax = .error .other) := by
  refine ⟨?_, ?_, ?_⟩
  · intro t h1 h2 h3
    have hh : ∀ tb, noiseHelper num tb freq t fmin fmax = .error .other := by
      intro tb
      unfold noiseHelper
      simp only [if_neg h1, if_neg h2, if_neg h3]
    refine ⟨?_, ?_⟩
    · intro v
      unfold gemNoise
      cases v with
      | none => rfl
      | some x =>
        simp only [hh]
        by_cases hx : 0.97 ≤ x
        · rw [if_pos hx]
        · rw [if_neg hx]
    · intro m
      unfold imsNoise
      cases imsColumn m with
      | none => rfl
      | some c => simp only [hh]
  · intro t m hm
    have hc : imsColumn m = none := by
      simp only [List.map_cons, List.map_nil, List.mem_cons, List.not_mem_nil, or_false, not_or] at hm
      unfold imsColumn
      rw [if_neg (by tauto), if_neg (by tauto), if_neg (by tauto)]
    unfold imsNoise
    rw [hc]
  · intro t v hv
    unfold gemNoise
    cases v with
    | none => rfl
    | some x => exact if_neg (not_le.2 (hv x rfl))

/-! ## Differences from what is documented -/

/-- **C93, violated: the model `medium`.** The name that the documentation gives for the middle model is refused. -/
theorem C93_violated_medium (num : Numerics) (rows : List ImsRow) (freq : Option (List ℝ)) (spectype : List Nat) (fmin fmax : Option ℝ) :
    imsNoise num rows (bytes "medium") freq spectype fmin fmax = .error .other :=
  (C93_refused num [] rows freq fmin fmax).2.1 spectype _ (by decide +kernel)

theorem noise_no_band {num : Numerics} {table : List (ℝ × ℝ)} {freq : Option (List ℝ)} {spectype : List Nat} {fmax : Option ℝ} {r : NoiseInfo}
    (h : noiseHelper num table freq spectype none fmax = .ok r) : r.noise = none := by
  unfold noiseHelper at h
  simp only [Option.bind_none] at h
  by_cases h1 : lower spectype = bytes "power"
  · rw [if_pos h1, Except.ok.injEq] at h
    rw [← h]
  · rw [if_neg h1] at h
    by_cases h2 : (lower spectype).take 3 = bytes "amp"
    · rw [if_pos h2, Except.ok.injEq] at h
      rw [← h]
    · rw [if_neg h2] at h
      by_cases h3 : lower spectype = bytes "db"
      · rw [if_pos h3, Except.ok.injEq] at h
        rw [← h]
      · rw [if_neg h3] at h
        exact absurd h (by simp)

/-- **C93, violated: no band.** Unless the lower bound is given, no noise level is computed; by default only the upper bound is. -/
theorem C93_violated_no_band (num : Numerics) (freq : Option (List ℝ)) (spectype : List Nat) (fmax : Option ℝ) (r : NoiseInfo) :
    (∀ table v, gemNoise num table freq spectype v none fmax = .ok r → r.noise = none) ∧
    ∀ rows model, imsNoise num rows model freq spectype none fmax = .ok r → r.noise = none := by
  refine ⟨?_, ?_⟩
  · intro table v h
    unfold gemNoise at h
    cases v with
    | none => simp at h
    | some x =>
      simp only at h
      by_cases hx : 0.97 ≤ x
      · rw [if_pos hx] at h
        exact noise_no_band h
      · rw [if_neg hx] at h
        exact absurd h (by simp)
  · intro rows model h
    unfold imsNoise at h
    cases hc : imsColumn model with
    | none => rw [hc] at h; simp at h
    | some c => rw [hc] at h; exact noise_no_band h

theorem noise_of_quad {num : Numerics} {table : List (ℝ × ℝ)} {a b : ℝ} (hq : quadSpline num table a b = none) {freq : Option (List ℝ)} {spectype : List Nat}
    {r : NoiseInfo} (h : noiseHelper num table freq spectype (some a) (some b) = .ok r) : r.noise = none := by
  unfold noiseHelper at h
  simp only [Option.bind_some, hq] at h
  by_cases h1 : lower spectype = bytes "power"
  · rw [if_pos h1, Except.ok.injEq] at h
    rw [← h]
  · rw [if_neg h1] at h
    by_cases h2 : (lower spectype).take 3 = bytes "amp"
    · rw [if_pos h2, Except.ok.injEq] at h
      rw [← h]
      rfl
    · rw [if_neg h2] at h
      by_cases h3 : lower spectype = bytes "db"
      · rw [if_pos h3, Except.ok.injEq] at h
        rw [← h]
        rfl
      · rw [if_neg h3] at h
        exact absurd h (by simp)

/-- **C93, violated: the band of the IMS models.** The table of the IMS models ends below 10 Hz. For every band that starts at or above zero and ends at 11 Hz or more (the default is 50,
the example in the documentation 0.1 to 20), and every model and kind of spectrum, there is no noise level. -/
theorem C93_violated_band (num : Numerics) (rows : List ImsRow) (hend : ∀ r ∈ rows, r.f ≤ 9.9944444) (model spectype : List Nat) (freq : Option (List ℝ))
    (a b : ℝ) (ha : 0 ≤ a) (hab : a ≤ b) (hb : 11 ≤ b) (r : NoiseInfo) (h : imsNoise num rows model freq spectype (some a) (some b) = .ok r) :
    r.noise = none := by
  unfold imsNoise at h
  cases hc : imsColumn model with
  | none => rw [hc] at h; simp at h
  | some col =>
    rw [hc] at h
    simp only at h
    refine noise_of_quad ?_ h
    unfold quadSpline
    apply if_neg
    rintro ⟨_, h2⟩
    have hout : ¬Covered ((rows.map fun r => (r.f, (10 : ℝ) ^ col r)).map Prod.fst) ((a + b) / 2 + (b - a) / 2 * outerNode) := by
      intro hcov
      obtain ⟨_, p, hp, hle⟩ := covered_iff.1 hcov
      rw [List.mem_map] at hp
      obtain ⟨q, hq, rfl⟩ := hp
      have := hend q hq
      unfold outerNode at hle
      simp only at hle
      nlinarith
    rw [spline_outside hout] at h2
    simp at h2

/-- The band of the example in the documentation; the file's last line. -/
example : (0 : ℝ) ≤ 0.1 ∧ (0.1 : ℝ) ≤ 20 ∧ (11 : ℝ) ≤ 20 ∧ ∀ r ∈ [ImsRow.mk 9.9944444 (-11.8241) (-10.113628) (-6.0202106)], r.f ≤ 9.9944444 := by
  refine ⟨by norm_num, by norm_num, by norm_num, ?_⟩
  intro r hr
  simp at hr
  subst hr
  norm_num

/-- **C93, violated: bands that begin below the table.** Likewise for a band that begins below the first frequency `f0` of the table, by more than about a fifth of a percent of its
width: there is no noise level, for any model and kind of spectrum. -/
theorem C93_violated_low_band (num : Numerics) (rows : List ImsRow) (f0 : ℝ) (hstart : ∀ r ∈ rows, f0 ≤ r.f) (model spectype : List Nat) (freq : Option (List ℝ))
    (a b : ℝ) (hab : a ≤ b) (ha : a + (b - a) * 0.00218 < f0) (r : NoiseInfo) (h : imsNoise num rows model freq spectype (some a) (some b) = .ok r) :
    r.noise = none := by
  unfold imsNoise at h
  cases hc : imsColumn model with
  | none => rw [hc] at h; simp at h
  | some col =>
    rw [hc] at h
    simp only at h
    refine noise_of_quad ?_ h
    unfold quadSpline
    apply if_neg
    rintro ⟨h2, _⟩
    have hout : ¬Covered ((rows.map fun r => (r.f, (10 : ℝ) ^ col r)).map Prod.fst) ((a + b) / 2 - (b - a) / 2 * outerNode) := by
      intro hcov
      obtain ⟨⟨p, hp, hle⟩, _⟩ := covered_iff.1 hcov
      rw [List.mem_map] at hp
      obtain ⟨q, hq, rfl⟩ := hp
      have := hstart q hq
      unfold outerNode at hle
      simp only at hle
      nlinarith
    rw [spline_outside hout] at h2
    simp at h2

/-- A band from 0.01 to 5 Hz and a table that begins at 0.03 Hz. -/
example : (0.01 : ℝ) ≤ 5 ∧ (0.01 : ℝ) + (5 - 0.01) * 0.00218 < 0.03 := by norm_num

end Gemlog
