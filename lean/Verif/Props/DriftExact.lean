import Verif.Props.Drift

/-!
# Properties C21 and C19, exactly

The trimming rule of the specification and the regression of the code give the same result, and a file is accepted with
required GPS exactly when its fixes pass the four tests.
-/

namespace Gemlog

/-! ## Specification -/

/-- Repeated trimming of `pts` comes to rest at the non-empty list `kept` with the fit `c`: nothing more is dropped. -/
structure RestsAt (fit : Fitter) (degree : Nat) (limit : Option Rat) (pts kept : List (Rat × Rat)) (c : List Rat) : Prop where
  trims : Trims fit degree limit pts kept
  fitted : fit degree kept = some c
  nonempty : kept ≠ []
  fourSigma : ∀ p ∈ kept, ¬ BeyondFourSigma (kept.map (misfit c)) (misfit c p)
  within : ∀ p ∈ kept, ¬ BeyondLimit limit (misfit c p)

/-- The first test of the spans, for fixes in any order: the nominal duration of the data is less than twice that of the
fixes (plus a nanosecond), as a ratio of floats. For fixes that do not go back this is `CoversHalf`. -/
def CoversHalfAnyOrder (L : FileData) : Prop :=
  if fixSpan L + 1 / 1000000000 = 0 then dataSpan L < 0
  else 1024 / 1000000 * dataSpan L / (fixSpan L + 1 / 1000000000) < 2

/-! ## Lemmas -/

theorem maxAbs_some {l : List Rat} (h : l ≠ []) : ∃ m, maxAbs l = some m := by
  cases l with
  | nil => exact absurd rfl h
  | cons a l => exact ⟨_, rfl⟩

theorem maxAbs_of_spec {l : List Rat} {m : Rat} (h1 : ∀ e ∈ l, |e| ≤ m) (h2 : ∃ e ∈ l, |e| = m) : maxAbs l = some m := by
  obtain ⟨e, he, rfl⟩ := h2
  obtain ⟨m', hm'⟩ := maxAbs_some (List.ne_nil_of_mem he)
  obtain ⟨g1, e', he', g2⟩ := maxAbs_spec hm'
  rw [hm', Option.some.injEq]
  apply le_antisymm
  · rw [← g2]; exact h1 e' he'
  · exact g1 e he

open Classical in
theorem robustGo_of_trims (fit : Fitter) (degree : Nat) (limit : Option Rat) {pts kept : List (Rat × Rat)}
    (ht : Trims fit degree limit pts kept) {c : List Rat} (hf : fit degree kept = some c)
    (h4 : ∀ p ∈ kept, ¬ BeyondFourSigma (kept.map (misfit c)) (misfit c p))
    (hl : ∀ p ∈ kept, ¬ BeyondLimit limit (misfit c p)) {m : Rat} (hm : maxAbs (kept.map (misfit c)) = some m) :
    ∀ fuel, pts.length < fuel →
      robustGo fit degree limit 4 fuel pts = .ok ⟨c, kept.length, m, kept.map (misfit c), kept⟩ := by
  induction ht with
  | done pts =>
    intro fuel hfuel
    obtain ⟨fuel, rfl⟩ : ∃ k, fuel = k + 1 := ⟨fuel - 1, by omega⟩
    unfold robustGo
    rw [hf]
    have hres : (pts.map fun p => p.2 - polyEval c p.1) = pts.map (misfit c) := rfl
    simp only [hres]
    rw [if_neg, hm]
    rcases mask_cases limit (pts.map (misfit c)) with ⟨⟨e, he, hb⟩, _⟩ | ⟨_, hmask⟩
    · obtain ⟨p, hp, rfl⟩ := List.mem_map.mp he
      exact absurd hb (h4 p hp)
    · rw [hmask, List.any_map, List.any_eq_true]
      rintro ⟨e, he, hb⟩
      obtain ⟨p, hp, rfl⟩ := List.mem_map.mp he
      exact hl p hp ((isMad_iff _ _).mp (by simpa using hb))
  | sigma pts out c' hf' hex hr ih =>
    intro fuel hfuel
    obtain ⟨fuel, rfl⟩ : ∃ k, fuel = k + 1 := ⟨fuel - 1, by omega⟩
    unfold robustGo
    rw [hf']
    have hres : (pts.map fun p => p.2 - polyEval c' p.1) = pts.map (misfit c') := rfl
    simp only [hres]
    obtain ⟨p, hp, hb⟩ := hex
    rcases mask_cases limit (pts.map (misfit c')) with ⟨_, hmask⟩ | ⟨hno, _⟩
    · have hany : (outlierMask 4 limit (pts.map (misfit c'))).any id = true := by
        rw [hmask, List.any_map, List.any_eq_true]
        exact ⟨_, List.mem_map.mpr ⟨p, hp, rfl⟩, by simpa using (isStd_iff _ _).mpr hb⟩
      rw [if_pos hany]
      rw [hmask, List.map_map] at hany ⊢
      have hlt := keep_shorter pts _ hany
      rw [keepInliers_map] at hlt ⊢
      have heq : (pts.filter fun p => !((isStdOutlier 4 (varRat (pts.map (misfit c')))) ∘ misfit c') p)
          = pts.filter fun p => ¬ BeyondFourSigma (pts.map (misfit c')) (misfit c' p) := by
        apply List.filter_congr
        intro q _
        have := isStd_iff (pts.map (misfit c')) (misfit c' q)
        by_cases hb : BeyondFourSigma (pts.map (misfit c')) (misfit c' q)
        · simp [hb, this.mpr hb]
        · have : isStdOutlier 4 (varRat (pts.map (misfit c'))) (misfit c' q) = false := by
            simpa using fun h => hb (this.mp h)
          simp [hb, this]
      rw [heq] at hlt ⊢
      exact ih hf h4 hl hm fuel (by omega)
    · exact absurd hb (hno _ (List.mem_map.mpr ⟨p, hp, rfl⟩))
  | limit pts out c' hf' hs hex hr ih =>
    intro fuel hfuel
    obtain ⟨fuel, rfl⟩ : ∃ k, fuel = k + 1 := ⟨fuel - 1, by omega⟩
    unfold robustGo
    rw [hf']
    have hres : (pts.map fun p => p.2 - polyEval c' p.1) = pts.map (misfit c') := rfl
    simp only [hres]
    obtain ⟨p, hp, hb⟩ := hex
    rcases mask_cases limit (pts.map (misfit c')) with ⟨⟨e, he, hb⟩, _⟩ | ⟨_, hmask⟩
    · obtain ⟨q, hq, rfl⟩ := List.mem_map.mp he
      exact absurd hb (hs q hq)
    · have hany : (outlierMask 4 limit (pts.map (misfit c'))).any id = true := by
        rw [hmask, List.any_map, List.any_eq_true]
        exact ⟨_, List.mem_map.mpr ⟨p, hp, rfl⟩, by simpa using (isMad_iff _ _).mpr hb⟩
      rw [if_pos hany]
      rw [hmask, List.map_map] at hany ⊢
      have hlt := keep_shorter pts _ hany
      rw [keepInliers_map] at hlt ⊢
      have heq : (pts.filter fun p => !((isMadOutlier limit) ∘ misfit c') p)
          = pts.filter fun p => ¬ BeyondLimit limit (misfit c' p) := by
        apply List.filter_congr
        intro q _
        have := isMad_iff limit (misfit c' q)
        by_cases hb : BeyondLimit limit (misfit c' q)
        · simp [hb, this.mpr hb]
        · have : isMadOutlier limit (misfit c' q) = false := by
            simpa using fun h => hb (this.mp h)
          simp [hb, this]
      rw [heq] at hlt ⊢
      exact ih hf h4 hl hm fuel (by omega)

/-! ## C21 -/

/-- **C21**, exactly. The regression succeeds with the points, coefficients, residuals, count and maximum of `r` exactly
when trimming comes to rest at those points and coefficients and the other three are those of the remaining points. -/
theorem C21_exact (fit : Fitter) (degree : Nat) (limit : Option Rat) (pts : List (Rat × Rat)) (r : Regression) :
    robustRegress fit degree limit pts = .ok r ↔
      (RestsAt fit degree limit pts r.pts r.coefs ∧ r.resid = r.pts.map (misfit r.coefs) ∧ r.num = r.pts.length ∧
        (∀ p ∈ r.pts, |misfit r.coefs p| ≤ r.maxResid) ∧ ∃ p ∈ r.pts, |misfit r.coefs p| = r.maxResid) := by
  constructor
  · intro h
    obtain ⟨h1, h2, h3, h4, h5, h6, h7, e, he, h8⟩ := (robustGo_spec fit degree limit _ pts (by omega)).2 r h
    rw [h3] at h4 h5 h7 he
    obtain ⟨p, hp, rfl⟩ := List.mem_map.mp he
    exact ⟨⟨h1, h2, List.ne_nil_of_mem hp, fun q hq => h4 _ (List.mem_map.mpr ⟨q, hq, rfl⟩),
      fun q hq => h5 _ (List.mem_map.mpr ⟨q, hq, rfl⟩)⟩, h3, h6,
      fun q hq => h7 _ (List.mem_map.mpr ⟨q, hq, rfl⟩), p, hp, h8⟩
  · rintro ⟨hs, hr, hn, hm1, p, hp, hm2⟩
    have hm : maxAbs (r.pts.map (misfit r.coefs)) = some r.maxResid := by
      apply maxAbs_of_spec
      · intro e he
        obtain ⟨q, hq, rfl⟩ := List.mem_map.mp he
        exact hm1 q hq
      · exact ⟨_, List.mem_map.mpr ⟨p, hp, rfl⟩, hm2⟩
    unfold robustRegress
    rw [robustGo_of_trims fit degree limit hs.trims hs.fitted hs.fourSigma hs.within hm _ (by omega), ← hr, ← hn]

theorem robustRegress_of_rests {fit : Fitter} {degree : Nat} {limit : Option Rat} {pts kept : List (Rat × Rat)}
    {c : List Rat} (hs : RestsAt fit degree limit pts kept c) :
    ∃ m, robustRegress fit degree limit pts = .ok ⟨c, kept.length, m, kept.map (misfit c), kept⟩ := by
  obtain ⟨m, hm⟩ := maxAbs_some (l := kept.map (misfit c)) (by simpa using hs.nonempty)
  exact ⟨m, robustGo_of_trims fit degree limit hs.trims hs.fitted hs.fourSigma hs.within hm _ (by omega)⟩

/-- Trimming comes to rest at one place only. -/
theorem C21_unique (fit : Fitter) (degree : Nat) (limit : Option Rat) (pts kept kept' : List (Rat × Rat)) (c c' : List Rat)
    (h : RestsAt fit degree limit pts kept c) (h' : RestsAt fit degree limit pts kept' c') : kept = kept' ∧ c = c' := by
  obtain ⟨m, hm⟩ := robustRegress_of_rests h
  obtain ⟨m', hm'⟩ := robustRegress_of_rests h'
  rw [hm] at hm'
  simp only [Except.ok.injEq, Regression.mk.injEq] at hm'
  exact ⟨hm'.2.2.2.2, hm'.1⟩

/-! ## C19 -/

theorem sufficientB_any {L : FileData} : sufficientB L = true ↔ (L.gps ≠ [] ∧ CoversHalfAnyOrder L) := by
  unfold sufficientB ratioLt CoversHalfAnyOrder
  simp only [Bool.and_eq_true, decide_eq_true_eq]
  refine and_congr_right fun _ => ?_
  split_ifs with h
  · rw [decide_eq_true_eq]
    constructor <;> intro h <;> linarith
  · rw [decide_eq_true_eq]

/-- **C19**, exactly. With required GPS a file is accepted exactly when it has fixes, they pass the first test of the
spans, the straight-line regression comes to rest without a step above a quarter of a second, and the third-degree
regression comes to rest at ten fixes or more that pass the second test of the spans.
The first test is the one of C19 when the fixes do not go back overall (`C19_covers_half`); the missing part is
`C19_violated`. -/
theorem C19_exact_partial (fit : Fitter) (L : FileData) :
    (∃ info, calculateDrift fit L true = .ok info) ↔
      (L.gps ≠ [] ∧ CoversHalfAnyOrder L ∧
        (∃ kept c, RestsAt fit 1 none (fixPoints L) kept c ∧ NoStep (kept.map (misfit c))) ∧
        ∃ kept c, RestsAt fit 3 (some (1 / 100)) (fixPoints L) kept c ∧ 10 ≤ kept.length ∧ SpanTest L kept) := by
  rw [calculateDrift_eq]
  by_cases h1 : L.gps = []
  · simp [h1]
  rw [if_neg (by simp [h1])]
  by_cases h2 : sufficientB L = false
  · rw [if_pos ⟨rfl, h2⟩]
    simp only [reduceCtorEq, exists_false, false_iff]
    rintro ⟨_, hc, _⟩
    rw [sufficientB_any.mpr ⟨h1, hc⟩] at h2
    simp at h2
  rw [if_neg (by simp [h2])]
  simp only [Bool.not_eq_false] at h2
  have hc := (sufficientB_any.mp h2).2
  by_cases h3 : ∃ x, detectStep fit (fixPoints L) = .error x
  · rw [if_pos ⟨rfl, h3⟩]
    simp only [reduceCtorEq, exists_false, false_iff]
    rintro ⟨_, _, ⟨kept, c, hs, _⟩, _⟩
    obtain ⟨x, hx⟩ := h3
    obtain ⟨m, hm⟩ := robustRegress_of_rests hs
    unfold detectStep at hx
    rw [hm] at hx
    simp at hx
  rw [if_neg (by simp [h3])]
  by_cases h4 : detectStep fit (fixPoints L) = .ok true
  · rw [if_pos ⟨rfl, h4⟩]
    simp only [reduceCtorEq, exists_false, false_iff]
    rintro ⟨_, _, ⟨kept, c, hs, hn⟩, _⟩
    obtain ⟨m, hm⟩ := robustRegress_of_rests hs
    unfold detectStep at h4
    rw [hm] at h4
    simp only [(anyJump_iff _).mpr hn] at h4
    simp at h4
  rw [if_neg (by simp [h4]), if_pos h2]
  have hstep : ∃ kept c, RestsAt fit 1 none (fixPoints L) kept c ∧ NoStep (kept.map (misfit c)) := by
    push Not at h3
    unfold detectStep at h3 h4
    cases hr : robustRegress fit 1 none (fixPoints L) with
    | error x => rw [hr] at h3; simp at h3
    | ok r =>
      rw [hr] at h4
      simp only [Except.ok.injEq, Bool.not_eq_true] at h4
      obtain ⟨hs, hres, _⟩ := (C21_exact fit 1 none _ r).mp hr
      refine ⟨r.pts, r.coefs, hs, ?_⟩
      rw [← hres]
      exact (anyJump_iff _).mp h4
  cases hr : tryRegression fit (dataSpan L) (fixPoints L) with
  | none =>
    simp only [if_true, reduceCtorEq, exists_false, false_iff]
    rintro ⟨_, _, _, kept, c, hs, hn, hst⟩
    obtain ⟨m, hm⟩ := robustRegress_of_rests hs
    rw [tryRegression_some.mpr ⟨hm, hst, hn⟩] at hr
    simp at hr
  | some r =>
    obtain ⟨hrr, hst, hn⟩ := tryRegression_some.mp hr
    obtain ⟨hs, _, hnum, _⟩ := (C21_exact fit 3 _ _ r).mp hrr
    simp only [Except.ok.injEq, exists_eq', true_iff]
    exact ⟨h1, hc, hstep, r.pts, r.coefs, hs, by omega, hst⟩

/-- For fixes that do not go back overall, the first test is that of the property. -/
theorem C19_covers_half (L : FileData) (hf : 0 ≤ fixSpan L) : CoversHalfAnyOrder L ↔ CoversHalf L := by
  unfold CoversHalfAnyOrder CoversHalf
  have hpos : 0 < fixSpan L + 1 / 1000000000 := by linarith
  rw [if_neg (ne_of_gt hpos), div_lt_iff₀ hpos]

/-- The perfect file passes all four tests. -/
example : ∃ info, calculateDrift nominalFit perfectFile true = .ok info :=
  ⟨⟨some 43, some (-116), 0, 1562500, 0, 0, 1024 / 1000000, 0, 12, some 0, 12⟩, by decide +kernel⟩

/-- The regression of the example of C21 comes to rest after dropping one point. -/
example : ∃ r, robustRegress demoFit 3 (some (1 / 100))
    [(0, 0), (125000, 128), (250000, 256 + 1 / 2), (375000, 384)] = .ok r :=
  ⟨⟨[0, 1024 / 1000000, 0, 0], 3, 0, [0, 0, 0], [(0, 0), (125000, 128), (375000, 384)]⟩, by decide +kernel⟩

end Gemlog
