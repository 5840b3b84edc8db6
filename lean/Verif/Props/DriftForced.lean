import Verif.Props.DriftExact

/-!
# Property C23: forced conversion of files with good GPS data

Not requiring GPS data changes nothing for a file that would be accepted anyway, and the fitted clock is used whenever
the regression is possible, with or without a step.
-/

namespace Gemlog

/-- **C23, accepted files.** A file that is accepted with required GPS gets the same clock, position and statistics if GPS is not
required. -/
theorem C23_same_if_accepted (fit : Fitter) (L : FileData) (info : HeaderInfo) (h : calculateDrift fit L true = .ok info) :
    calculateDrift fit L false = .ok info := by
  rw [calculateDrift_eq] at h ⊢
  simp only [Bool.false_eq_true, false_and, if_false]
  by_cases h1 : L.gps = []
  · simp [h1] at h
  rw [if_neg (by simp [h1])] at h
  by_cases h2 : sufficientB L = false
  · simp [h2] at h
  rw [if_neg (by simp [h2])] at h
  by_cases h3 : ∃ x, detectStep fit (fixPoints L) = .error x
  · simp [h3] at h
  rw [if_neg (by simp [h3])] at h
  by_cases h4 : detectStep fit (fixPoints L) = .ok true
  · simp [h4] at h
  rw [if_neg (by simp [h4])] at h
  simp only [Bool.not_eq_false] at h2
  rw [if_pos h2] at h ⊢
  cases hr : tryRegression fit (dataSpan L) (fixPoints L) with
  | none => rw [hr] at h; simp at h
  | some r => rw [hr] at h; exact h

/-- **C23, when the fitted clock is used.** Without required GPS, a file whose fixes pass the tests of the spans and leave ten fixes or
more after trimming gets the clock fitted to those; every other file gets the nominal rate of 1.024 ms per logger
millisecond. -/
theorem C23_which_clock (fit : Fitter) (L : FileData) :
    (∀ kept c, L.gps ≠ [] → CoversHalfAnyOrder L → RestsAt fit 3 (some (1 / 100)) (fixPoints L) kept c → 10 ≤ kept.length →
      SpanTest L kept → ∃ info, calculateDrift fit L false = .ok info ∧ info.numNonoutliers = kept.length ∧
        ∀ x, timeOf info x = c.getD 0 0 + c.getD 1 0 * x + c.getD 2 0 * x ^ 2 + c.getD 3 0 * x ^ 3) ∧
    ((¬ (L.gps ≠ [] ∧ CoversHalfAnyOrder L ∧
        ∃ kept c, RestsAt fit 3 (some (1 / 100)) (fixPoints L) kept c ∧ 10 ≤ kept.length ∧ SpanTest L kept)) →
      ∃ info, calculateDrift fit L false = .ok info ∧ info.numNonoutliers = L.gps.length ∧
        ∀ x y, timeOf info y - timeOf info x = 1024 / 1000000 * (y - x)) := by
  have hzero : ∀ info, info = headerOf L (zeroDrift L.gps).1 (zeroDrift L.gps).2.1 (zeroDrift L.gps).2.2 →
      info.numNonoutliers = L.gps.length ∧ ∀ x y, timeOf info y - timeOf info x = 1024 / 1000000 * (y - x) := by
    rintro _ rfl
    unfold timeOf headerOf zeroDrift
    cases L.gps <;> simp [defaultDeg1] <;> intros <;> ring
  rw [calculateDrift_eq]
  simp only [Bool.false_eq_true, false_and, if_false]
  constructor
  · intro kept c hg hc hs hn hst
    obtain ⟨m, hm⟩ := robustRegress_of_rests hs
    rw [if_pos (sufficientB_any.mpr ⟨hg, hc⟩), tryRegression_some.mpr ⟨hm, hst, hn⟩]
    exact ⟨_, rfl, rfl, fun x => rfl⟩
  · intro hno
    by_cases h2 : sufficientB L = true
    · rw [if_pos h2]
      obtain ⟨hg, hc⟩ := sufficientB_any.mp h2
      cases hr : tryRegression fit (dataSpan L) (fixPoints L) with
      | some r =>
        obtain ⟨hrr, hst, hn⟩ := tryRegression_some.mp hr
        obtain ⟨hs, _, hnum, _⟩ := (C21_exact fit 3 _ _ r).mp hrr
        exact absurd ⟨hg, hc, r.pts, r.coefs, hs, by omega, hst⟩ hno
      | none => exact ⟨_, rfl, hzero _ rfl⟩
    · rw [if_neg h2]
      exact ⟨_, rfl, hzero _ rfl⟩

/-- The perfect file keeps its clock; a file with two fixes gets the nominal rate. -/
example : calculateDrift nominalFit perfectFile true = calculateDrift nominalFit perfectFile false ∧
    (∃ info, calculateDrift nominalFit perfectFile true = .ok info) ∧
    ¬ ∃ r, robustRegress nominalFit 3 (some (1 / 100)) (fixPoints (fileWith 7000000 [(1000, 50), (2000, 52)])) = .ok r ∧ 10 ≤ r.num := by
  refine ⟨by decide +kernel, ⟨⟨some 43, some (-116), 0, 1562500, 0, 0, 1024 / 1000000, 0, 12, some 0, 12⟩, by decide +kernel⟩, ?_⟩
  rintro ⟨r, hr, hn⟩
  have h1 := (C21_subsequence _ _ _ _ r hr).length_le
  have h2 := (C21_trims_and_ends_clean _ _ _ _ r hr).2.2.2.2.2.1
  have h3 : (fixPoints (fileWith 7000000 [(1000, 50), (2000, 52)])).length = 2 := by decide +kernel
  omega

end Gemlog
