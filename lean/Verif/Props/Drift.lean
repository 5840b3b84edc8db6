import Verif.Props.Regress
import Mathlib.Tactic.FieldSimp
import Mathlib.Tactic.LinearCombination

/-!
# Properties C19, C20, C22, C23: the clock of a file

All theorems hold for every fitter, unless they ask for one that reproduces polynomials.
-/

namespace Gemlog

/-! ## Specification -/

/-- The points of the regression: millisecond count and GPS time. -/
def fixPoints (L : FileData) : List (Rat × Rat) := L.gps.map fun f => (f.msPPS, f.t)

/-- Duration of the data in logger milliseconds. -/
def dataSpan (L : FileData) : Rat :=
  (L.data.getLast?.map Prod.fst).getD 0 - (L.data.head?.map Prod.fst).getD 0

/-- Time from the first to the last fix, in seconds. -/
def fixSpan (L : FileData) : Rat := (L.gps.getLast?.map Fix.t).getD 0 - (L.gps.head?.map Fix.t).getD 0

/-- The fixes cover more than half of the data (up to a nanosecond). -/
def CoversHalf (L : FileData) : Prop :=
  1024 / 1000000 * dataSpan L < 2 * (fixSpan L + 1 / 1000000000)

/-- The remaining fixes pass the test applied after the regression. -/
def SpanTest (L : FileData) (kept : List (Rat × Rat)) : Prop :=
  let dx := (kept.getLast?.map Prod.fst).getD 0 - (kept.head?.map Prod.fst).getD 0
  if dx = 0 then dataSpan L ≤ 0 else 1024 / 1000000 * dataSpan L / dx ≤ 2

/-- No two consecutive residuals differ by more than a quarter of a second. -/
def NoStep (resid : List Rat) : Prop := resid.IsChain (fun a b => |b - a| ≤ 1 / 4)

/-- The time the header row assigns to a count. -/
def timeOf (h : HeaderInfo) (x : Rat) : Rat := h.deg0 + h.deg1 * x + h.deg2 * x ^ 2 + h.deg3 * x ^ 3

/-! ## Lemmas -/

theorem anyJump_iff (l : List Rat) : anyJump l = false ↔ NoStep l := by
  unfold NoStep
  induction l with
  | nil => simp [anyJump]
  | cons a l ih =>
    cases l with
    | nil => simp [anyJump]
    | cons b l =>
      rw [anyJump, List.isChain_cons_cons, ← ih]
      simp [not_lt]

theorem firstLast_data (L : FileData) :
    (firstLast (L.data.map Prod.fst)).2 - (firstLast (L.data.map Prod.fst)).1 = dataSpan L := by
  simp [firstLast, dataSpan]

theorem firstLast_fix (L : FileData) :
    (firstLast (L.gps.map Fix.t)).2 - (firstLast (L.gps.map Fix.t)).1 = fixSpan L := by
  simp [firstLast, fixSpan]

/-- The model's test for adequate GPS. -/
def sufficientB (L : FileData) : Bool :=
  decide (L.gps ≠ []) && ratioLt (1024 / 1000000 * dataSpan L) (fixSpan L + 1 / 1000000000) 2

theorem sufficientB_covers {L : FileData} (hs : sufficientB L = true) (hf : 0 ≤ fixSpan L) : CoversHalf L := by
  unfold sufficientB ratioLt at hs
  have hpos : 0 < fixSpan L + 1 / 1000000000 := by linarith
  rw [if_neg (ne_of_gt hpos)] at hs
  simp only [Bool.and_eq_true, decide_eq_true_eq] at hs
  have := (div_lt_iff₀ hpos).mp hs.2
  unfold CoversHalf
  linarith

theorem sufficientB_iff {L : FileData} (hf : 0 ≤ fixSpan L) :
    sufficientB L = true ↔ (L.gps ≠ [] ∧ CoversHalf L) := by
  constructor
  · intro h
    refine ⟨?_, sufficientB_covers h hf⟩
    unfold sufficientB at h
    simp only [Bool.and_eq_true, decide_eq_true_eq] at h
    exact h.1
  · rintro ⟨h1, h2⟩
    unfold sufficientB ratioLt
    have hpos : 0 < fixSpan L + 1 / 1000000000 := by linarith
    rw [if_neg (ne_of_gt hpos)]
    simp only [Bool.and_eq_true, decide_eq_true_eq]
    refine ⟨h1, ?_⟩
    rw [div_lt_iff₀ hpos]
    unfold CoversHalf at h2
    linarith

/-- Header row made from a regression or the nominal clock. -/
def headerOf (L : FileData) (coefs : List Rat) (maxResid : Option Rat) (num : Nat) : HeaderInfo :=
  ⟨if L.gps ≠ [] then medianCol (L.gps.map fun f => f.lat) else none,
    if L.gps ≠ [] then medianCol (L.gps.map fun f => f.lon) else none,
    (L.data.head?.map Prod.fst).getD 0, (L.data.getLast?.map Prod.fst).getD 0,
    coefs.getD 3 0, coefs.getD 2 0, coefs.getD 1 0, coefs.getD 0 0, L.gps.length, maxResid, num⟩

open Classical in
theorem calculateDrift_eq (fit : Fitter) (L : FileData) (rg : Bool) :
    calculateDrift fit L rg =
      (if rg = true ∧ L.gps = [] then .error .noGPS
      else if rg = true ∧ sufficientB L = false then .error .inadequateGPS
      else if rg = true ∧ ∃ x, detectStep fit (fixPoints L) = .error x then .error .other
      else if rg = true ∧ detectStep fit (fixPoints L) = .ok true then .error .discontinuousGPS
      else if sufficientB L = true then
        match tryRegression fit (dataSpan L) (fixPoints L) with
        | some r => .ok (headerOf L r.coefs (some r.maxResid) r.num)
        | none => if rg = true then .error .inadequateGPS
            else .ok (headerOf L (zeroDrift L.gps).1 (zeroDrift L.gps).2.1 (zeroDrift L.gps).2.2)
      else .ok (headerOf L (zeroDrift L.gps).1 (zeroDrift L.gps).2.1 (zeroDrift L.gps).2.2)) := by
  have hfin : ∀ (c : List Rat) (m : Option Rat) (n : Nat),
      (if decide (L.gps ≠ []) = true then
        (⟨medianCol (L.gps.map fun f => f.lat), medianCol (L.gps.map fun f => f.lon),
          (firstLast (L.data.map Prod.fst)).1, (firstLast (L.data.map Prod.fst)).2,
          c.getD 3 0, c.getD 2 0, c.getD 1 0, c.getD 0 0, L.gps.length, m, n⟩ : HeaderInfo)
      else ⟨none, none, (firstLast (L.data.map Prod.fst)).1, (firstLast (L.data.map Prod.fst)).2,
          c.getD 3 0, c.getD 2 0, c.getD 1 0, c.getD 0 0, L.gps.length, m, n⟩) = headerOf L c m n := by
    intro c m n
    unfold headerOf
    by_cases h : L.gps = [] <;> simp [h, firstLast]
  unfold calculateDrift
  simp only [firstLast_data, firstLast_fix, hfin]
  have hsuf : (decide (L.gps ≠ []) && ratioLt (1024 / 1000000 * dataSpan L) (fixSpan L + 1 / 1000000000) 2)
      = sufficientB L := rfl
  rw [hsuf]
  have hpts : (L.gps.map fun f => (f.msPPS, f.t)) = fixPoints L := rfl
  rw [hpts]
  cases rg with
  | false => cases htr : tryRegression fit (dataSpan L) (fixPoints L) <;> simp
  | true =>
    by_cases hg : L.gps = []
    · simp [hg]
    · cases hs : sufficientB L with
      | false => simp [hg]
      | true =>
        cases hd : detectStep fit (fixPoints L) with
        | error x => simp [hg]
        | ok b => cases b <;> cases htr : tryRegression fit (dataSpan L) (fixPoints L) <;> simp [hg]

theorem tryRegression_some {fit : Fitter} {L : FileData} {r : Regression} :
    tryRegression fit (dataSpan L) (fixPoints L) = some r ↔
      (robustRegress fit 3 (some (1 / 100)) (fixPoints L) = .ok r ∧ SpanTest L r.pts ∧ 10 ≤ r.num) := by
  unfold tryRegression
  cases h : robustRegress fit 3 (some (1 / 100)) (fixPoints L) with
  | error x => simp
  | ok r' =>
    simp only [Except.ok.injEq]
    obtain ⟨_, _, _, _, hlim, _, _, e, he, hmx⟩ := C21_trims_and_ends_clean fit 3 _ _ r' h
    have hmax : ¬ (r'.maxResid > 1 / 100) := by
      have := hlim e he (1 / 100) rfl
      rw [hmx] at this
      exact not_lt.mpr this
    have hspan : ratioGt (1024 / 1000000 * dataSpan L) ((firstLast (r'.pts.map Prod.fst)).2 -
        (firstLast (r'.pts.map Prod.fst)).1) 2 = true ↔ ¬ SpanTest L r'.pts := by
      have hdx : (firstLast (r'.pts.map Prod.fst)).2 - (firstLast (r'.pts.map Prod.fst)).1
          = (r'.pts.getLast?.map Prod.fst).getD 0 - (r'.pts.head?.map Prod.fst).getD 0 := by simp [firstLast]
      rw [hdx]
      unfold ratioGt SpanTest
      simp only
      split_ifs with hz
      · rw [decide_eq_true_eq]
        constructor
        · intro h; push Not; linarith
        · intro h; push Not at h; linarith
      · simp
    by_cases hc : ratioGt (1024 / 1000000 * dataSpan L) ((firstLast (r'.pts.map Prod.fst)).2 -
        (firstLast (r'.pts.map Prod.fst)).1) 2 = true ∨ r'.num < 10 ∨ r'.maxResid > 1 / 100
    · rw [if_pos hc]
      simp only [reduceCtorEq, false_iff, not_and]
      rintro rfl hst
      rcases hc with hc | hc | hc
      · exact absurd hst (hspan.mp hc)
      · omega
      · exact absurd hc hmax
    · rw [if_neg hc]
      push Not at hc
      simp only [Option.some.injEq]
      constructor
      · rintro rfl
        refine ⟨rfl, ?_, hc.2.1⟩
        by_contra hst
        exact hc.1 (hspan.mpr hst)
      · exact fun h => h.1

/-! ## C19 -/

/-- What an accepted file has when GPS is required. -/
structure GoodClock (fit : Fitter) (L : FileData) (info : HeaderInfo) : Prop where
  /-- it has fixes -/
  fixes : L.gps ≠ []
  /-- after removing outliers of straight-line fits, no step above 0.25 s remains -/
  noStep : ∃ kept c, Trims fit 1 none (fixPoints L) kept ∧ fit 1 kept = some c ∧ NoStep (kept.map (misfit c))
  /-- the third-degree regression keeps at least ten fixes, all within 10 ms, and gives the clock -/
  regression : ∃ kept c, Trims fit 3 (some (1 / 100)) (fixPoints L) kept ∧ fit 3 kept = some c ∧
    10 ≤ kept.length ∧ (∀ p ∈ kept, |misfit c p| ≤ 1 / 100) ∧ SpanTest L kept ∧
    info.deg0 = c.getD 0 0 ∧ info.deg1 = c.getD 1 0 ∧ info.deg2 = c.getD 2 0 ∧ info.deg3 = c.getD 3 0 ∧
    info.numNonoutliers = kept.length ∧
    ∃ m, info.maxResid = some m ∧ (∀ p ∈ kept, |misfit c p| ≤ m) ∧ ∃ p ∈ kept, |misfit c p| = m

/-- **C19** (fix times not going backwards overall). A file accepted with required GPS has fixes that span more than
half of the data, no step, and a regression keeping at least 10 fixes, all within 10 ms.
Missing: fix series whose last time is before the first, see `C19_violated`. -/
theorem C19_accepted_files_partial (fit : Fitter) (L : FileData) (info : HeaderInfo) (hf : 0 ≤ fixSpan L)
    (h : calculateDrift fit L true = .ok info) : GoodClock fit L info ∧ CoversHalf L := by
  rw [calculateDrift_eq] at h
  by_cases h1 : L.gps = []
  · simp [h1] at h
  rw [if_neg (by simp [h1])] at h
  by_cases h2 : sufficientB L = false
  · simp [h2] at h
  rw [if_neg (by simp [h2])] at h
  simp only [Bool.not_eq_false] at h2
  by_cases h3 : ∃ x, detectStep fit (fixPoints L) = .error x
  · simp [h3] at h
  rw [if_neg (by simp [h3])] at h
  by_cases h4 : detectStep fit (fixPoints L) = .ok true
  · simp [h4] at h
  rw [if_neg (by simp [h4]), if_pos h2] at h
  refine ⟨⟨h1, ?_, ?_⟩, sufficientB_covers h2 hf⟩
  · push Not at h3
    unfold detectStep at h3 h4
    cases hr : robustRegress fit 1 none (fixPoints L) with
    | error x => rw [hr] at h3; simp at h3
    | ok r =>
      rw [hr] at h4
      simp only [Except.ok.injEq, Bool.not_eq_true] at h4
      obtain ⟨ht, hfit, hres, _⟩ := C21_trims_and_ends_clean fit 1 none _ r hr
      refine ⟨r.pts, r.coefs, ht, hfit, ?_⟩
      rw [← hres]
      exact (anyJump_iff _).mp h4
  · cases hr : tryRegression fit (dataSpan L) (fixPoints L) with
    | none => rw [hr] at h; simp at h
    | some r =>
      rw [hr] at h
      simp only [Except.ok.injEq] at h
      obtain ⟨hrr, hst, hn⟩ := tryRegression_some.mp hr
      obtain ⟨ht, hfit, hres, _, hlim, hnum, hmx1, e, he, hmx2⟩ := C21_trims_and_ends_clean fit 3 _ _ r hrr
      refine ⟨r.pts, r.coefs, ht, hfit, by omega, ?_, hst, ?_, ?_, ?_, ?_, ?_, r.maxResid, ?_, ?_, ?_⟩
      · intro p hp
        exact hlim _ (by rw [hres]; exact List.mem_map.mpr ⟨p, hp, rfl⟩) _ rfl
      · rw [← h]; rfl
      · rw [← h]; rfl
      · rw [← h]; rfl
      · rw [← h]; rfl
      · rw [← h]; exact hnum
      · rw [← h]; rfl
      · intro p hp
        exact hmx1 _ (by rw [hres]; exact List.mem_map.mpr ⟨p, hp, rfl⟩)
      · rw [hres] at he
        obtain ⟨p, hp, rfl⟩ := List.mem_map.mp he
        exact ⟨p, hp, hmx2⟩

/-- **C19.** Which exception rejects a file when GPS is required. -/
theorem C19_rejections (fit : Fitter) (L : FileData) (hf : 0 ≤ fixSpan L) (x : Exc)
    (h : calculateDrift fit L true = .error x) :
    (x = .noGPS ∧ L.gps = []) ∨
    (x = .inadequateGPS ∧ L.gps ≠ [] ∧ (¬ CoversHalf L ∨
      (∀ r, robustRegress fit 3 (some (1 / 100)) (fixPoints L) = .ok r → r.pts.length < 10 ∨ ¬ SpanTest L r.pts))) ∨
    (x = .discontinuousGPS ∧ ∃ kept c, Trims fit 1 none (fixPoints L) kept ∧ fit 1 kept = some c ∧
      ¬ NoStep (kept.map (misfit c))) ∨
    (x = .other ∧ robustRegress fit 1 none (fixPoints L) = .error .raised) := by
  rw [calculateDrift_eq] at h
  by_cases h1 : L.gps = []
  · simp only [h1, and_self, if_true, Except.error.injEq] at h
    exact Or.inl ⟨h.symm, h1⟩
  rw [if_neg (by simp [h1])] at h
  by_cases h2 : sufficientB L = false
  · rw [if_pos ⟨rfl, h2⟩] at h
    simp only [Except.error.injEq] at h
    refine Or.inr (Or.inl ⟨h.symm, h1, Or.inl fun hc => ?_⟩)
    rw [(sufficientB_iff hf).mpr ⟨h1, hc⟩] at h2
    simp at h2
  rw [if_neg (by simp [h2])] at h
  simp only [Bool.not_eq_false] at h2
  by_cases h3 : ∃ x, detectStep fit (fixPoints L) = .error x
  · rw [if_pos ⟨rfl, h3⟩] at h
    simp only [Except.error.injEq] at h
    refine Or.inr (Or.inr (Or.inr ⟨h.symm, ?_⟩))
    obtain ⟨y, hy⟩ := h3
    unfold detectStep at hy
    cases hr : robustRegress fit 1 none (fixPoints L) with
    | error z =>
      cases z with
      | raised => rfl
      | outOfFuel => exact absurd hr (C21_terminates fit 1 none _)
    | ok r => rw [hr] at hy; simp at hy
  rw [if_neg (by simp [h3])] at h
  by_cases h4 : detectStep fit (fixPoints L) = .ok true
  · rw [if_pos ⟨rfl, h4⟩] at h
    simp only [Except.error.injEq] at h
    refine Or.inr (Or.inr (Or.inl ⟨h.symm, ?_⟩))
    unfold detectStep at h4
    cases hr : robustRegress fit 1 none (fixPoints L) with
    | error z => rw [hr] at h4; simp at h4
    | ok r =>
      rw [hr] at h4
      simp only [Except.ok.injEq] at h4
      obtain ⟨ht, hfit, hres, _⟩ := C21_trims_and_ends_clean fit 1 none _ r hr
      refine ⟨r.pts, r.coefs, ht, hfit, fun hn => ?_⟩
      rw [← hres] at hn
      rw [(anyJump_iff _).mpr hn] at h4
      simp at h4
  rw [if_neg (by simp [h4]), if_pos h2] at h
  cases hr : tryRegression fit (dataSpan L) (fixPoints L) with
  | some r => rw [hr] at h; simp at h
  | none =>
    rw [hr] at h
    simp only [if_true, Except.error.injEq] at h
    refine Or.inr (Or.inl ⟨h.symm, h1, Or.inr fun r hrr => ?_⟩)
    by_contra hcon
    push Not at hcon
    have hnum := (C21_trims_and_ends_clean fit 3 _ _ r hrr).2.2.2.2.2.1
    have := tryRegression_some.mpr ⟨hrr, hcon.2, by omega⟩
    rw [hr] at this
    simp at this

/-- A fix with given count and time (position fixed). -/
def fixAt (ms t : Rat) : Fix :=
  ⟨⟨ms, some 70, some 2020, some 6, some 20, some 5, some 21, some 22, some 43, some (-116)⟩, t⟩

/-- A file with the given data span and fixes. -/
def fileWith (span : Rat) (fixes : List (Rat × Rat)) : FileData :=
  ⟨[(0, some 1), (span, some 2)], [], fixes.map fun p => fixAt p.1 p.2⟩

/-- A fitter that fits the nominal clock exactly (for examples). -/
def nominalFit : Fitter := fun _ pts => if pts = [] then none else some [0, 1024 / 1000000, 0, 0]

/-- Twelve perfect fixes every 125 s of a file of 1600 s. -/
def perfectFile : FileData :=
  fileWith 1562500 ((List.range 12).map fun i => (125000 * (i : Rat), 128 * (i : Rat)))

example : calculateDrift nominalFit perfectFile true = .ok ⟨some 43, some (-116), 0, 1562500, 0, 0,
    1024 / 1000000, 0, 12, some 0, 12⟩ ∧ 0 ≤ fixSpan perfectFile := by decide +kernel

/-- **C19 is violated** when GPS time runs backwards over the file: eleven seconds of fixes, in reverse, are accepted
for a file of 7168 s, because the ratio of the spans is negative. The fit is exact (a line through all fixes). -/
theorem C19_violated :
    let L := fileWith 7000000 ((List.range 12).map fun i => (1000 * (i : Rat), 100 - (i : Rat)))
    let fit : Fitter := fun _ pts => if pts = [] then none else some [100, -1 / 1000, 0, 0]
    (∀ p ∈ fixPoints L, misfit [100, -1 / 1000, 0, 0] p = 0) ∧ fixSpan L = -11 ∧ dataSpan L = 7000000 ∧
    (∃ info, calculateDrift fit L true = .ok info ∧ info.deg1 = -1 / 1000) ∧ ¬ CoversHalf L := by
  refine ⟨by decide +kernel, by decide +kernel, by decide +kernel, ⟨⟨some 43, some (-116), 0, 7000000, 0, 0,
    -1 / 1000, 100, 12, some 0, 12⟩, by decide +kernel, by decide +kernel⟩, ?_⟩
  unfold CoversHalf
  decide +kernel

/-! ## C20 -/

/-- **C20** (what the code guarantees). In an accepted file the millisecond counts of the remaining fixes span at least
0.000512 of the data's span (when the last is after the first): the comparison mixes seconds with milliseconds, so
it is a thousand times weaker than intended.
Missing: half of the file's duration, see `C20_violated`. -/
theorem C20_remaining_span_partial (fit : Fitter) (L : FileData) (info : HeaderInfo) (hf : 0 ≤ fixSpan L)
    (h : calculateDrift fit L true = .ok info) :
    ∃ kept c, Trims fit 3 (some (1 / 100)) (fixPoints L) kept ∧ fit 3 kept = some c ∧ info.deg0 = c.getD 0 0 ∧
      let dx := (kept.getLast?.map Prod.fst).getD 0 - (kept.head?.map Prod.fst).getD 0
      (0 < dx → 512 / 1000000 * dataSpan L ≤ dx) := by
  obtain ⟨kept, c, ht, hfit, _, _, hst, h0, _⟩ := (C19_accepted_files_partial fit L info hf h).1.regression
  refine ⟨kept, c, ht, hfit, h0, ?_⟩
  intro dx hpos
  unfold SpanTest at hst
  simp only at hst
  rw [if_neg (ne_of_gt hpos)] at hst
  have := (div_le_iff₀ hpos).mp hst
  linarith

/-- Ten good fixes in ten seconds and, two hours later, five whose errors are orthogonal to all cubics. -/
def scatteredFixes : List (Rat × Rat) :=
  ((List.range 10).map fun i => (1000 * (i : Rat), 1024 / 1000 * (i : Rat))) ++
  [(7000000, 7168 + 2 / 100), (7001000, 7169024 / 1000 - 8 / 100), (7002000, 7170048 / 1000 + 12 / 100),
    (7003000, 7171072 / 1000 - 8 / 100), (7004000, 7172096 / 1000 + 2 / 100)]

/-- **C20 is violated**: the nominal clock is the exact least-squares fit (the residuals are orthogonal to all cubics,
before and after trimming), the five late fixes are dropped, and the file of 7168 s is accepted with fixes that
span about nine seconds. -/
theorem C20_violated :
    let L := fileWith 7004000 scatteredFixes
    (∀ k ∈ [0, 1, 2, 3], ((fixPoints L).map fun p => misfit [0, 1024 / 1000000, 0, 0] p * p.1 ^ k).sum = 0) ∧
    (∃ info, calculateDrift nominalFit L true = .ok info ∧ info.numNonoutliers = 10) ∧
    (∃ r, robustRegress nominalFit 3 (some (1 / 100)) (fixPoints L) = .ok r ∧
      (∀ k ∈ [0, 1, 2, 3], (r.pts.map fun p => misfit [0, 1024 / 1000000, 0, 0] p * p.1 ^ k).sum = 0) ∧
      (r.pts.head?.map Prod.fst = some 0) ∧ (r.pts.getLast?.map Prod.fst = some 9000)) := by
  refine ⟨by decide +kernel, ⟨⟨some 43, some (-116), 0, 7004000, 0, 0, 1024 / 1000000, 0, 15, some 0, 10⟩,
    by decide +kernel, rfl⟩, ⟨⟨[0, 1024 / 1000000, 0, 0], 10, 0, List.replicate 10 0,
    (List.range 10).map fun i => (1000 * (i : Rat), 1024 / 1000 * (i : Rat))⟩, by decide +kernel, by decide +kernel,
    by decide +kernel, by decide +kernel⟩⟩

/-! ## C22 -/

/-- A cubic clock. -/
def cubic (a b c d x : Rat) : Rat := a + b * x + c * x ^ 2 + d * x ^ 3

/-- The fitter of degree three reproduces data that lie on a cubic and determine it. -/
def Reproduces (fit : Fitter) : Prop :=
  ∀ (pts : List (Rat × Rat)) (a b c d : Rat), (∀ p ∈ pts, p.2 = cubic a b c d p.1) →
    (∃ x1 x2 x3 x4, x1 < x2 ∧ x2 < x3 ∧ x3 < x4 ∧ x1 ∈ pts.map Prod.fst ∧ x2 ∈ pts.map Prod.fst ∧
      x3 ∈ pts.map Prod.fst ∧ x4 ∈ pts.map Prod.fst) →
    ∃ co : List Rat, fit 3 pts = some co ∧ co.length = 4 ∧ ∀ p ∈ pts, p.2 = polyEval co p.1

/-- The fitter of degree one reproduces data that lie on a line and determine it. -/
def ReproducesLines (fit : Fitter) : Prop :=
  ∀ (pts : List (Rat × Rat)) (a b : Rat), (∀ p ∈ pts, p.2 = a + b * p.1) →
    (∃ x1 x2, x1 < x2 ∧ x1 ∈ pts.map Prod.fst ∧ x2 ∈ pts.map Prod.fst) →
    ∃ co : List Rat, fit 1 pts = some co ∧ ∀ p ∈ pts, p.2 = polyEval co p.1

theorem cubic_unique {a b c d x1 x2 x3 x4 : Rat} (h12 : x1 < x2) (h23 : x2 < x3) (h34 : x3 < x4)
    (h1 : cubic a b c d x1 = 0) (h2 : cubic a b c d x2 = 0) (h3 : cubic a b c d x3 = 0)
    (h4 : cubic a b c d x4 = 0) : a = 0 ∧ b = 0 ∧ c = 0 ∧ d = 0 := by
  unfold cubic at *
  have e12 : b + c * (x1 + x2) + d * (x1 ^ 2 + x1 * x2 + x2 ^ 2) = 0 := by
    have : (x2 - x1) * (b + c * (x1 + x2) + d * (x1 ^ 2 + x1 * x2 + x2 ^ 2)) = 0 := by linear_combination h2 - h1
    rcases mul_eq_zero.mp this with h | h
    · linarith
    · exact h
  have e13 : b + c * (x1 + x3) + d * (x1 ^ 2 + x1 * x3 + x3 ^ 2) = 0 := by
    have : (x3 - x1) * (b + c * (x1 + x3) + d * (x1 ^ 2 + x1 * x3 + x3 ^ 2)) = 0 := by linear_combination h3 - h1
    rcases mul_eq_zero.mp this with h | h
    · linarith
    · exact h
  have e14 : b + c * (x1 + x4) + d * (x1 ^ 2 + x1 * x4 + x4 ^ 2) = 0 := by
    have : (x4 - x1) * (b + c * (x1 + x4) + d * (x1 ^ 2 + x1 * x4 + x4 ^ 2)) = 0 := by linear_combination h4 - h1
    rcases mul_eq_zero.mp this with h | h
    · linarith
    · exact h
  have f23 : c + d * (x1 + x2 + x3) = 0 := by
    have : (x3 - x2) * (c + d * (x1 + x2 + x3)) = 0 := by linear_combination e13 - e12
    rcases mul_eq_zero.mp this with h | h
    · linarith
    · exact h
  have f24 : c + d * (x1 + x2 + x4) = 0 := by
    have : (x4 - x2) * (c + d * (x1 + x2 + x4)) = 0 := by linear_combination e14 - e12
    rcases mul_eq_zero.mp this with h | h
    · linarith
    · exact h
  have hd : d = 0 := by
    have : (x4 - x3) * d = 0 := by linear_combination f24 - f23
    rcases mul_eq_zero.mp this with h | h
    · linarith
    · exact h
  subst hd
  have hc : c = 0 := by linarith
  subst hc
  have hb : b = 0 := by linarith
  subst hb
  exact ⟨by linarith, rfl, rfl, rfl⟩

theorem polyEval_four {co : List Rat} (h : co.length = 4) (x : Rat) :
    polyEval co x = cubic (co.getD 0 0) (co.getD 1 0) (co.getD 2 0) (co.getD 3 0) x := by
  match co, h with
  | [a, b, c, d], _ => simp [polyEval, cubic]; ring

theorem variance_zeros (n : Nat) : variance (List.replicate n 0) = 0 := by
  simp [variance]

theorem maxAbs_zeros (n : Nat) : maxAbs (List.replicate (n + 1) 0) = some 0 := by
  have : ∀ n : Nat, (List.replicate n (0 : Rat)).foldl (fun m s => max m |s|) 0 = 0 := by
    intro n
    induction n with
    | zero => rfl
    | succ n ih => rw [List.replicate_succ, List.foldl_cons]; simpa using ih
  rw [List.replicate_succ]
  simp [maxAbs, this]

theorem noStep_zeros (n : Nat) : NoStep (List.replicate n 0) := by
  unfold NoStep
  induction n with
  | zero => simp
  | succ n ih =>
    cases n with
    | zero => simp
    | succ n =>
      rw [List.replicate_succ, List.replicate_succ, List.isChain_cons_cons, ← List.replicate_succ]
      exact ⟨by simp, ih⟩

/-- With no misfit, the regression keeps everything. -/
theorem robust_exact {fit : Fitter} {degree : Nat} {MAD : Option Rat} (hM : ∀ m, MAD = some m → 0 ≤ m)
    {pts : List (Rat × Rat)} {co : List Rat} (hf : fit degree pts = some co) (hne : pts ≠ [])
    (hex : ∀ p ∈ pts, p.2 = polyEval co p.1) :
    robustRegress fit degree MAD pts = .ok ⟨co, pts.length, 0, List.replicate pts.length 0, pts⟩ := by
  have hres : (pts.map fun p => p.2 - polyEval co p.1) = List.replicate pts.length 0 := by
    rw [List.eq_replicate_iff]
    refine ⟨by simp, ?_⟩
    intro e he
    obtain ⟨p, hp, rfl⟩ := List.mem_map.mp he
    rw [← hex p hp]; ring
  unfold robustRegress robustGo
  rw [hf]
  simp only [hres]
  have hmask : (outlierMask 4 MAD (List.replicate pts.length 0)).any id = false := by
    have hstd : isStdOutlier 4 (varRat (List.replicate pts.length 0)) 0 = false := by
      rw [varRat_eq, variance_zeros]; simp [isStdOutlier]
    have hmad : isMadOutlier MAD 0 = false := by
      unfold isMadOutlier
      cases MAD with
      | none => rfl
      | some m => simpa using hM m rfl
    unfold outlierMask
    simp only [List.map_replicate, hstd, hmad]
    split_ifs <;> simp
  rw [if_neg (by rw [hmask]; simp)]
  obtain ⟨n, hn⟩ : ∃ n, pts.length = n + 1 := ⟨pts.length - 1, by
    have := List.length_pos_iff.mpr hne; omega⟩
  rw [hn, maxAbs_zeros]

/-- **C22.** If all fixes lie on a cubic clock that they determine, and the fitter reproduces such clocks, then in a file
accepted with required GPS no fix is discarded, the residuals are zero, and every count gets exactly its clock time. -/
theorem C22_perfect_timing (fit : Fitter) (hfit : Reproduces fit) (L : FileData) (a b c d : Rat)
    (hclock : ∀ f ∈ L.gps, f.t = a + b * f.msPPS + c * f.msPPS ^ 2 + d * f.msPPS ^ 3)
    (hdist : ∃ x1 x2 x3 x4, x1 < x2 ∧ x2 < x3 ∧ x3 < x4 ∧ x1 ∈ L.gps.map (·.msPPS) ∧ x2 ∈ L.gps.map (·.msPPS) ∧
      x3 ∈ L.gps.map (·.msPPS) ∧ x4 ∈ L.gps.map (·.msPPS))
    (info : HeaderInfo) (h : calculateDrift fit L true = .ok info) :
    info.numNonoutliers = L.gps.length ∧ info.maxResid = some 0 ∧
    ∀ x, timeOf info x = a + b * x + c * x ^ 2 + d * x ^ 3 := by
  have hmap : (fixPoints L).map Prod.fst = L.gps.map (·.msPPS) := by simp [fixPoints]
  have hpts : ∀ p ∈ fixPoints L, p.2 = cubic a b c d p.1 := by
    intro p hp
    obtain ⟨f, hf, rfl⟩ := List.mem_map.mp hp
    exact hclock f hf
  obtain ⟨co, hco, hlen, hex⟩ := hfit (fixPoints L) a b c d hpts (by rw [hmap]; exact hdist)
  have hne : fixPoints L ≠ [] := by
    intro hn
    obtain ⟨x1, _, _, _, _, _, _, h1, _⟩ := hdist
    rw [← hmap, hn] at h1
    simp at h1
  have hr := robust_exact (MAD := some (1 / 100)) (by intro m hm; simp at hm; rw [← hm]; norm_num) hco hne hex
  have hcoef : co.getD 0 0 = a ∧ co.getD 1 0 = b ∧ co.getD 2 0 = c ∧ co.getD 3 0 = d := by
    obtain ⟨x1, x2, x3, x4, h12, h23, h34, m1, m2, m3, m4⟩ := hdist
    have hz : ∀ x ∈ L.gps.map (·.msPPS),
        cubic (co.getD 0 0 - a) (co.getD 1 0 - b) (co.getD 2 0 - c) (co.getD 3 0 - d) x = 0 := by
      intro x hx
      rw [← hmap] at hx
      obtain ⟨p, hp, rfl⟩ := List.mem_map.mp hx
      have e1 := hpts p hp
      have e2 := hex p hp
      rw [polyEval_four hlen] at e2
      unfold cubic at *
      linear_combination e1 - e2
    obtain ⟨q1, q2, q3, q4⟩ := cubic_unique h12 h23 h34 (hz x1 m1) (hz x2 m2) (hz x3 m3) (hz x4 m4)
    exact ⟨by linarith, by linarith, by linarith, by linarith⟩
  rw [calculateDrift_eq] at h
  by_cases h1 : L.gps = []
  · simp [h1] at h
  rw [if_neg (by simp [h1])] at h
  by_cases h2 : sufficientB L = false
  · simp [h2] at h
  rw [if_neg (by simp [h2])] at h
  simp only [Bool.not_eq_false] at h2
  by_cases h3 : ∃ x, detectStep fit (fixPoints L) = .error x
  · simp [h3] at h
  rw [if_neg (by simp [h3])] at h
  by_cases h4 : detectStep fit (fixPoints L) = .ok true
  · simp [h4] at h
  rw [if_neg (by simp [h4]), if_pos h2] at h
  cases hreg : tryRegression fit (dataSpan L) (fixPoints L) with
  | none => rw [hreg] at h; simp at h
  | some r =>
    rw [hreg] at h
    obtain ⟨hrr, _, _⟩ := tryRegression_some.mp hreg
    rw [hr] at hrr
    simp only [Except.ok.injEq] at h hrr
    subst hrr
    subst h
    refine ⟨by simp [headerOf, fixPoints], rfl, ?_⟩
    intro x
    unfold timeOf headerOf
    simp only
    rw [hcoef.1, hcoef.2.1, hcoef.2.2.1, hcoef.2.2.2]

/-- **C22.** A file with perfect fixes of a linear clock that cover it is accepted, given a fitter that reproduces lines
and cubics. -/
theorem C22_linear_clock_accepted (fit : Fitter) (hfit : Reproduces fit)
    (hfit1 : ReproducesLines fit)
    (L : FileData) (a b : Rat) (hclock : ∀ f ∈ L.gps, f.t = a + b * f.msPPS) (hn : 10 ≤ L.gps.length)
    (hdist : ∃ x1 x2 x3 x4, x1 < x2 ∧ x2 < x3 ∧ x3 < x4 ∧ x1 ∈ L.gps.map (·.msPPS) ∧ x2 ∈ L.gps.map (·.msPPS) ∧
      x3 ∈ L.gps.map (·.msPPS) ∧ x4 ∈ L.gps.map (·.msPPS))
    (hf : 0 ≤ fixSpan L) (hcov : CoversHalf L) (hspan : SpanTest L (fixPoints L)) :
    ∃ info, calculateDrift fit L true = .ok info ∧ ∀ x, timeOf info x = a + b * x := by
  have hmap : (fixPoints L).map Prod.fst = L.gps.map (·.msPPS) := by simp [fixPoints]
  have hlenp : (fixPoints L).length = L.gps.length := by simp [fixPoints]
  have hpts : ∀ p ∈ fixPoints L, p.2 = a + b * p.1 := by
    intro p hp
    obtain ⟨f, hf, rfl⟩ := List.mem_map.mp hp
    exact hclock f hf
  have hg : L.gps ≠ [] := by intro h; rw [h] at hn; simp at hn
  have hne : fixPoints L ≠ [] := by intro h; rw [← hlenp, h] at hn; simp at hn
  obtain ⟨co1, hco1, hex1⟩ := hfit1 (fixPoints L) a b hpts
    (by obtain ⟨x1, x2, _, _, h12, _, _, h1, h2, _⟩ := hdist; rw [hmap]; exact ⟨x1, x2, h12, h1, h2⟩)
  obtain ⟨co3, hco3, hlen3, hex3⟩ := hfit (fixPoints L) a b 0 0
    (by intro p hp; rw [hpts p hp]; unfold cubic; ring) (by rw [hmap]; exact hdist)
  have hr1 := robust_exact (MAD := none) (by simp) hco1 hne hex1
  have hr3 := robust_exact (MAD := some (1 / 100)) (by intro m hm; simp at hm; rw [← hm]; norm_num) hco3 hne hex3
  have hstep : detectStep fit (fixPoints L) = .ok false := by
    unfold detectStep
    rw [hr1]
    simp only [Except.ok.injEq]
    rw [anyJump_iff]
    unfold NoStep
    exact noStep_zeros _
  have hreg := tryRegression_some.mpr ⟨hr3, hspan, by simp only; omega⟩
  have hok : calculateDrift fit L true = .ok (headerOf L co3 (some 0) (fixPoints L).length) := by
    rw [calculateDrift_eq, if_neg (by simp [hg]), if_neg (by rw [(sufficientB_iff hf).mpr ⟨hg, hcov⟩]; simp),
      if_neg (by rw [hstep]; simp), if_neg (by rw [hstep]; simp),
      if_pos ((sufficientB_iff hf).mpr ⟨hg, hcov⟩), hreg]
  refine ⟨_, hok, ?_⟩
  have := (C22_perfect_timing fit hfit L a b 0 0 (by intro f hf; rw [hclock f hf]; ring) hdist _ hok).2.2
  intro x
  rw [this x]; ring

/-- A clock in a file: five counts, all on `t = 3 + x/1000 + x²/10⁹`. -/
def curvedFile : FileData :=
  fileWith 10000 ((List.range 12).map fun i =>
    (1000 * (i : Rat), 3 + 1000 * (i : Rat) / 1000 + (1000 * (i : Rat)) ^ 2 / 1000000000))

open Classical in
/-- An ideal fitter: it picks polynomial coefficients through the points whenever there are some. -/
noncomputable def idealFit : Fitter := fun d pts =>
  if h : ∃ co : List Rat, co.length = d + 1 ∧ ∀ p ∈ pts, p.2 = polyEval co p.1 then some h.choose else none

theorem idealFit_reproduces : Reproduces idealFit := by
  intro pts a b c d hp _
  have h : ∃ co : List Rat, co.length = 3 + 1 ∧ ∀ p ∈ pts, p.2 = polyEval co p.1 := by
    refine ⟨[a, b, c, d], rfl, ?_⟩
    intro p hm
    rw [hp p hm, polyEval_four rfl]; rfl
  refine ⟨h.choose, ?_, h.choose_spec.1, h.choose_spec.2⟩
  unfold idealFit
  rw [dif_pos h]

theorem idealFit_line : ReproducesLines idealFit := by
  intro pts a b hp _
  have h : ∃ co : List Rat, co.length = 1 + 1 ∧ ∀ p ∈ pts, p.2 = polyEval co p.1 := by
    refine ⟨[a, b], rfl, ?_⟩
    intro p hm
    rw [hp p hm]; simp [polyEval]; ring
  refine ⟨h.choose, ?_, h.choose_spec.2⟩
  unfold idealFit
  rw [dif_pos h]

/-- The hypotheses of both theorems are met: `perfectFile` is on the nominal clock and covered by its fixes. -/
example : (∃ info, calculateDrift idealFit perfectFile true = .ok info ∧ ∀ x, timeOf info x = 0 + 1024 / 1000000 * x) ∧
    Reproduces idealFit := by
  refine ⟨C22_linear_clock_accepted idealFit idealFit_reproduces idealFit_line perfectFile 0 (1024 / 1000000)
    (by decide +kernel) (by decide +kernel) ⟨0, 125000, 250000, 375000, by decide +kernel, by decide +kernel,
      by decide +kernel, by decide +kernel, by decide +kernel, by decide +kernel, by decide +kernel⟩
    (by decide +kernel) ?_ ?_, idealFit_reproduces⟩
  · unfold CoversHalf; decide +kernel
  · unfold SpanTest; decide +kernel

/-! ## C23 -/

/-- A usable regression: it keeps ten fixes that pass the span test. -/
def Usable (fit : Fitter) (L : FileData) : Prop :=
  ∃ r, robustRegress fit 3 (some (1 / 100)) (fixPoints L) = .ok r ∧ SpanTest L r.pts ∧ 10 ≤ r.num

/-- **C23.** When GPS is not required a file is never rejected here. -/
theorem C23_never_rejected (fit : Fitter) (L : FileData) : ∃ info, calculateDrift fit L false = .ok info := by
  rw [calculateDrift_eq]
  simp only [Bool.false_eq_true, false_and, if_false]
  split_ifs
  · cases tryRegression fit (dataSpan L) (fixPoints L) <;> exact ⟨_, rfl⟩
  · exact ⟨_, rfl⟩

theorem sum_sub_const (l : List Fix) (c : Rat) (x : Rat) :
    (l.map fun f => f.t - (x + c * f.msPPS)).sum = (l.map fun f => f.t - c * f.msPPS).sum - l.length * x := by
  induction l with
  | nil => simp
  | cons f l ih => simp only [List.map_cons, List.sum_cons, ih, List.length_cons]; push_cast; ring

/-- **C23.** With forced conversion and no usable regression, times advance by exactly 1.024 ms per logger millisecond;
without fixes they count from the epoch; with fixes the residuals have mean zero, the greatest is reported, all
fixes are counted, and a single fix is matched exactly. -/
theorem C23_nominal_clock (fit : Fitter) (L : FileData) (info : HeaderInfo)
    (hbad : L.gps = [] ∨ (0 ≤ fixSpan L ∧ ¬ CoversHalf L) ∨ ¬ Usable fit L)
    (h : calculateDrift fit L false = .ok info) :
    (∀ x y, timeOf info y - timeOf info x = 1024 / 1000000 * (y - x)) ∧
    (L.gps = [] → (∀ x, timeOf info x = 1024 / 1000000 * x) ∧ info.maxResid = none ∧ info.numNonoutliers = 0) ∧
    (L.gps ≠ [] → (L.gps.map fun f => f.t - timeOf info f.msPPS).sum = 0 ∧ info.numNonoutliers = L.gps.length ∧
      ∃ m, info.maxResid = some m ∧ (∀ f ∈ L.gps, |f.t - timeOf info f.msPPS| ≤ m) ∧
        ∃ f ∈ L.gps, |f.t - timeOf info f.msPPS| = m) ∧
    (∀ f, L.gps = [f] → timeOf info f.msPPS = f.t) ∧
    info.numGps = L.gps.length ∧ info.startMs = (L.data.head?.map Prod.fst).getD 0 ∧
    info.endMs = (L.data.getLast?.map Prod.fst).getD 0 := by
  have hinfo : info = headerOf L (zeroDrift L.gps).1 (zeroDrift L.gps).2.1 (zeroDrift L.gps).2.2 := by
    rw [calculateDrift_eq] at h
    simp only [Bool.false_eq_true, false_and, if_false] at h
    by_cases hs : sufficientB L = true
    · rw [if_pos hs] at h
      have hnone : tryRegression fit (dataSpan L) (fixPoints L) = none := by
        cases htr : tryRegression fit (dataSpan L) (fixPoints L) with
        | none => rfl
        | some r =>
          exfalso
          rcases hbad with hb | ⟨hb1, hb2⟩ | hb
          · unfold sufficientB at hs; simp [hb] at hs
          · exact hb2 (sufficientB_covers hs hb1)
          · exact hb ⟨r, tryRegression_some.mp htr⟩
      rw [hnone] at h
      simp only [Except.ok.injEq] at h
      exact h.symm
    · rw [if_neg hs] at h
      simp only [Except.ok.injEq] at h
      exact h.symm
  have hmean : L.gps ≠ [] → (L.gps.map fun f => f.t - timeOf info f.msPPS).sum = 0 := by
    intro hne
    obtain ⟨f, l, hl⟩ := List.exists_cons_of_ne_nil hne
    have hlen : (0 : Rat) < L.gps.length := by rw [hl]; simp; positivity
    have ht : (fun f : Fix => f.t - timeOf info f.msPPS) = fun f : Fix =>
        f.t - (meanRat (L.gps.map fun f => f.t - defaultDeg1 * f.msPPS) + defaultDeg1 * f.msPPS) := by
      funext f
      rw [hinfo]
      unfold timeOf headerOf zeroDrift
      rw [hl]
      simp
    rw [ht, sum_sub_const]
    unfold meanRat
    rw [List.length_map]
    field_simp
    ring
  have hres : L.gps ≠ [] → info.numNonoutliers = L.gps.length ∧
      info.maxResid = maxAbs (L.gps.map fun f => f.t - timeOf info f.msPPS) := by
    intro hne
    obtain ⟨f, l, hl⟩ := List.exists_cons_of_ne_nil hne
    have ht : (fun f : Fix => f.t - timeOf info f.msPPS) = fun f : Fix =>
        (f.t - defaultDeg1 * f.msPPS) - meanRat (L.gps.map fun f => f.t - defaultDeg1 * f.msPPS) := by
      funext f
      rw [hinfo]
      unfold timeOf headerOf zeroDrift
      rw [hl]
      simp
      ring
    rw [ht, hinfo]
    unfold headerOf zeroDrift
    rw [hl]
    simp [Function.comp_def]
  refine ⟨?_, ?_, ?_, ?_, ?_, ?_, ?_⟩
  · intro x y
    rw [hinfo]
    unfold timeOf headerOf zeroDrift
    cases L.gps <;> simp [defaultDeg1] <;> ring
  · intro hg
    rw [hinfo]
    unfold timeOf headerOf zeroDrift
    rw [hg]
    simp [defaultDeg1]
  · intro hne
    refine ⟨hmean hne, (hres hne).1, ?_⟩
    have hne' : (L.gps.map fun f => f.t - timeOf info f.msPPS) ≠ [] := by simpa using hne
    obtain ⟨m, hm⟩ : ∃ m, maxAbs (L.gps.map fun f => f.t - timeOf info f.msPPS) = some m := by
      obtain ⟨e, l, hl⟩ := List.exists_cons_of_ne_nil hne'
      rw [hl]; exact ⟨_, rfl⟩
    obtain ⟨hm1, e, he, hm2⟩ := maxAbs_spec hm
    refine ⟨m, by rw [(hres hne).2, hm], ?_, ?_⟩
    · intro f hf
      exact hm1 _ (List.mem_map.mpr ⟨f, hf, rfl⟩)
    · obtain ⟨f, hf, rfl⟩ := List.mem_map.mp he
      exact ⟨f, hf, hm2⟩
  · intro f hg
    have := hmean (by rw [hg]; simp)
    rw [hg] at this
    simp at this
    linarith
  · rw [hinfo]; rfl
  · rw [hinfo]; rfl
  · rw [hinfo]; rfl

example : calculateDrift nominalFit (fileWith 7000000 [(1000, 50), (2000, 52)]) false =
      .ok ⟨some 43, some (-116), 0, 7000000, 0, 0, 1024 / 1000000, 49464 / 1000, 2, some (61 / 125), 2⟩ ∧
    ¬ CoversHalf (fileWith 7000000 [(1000, 50), (2000, 52)]) ∧
    calculateDrift nominalFit (fileWith 7000000 []) false =
      .ok ⟨none, none, 0, 7000000, 0, 0, 1024 / 1000000, 0, 0, none, 0⟩ := by
  refine ⟨by decide +kernel, ?_, by decide +kernel⟩
  unfold CoversHalf; decide +kernel

end Gemlog
