import Verif.Model.Drift
import Mathlib.Tactic.Linarith
import Mathlib.Tactic.Ring
import Mathlib.Tactic.Positivity

/-!
# Property C21: outlier-robust regression
-/

namespace Gemlog

/-! ## Specification -/

/-- The misfit of a point. -/
def misfit (coefs : List Rat) (p : Rat × Rat) : Rat := p.2 - polyEval coefs p.1

/-- Population variance. -/
def variance (l : List Rat) : Rat :=
  (l.map fun r => (r - l.sum / l.length) ^ 2).sum / l.length

/-- Beyond four standard deviations. -/
def BeyondFourSigma (l : List Rat) (r : Rat) : Prop := 16 * variance l < r ^ 2

/-- Beyond the absolute limit (`none`: no limit). -/
def BeyondLimit (limit : Option Rat) (r : Rat) : Prop := ∃ m, limit = some m ∧ m < |r|

open Classical in
/-- Repeated trimming: as long as there are points beyond four standard deviations of the current fit, drop those; when
there are none, drop the points beyond the absolute limit; then fit again. -/
inductive Trims (fit : Fitter) (degree : Nat) (limit : Option Rat) : List (Rat × Rat) → List (Rat × Rat) → Prop
  | done (pts : List (Rat × Rat)) : Trims fit degree limit pts pts
  | sigma (pts out : List (Rat × Rat)) (c : List Rat) (hf : fit degree pts = some c)
      (h : ∃ p ∈ pts, BeyondFourSigma (pts.map (misfit c)) (misfit c p))
      (hr : Trims fit degree limit (pts.filter fun p => ¬ BeyondFourSigma (pts.map (misfit c)) (misfit c p)) out) :
      Trims fit degree limit pts out
  | limit (pts out : List (Rat × Rat)) (c : List Rat) (hf : fit degree pts = some c)
      (hs : ∀ p ∈ pts, ¬ BeyondFourSigma (pts.map (misfit c)) (misfit c p))
      (h : ∃ p ∈ pts, BeyondLimit limit (misfit c p))
      (hr : Trims fit degree limit (pts.filter fun p => ¬ BeyondLimit limit (misfit c p)) out) :
      Trims fit degree limit pts out

/-! ## Lemmas -/

theorem varRat_eq (l : List Rat) : varRat l = variance l := by
  simp [varRat, variance, meanRat]

theorem keepInliers_map (pts : List (Rat × Rat)) (g : Rat × Rat → Bool) :
    keepInliers pts (pts.map g) = pts.filter fun p => !g p := by
  unfold keepInliers
  induction pts with
  | nil => rfl
  | cons p pts ih =>
    cases h : g p <;> simp [h] <;> simpa using ih

theorem maxAbs_foldl (l : List Rat) : ∀ m : Rat, m ≤ l.foldl (fun m s => max m |s|) m ∧
    (∀ e ∈ l, |e| ≤ l.foldl (fun m s => max m |s|) m) ∧
    (l.foldl (fun m s => max m |s|) m = m ∨ ∃ e ∈ l, |e| = l.foldl (fun m s => max m |s|) m) := by
  induction l with
  | nil => intro m; simp
  | cons a l ih =>
    intro m
    obtain ⟨h1, h2, h3⟩ := ih (max m |a|)
    simp only [List.foldl_cons]
    refine ⟨le_trans (le_max_left _ _) h1, ?_, ?_⟩
    · intro e he
      rcases List.mem_cons.mp he with rfl | he
      · exact le_trans (le_max_right _ _) h1
      · exact h2 e he
    · rcases h3 with h3 | ⟨e, he, h3⟩
      · rcases max_choice m |a| with hm | hm
        · left; rw [h3, hm]
        · right; exact ⟨a, by simp, by rw [h3, hm]⟩
      · right; exact ⟨e, by simp [he], h3⟩

theorem maxAbs_spec {l : List Rat} {m : Rat} (h : maxAbs l = some m) :
    (∀ e ∈ l, |e| ≤ m) ∧ ∃ e ∈ l, |e| = m := by
  cases l with
  | nil => simp [maxAbs] at h
  | cons a l =>
    simp only [maxAbs, Option.some.injEq] at h
    obtain ⟨h1, h2, h3⟩ := maxAbs_foldl l |a|
    rw [h] at h1 h2 h3
    refine ⟨?_, ?_⟩
    · intro e he
      rcases List.mem_cons.mp he with rfl | he
      · exact h1
      · exact h2 e he
    · rcases h3 with h3 | ⟨e, he, h3⟩
      · exact ⟨a, by simp, h3.symm⟩
      · exact ⟨e, by simp [he], h3⟩

/-- The mask marks the points beyond four standard deviations, or else those beyond the limit. -/
theorem mask_cases (MAD : Option Rat) (resid : List Rat) :
    ((∃ r ∈ resid, BeyondFourSigma resid r) ∧
      outlierMask 4 MAD resid = resid.map (isStdOutlier 4 (varRat resid))) ∨
    ((∀ r ∈ resid, ¬ BeyondFourSigma resid r) ∧ outlierMask 4 MAD resid = resid.map (isMadOutlier MAD)) := by
  have hiff : ∀ r, isStdOutlier 4 (varRat resid) r = true ↔ BeyondFourSigma resid r := by
    intro r
    unfold isStdOutlier BeyondFourSigma
    rw [varRat_eq]
    norm_num
  unfold outlierMask
  by_cases h : ∃ r ∈ resid, BeyondFourSigma resid r
  · left
    refine ⟨h, ?_⟩
    simp only
    rw [if_pos]
    obtain ⟨r, hr, hb⟩ := h
    rw [List.any_map, List.any_eq_true]
    exact ⟨r, hr, by simpa using (hiff r).mpr hb⟩
  · right
    push Not at h
    refine ⟨h, ?_⟩
    simp only
    rw [if_neg]
    rw [List.any_map, List.any_eq_true]
    rintro ⟨r, hr, hb⟩
    exact h r hr ((hiff r).mp (by simpa using hb))

theorem isMad_iff (MAD : Option Rat) (r : Rat) : isMadOutlier MAD r = true ↔ BeyondLimit MAD r := by
  unfold isMadOutlier BeyondLimit
  cases MAD with
  | none => simp
  | some m => simp

theorem isStd_iff (resid : List Rat) (r : Rat) :
    isStdOutlier 4 (varRat resid) r = true ↔ BeyondFourSigma resid r := by
  unfold isStdOutlier BeyondFourSigma
  rw [varRat_eq]
  norm_num

theorem keep_shorter (pts : List (Rat × Rat)) (g : Rat × Rat → Bool) (h : (pts.map g).any id = true) :
    (keepInliers pts (pts.map g)).length < pts.length := by
  rw [keepInliers_map]
  rw [List.any_map, List.any_eq_true] at h
  obtain ⟨p, hp, hg⟩ := h
  apply List.length_filter_lt_length_iff_exists.mpr
  exact ⟨p, hp, by simpa using hg⟩

open Classical in
theorem robustGo_spec (fit : Fitter) (degree : Nat) (MAD : Option Rat) : ∀ (fuel : Nat) (pts : List (Rat × Rat)),
    pts.length < fuel →
    robustGo fit degree MAD 4 fuel pts ≠ .error .outOfFuel ∧
    ∀ r, robustGo fit degree MAD 4 fuel pts = .ok r →
      Trims fit degree MAD pts r.pts ∧ fit degree r.pts = some r.coefs ∧ r.resid = r.pts.map (misfit r.coefs) ∧
      (∀ e ∈ r.resid, ¬ BeyondFourSigma r.resid e) ∧ (∀ e ∈ r.resid, ¬ BeyondLimit MAD e) ∧
      r.num = r.pts.length ∧ (∀ e ∈ r.resid, |e| ≤ r.maxResid) ∧ ∃ e ∈ r.resid, |e| = r.maxResid := by
  intro fuel
  induction fuel with
  | zero => intro pts h; omega
  | succ fuel ih =>
    intro pts hl
    unfold robustGo
    cases hf : fit degree pts with
    | none => simp
    | some c =>
      simp only
      have hres : (pts.map fun p => p.2 - polyEval c p.1) = pts.map (misfit c) := rfl
      rw [hres]
      by_cases hm : (outlierMask 4 MAD (pts.map (misfit c))).any id = true
      · rw [if_pos hm]
        rcases mask_cases MAD (pts.map (misfit c)) with ⟨he, hmask⟩ | ⟨hno, hmask⟩
        · rw [hmask, List.map_map] at hm ⊢
          have hlt := keep_shorter pts _ hm
          obtain ⟨h1, h2⟩ := ih _ (lt_of_lt_of_le hlt (Nat.le_of_lt_succ hl))
          refine ⟨h1, fun r hr => ?_⟩
          obtain ⟨ht, hrest⟩ := h2 r hr
          refine ⟨.sigma pts r.pts c hf ?_ ?_, hrest⟩
          · obtain ⟨e, he, hb⟩ := he
            obtain ⟨p, hp, rfl⟩ := List.mem_map.mp he
            exact ⟨p, hp, hb⟩
          · rw [keepInliers_map] at ht
            convert ht using 2
            funext p
            have := isStd_iff (pts.map (misfit c)) (misfit c p)
            by_cases hb : BeyondFourSigma (pts.map (misfit c)) (misfit c p)
            · simp [hb, this.mpr hb]
            · have : isStdOutlier 4 (varRat (pts.map (misfit c))) (misfit c p) = false := by
                simpa using fun h => hb (this.mp h)
              simp [hb, this]
        · rw [hmask, List.map_map] at hm ⊢
          have hlt := keep_shorter pts _ hm
          obtain ⟨h1, h2⟩ := ih _ (lt_of_lt_of_le hlt (Nat.le_of_lt_succ hl))
          refine ⟨h1, fun r hr => ?_⟩
          obtain ⟨ht, hrest⟩ := h2 r hr
          refine ⟨.limit pts r.pts c hf (fun p hp => hno _ (List.mem_map.mpr ⟨p, hp, rfl⟩)) ?_ ?_, hrest⟩
          · rw [List.any_map, List.any_eq_true] at hm
            obtain ⟨p, hp, hb⟩ := hm
            exact ⟨p, hp, (isMad_iff _ _).mp (by simpa using hb)⟩
          · rw [keepInliers_map] at ht
            convert ht using 2
            funext p
            have := isMad_iff MAD (misfit c p)
            by_cases hb : BeyondLimit MAD (misfit c p)
            · simp [hb, this.mpr hb]
            · have : isMadOutlier MAD (misfit c p) = false := by
                simpa using fun h => hb (this.mp h)
              simp [hb, this]
      · rw [if_neg hm]
        refine ⟨by split <;> simp, fun r hr => ?_⟩
        split at hr
        · simp at hr
        · rename_i m hmax
          simp only [Except.ok.injEq] at hr
          subst hr
          obtain ⟨hmx1, hmx2⟩ := maxAbs_spec hmax
          have hclean : (∀ e ∈ pts.map (misfit c), ¬ BeyondFourSigma (pts.map (misfit c)) e) ∧
              ∀ e ∈ pts.map (misfit c), ¬ BeyondLimit MAD e := by
            rcases mask_cases MAD (pts.map (misfit c)) with ⟨⟨e, he, hb⟩, hmask⟩ | ⟨hno, hmask⟩
            · exfalso
              apply hm
              rw [hmask, List.any_map, List.any_eq_true]
              exact ⟨e, he, by simpa using (isStd_iff _ _).mpr hb⟩
            · refine ⟨hno, fun e he hb => hm ?_⟩
              rw [hmask, List.any_map, List.any_eq_true]
              exact ⟨e, he, by simpa using (isMad_iff _ _).mpr hb⟩
          exact ⟨.done _, hf, rfl, hclean.1, hclean.2, rfl, hmx1, hmx2⟩

/-! ## C21 -/

/-- **C21.** The regression terminates: the recursion bound of the model (one more than the number of points) is
never exhausted, whatever the fitter. -/
theorem C21_terminates (fit : Fitter) (degree : Nat) (MAD : Option Rat) (pts : List (Rat × Rat)) :
    robustRegress fit degree MAD pts ≠ .error .outOfFuel :=
  (robustGo_spec fit degree MAD _ pts (by omega)).1

/-- **C21.** The result is reached by trimming outliers of successive fits, and it is clean: no remaining
residual exceeds four standard deviations or the limit; the coefficients are the fit to the remaining
points; count and maximum are those of the remaining points. -/
theorem C21_trims_and_ends_clean (fit : Fitter) (degree : Nat) (MAD : Option Rat) (pts : List (Rat × Rat))
    (r : Regression) (h : robustRegress fit degree MAD pts = .ok r) :
    Trims fit degree MAD pts r.pts ∧ fit degree r.pts = some r.coefs ∧ r.resid = r.pts.map (misfit r.coefs) ∧
    (∀ e ∈ r.resid, e ^ 2 ≤ 16 * variance r.resid) ∧ (∀ e ∈ r.resid, ∀ m, MAD = some m → |e| ≤ m) ∧
    r.num = r.pts.length ∧ (∀ e ∈ r.resid, |e| ≤ r.maxResid) ∧ ∃ e ∈ r.resid, |e| = r.maxResid := by
  obtain ⟨h1, h2, h3, h4, h5, h6, h7, h8⟩ := (robustGo_spec fit degree MAD _ pts (by omega)).2 r h
  refine ⟨h1, h2, h3, ?_, ?_, h6, h7, h8⟩
  · intro e he
    have := h4 e he
    unfold BeyondFourSigma at this
    exact not_lt.mp this
  · intro e he m hm
    by_contra hlt
    exact h5 e he ⟨m, hm, not_le.mp hlt⟩

theorem trims_sublist {fit : Fitter} {degree : Nat} {limit : Option Rat} {pts out : List (Rat × Rat)}
    (h : Trims fit degree limit pts out) : out.Sublist pts := by
  induction h with
  | done => exact List.Sublist.refl _
  | sigma _ _ _ _ _ _ ih => exact ih.trans List.filter_sublist
  | limit _ _ _ _ _ _ _ ih => exact ih.trans List.filter_sublist

/-- **C21.** The points used are a subsequence of the given ones. -/
theorem C21_subsequence (fit : Fitter) (degree : Nat) (MAD : Option Rat) (pts : List (Rat × Rat))
    (r : Regression) (h : robustRegress fit degree MAD pts = .ok r) : r.pts.Sublist pts :=
  trims_sublist (C21_trims_and_ends_clean fit degree MAD pts r h).1

/-- A fitter that fits the nominal clock through the first point (for examples). -/
def demoFit : Fitter := fun _ pts =>
  match pts with
  | [] => none
  | p :: _ => some [p.2 - 1024 / 1000000 * p.1, 1024 / 1000000, 0, 0]

/-- A run in which one fix, half a second off, is removed. -/
example : (robustRegress demoFit 3 (some (1 / 100))
      [(0, 0), (125000, 128), (250000, 256 + 1 / 2), (375000, 384)]).toOption.map (fun r => (r.pts, r.num, r.maxResid))
    = some ([(0, 0), (125000, 128), (375000, 384)], 3, 0) := by
  decide +kernel

end Gemlog
