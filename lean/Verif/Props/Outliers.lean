import Verif.Model.Outliers
import Verif.Lemmas.Median
import Verif.Spec.Stats
import Mathlib.Tactic.Ring
import Mathlib.Tactic.Positivity
import Mathlib.Tactic.FieldSimp
import Mathlib.Tactic.NormNum

/-!
# C48: removing position outliers is safe
-/

namespace Gemlog

/-- The computed median is the median. -/
theorem medianRat_isMedian (v : List Rat) (hv : v ≠ []) : Stats.IsMedian (medianRat v) v := by
  have hp := sortRat_perm v
  have hlen := hp.length_eq
  have hpos : 0 < v.length := List.length_pos_iff.mpr hv
  refine ⟨sortRat v, hp, sortRat_sorted v, ?_⟩
  unfold medianRat
  simp only
  by_cases hodd : (sortRat v).length % 2 = 1
  · left
    rw [if_pos hodd]
    refine ⟨(sortRat v).take ((sortRat v).length / 2), (sortRat v).drop ((sortRat v).length / 2 + 1), ?_, ?_⟩
    · rw [List.getD_eq_getElem _ _ (by omega)]
      rw [List.getElem_cons_drop, List.take_append_drop]
    · rw [List.length_take, List.length_drop]; omega
  · right
    rw [if_neg hodd]
    refine ⟨(sortRat v).take ((sortRat v).length / 2 - 1), (sortRat v).drop ((sortRat v).length / 2 + 1), _, _, ?_, ?_, rfl⟩
    · rw [List.getD_eq_getElem _ _ (show (sortRat v).length / 2 - 1 < _ by omega),
        List.getD_eq_getElem _ _ (show (sortRat v).length / 2 < _ by omega)]
      have e : (sortRat v).length / 2 = (sortRat v).length / 2 - 1 + 1 := by omega
      have h1 : (sortRat v)[(sortRat v).length / 2]'(by omega) :: (sortRat v).drop ((sortRat v).length / 2 + 1) =
          (sortRat v).drop ((sortRat v).length / 2 - 1 + 1) := by
        rw [List.getElem_cons_drop]; congr 1
      rw [h1, List.getElem_cons_drop, List.take_append_drop]
    · rw [List.length_take, List.length_drop]; omega

/-- The squared comparison is the comparison with the standard deviation. -/
theorem closeTo_iff (x m : Rat) (v : List Rat) :
    closeTo x m (varRat v) = true ↔ ((|x - m| : Rat) : Real) < 5 * (1 / 100000 + Stats.std v) := by
  have hvar : varRat v = Stats.mean (v.map fun x => (x - Stats.mean v) ^ 2) := rfl
  have hnn : 0 ≤ varRat v := by
    unfold varRat meanRat
    apply div_nonneg
    · apply List.sum_nonneg
      intro y hy
      obtain ⟨z, _, rfl⟩ := List.mem_map.mp hy
      positivity
    · positivity
  have hstd : Stats.std v = Real.sqrt ((varRat v : Rat) : Real) := by rw [hvar]; rfl
  rw [hstd]
  have hnn' : (0 : Real) ≤ ((varRat v : Rat) : Real) := by exact_mod_cast hnn
  have hsq := Real.mul_self_sqrt hnn'
  have hs0 := Real.sqrt_nonneg ((varRat v : Rat) : Real)
  unfold closeTo
  simp only [Bool.or_eq_true, decide_eq_true_eq]
  generalize |x - m| = a
  generalize Real.sqrt ((varRat v : Rat) : Real) = s at *
  have c1 : a < 5 / 100000 ↔ (a : Real) < 5 / 100000 := by
    rw [← Rat.cast_lt (K := Real)]; norm_num
  have c2 : (a - 5 / 100000) * (a - 5 / 100000) < 25 * varRat v ↔
      ((a : Real) - 5 / 100000) * ((a : Real) - 5 / 100000) < 25 * (s * s) := by
    rw [← Rat.cast_lt (K := Real), hsq]; push_cast; norm_num
  rw [c1, c2]
  constructor
  · rintro (h | h)
    · linarith
    · by_contra hc
      push Not at hc
      nlinarith
  · intro h
    by_cases h1 : (a : Real) < 5 / 100000
    · exact .inl h1
    · right
      push Not at h1
      nlinarith

theorem sum_ge_count {α : Type} (l : List α) (f : α → Rat) (p : α → Bool) (c : Rat) (hf : ∀ x ∈ l, 0 ≤ f x)
    (hp : ∀ x ∈ l, p x = true → c ≤ f x) : c * (l.countP p : Rat) ≤ (l.map f).sum := by
  induction l with
  | nil => simp
  | cons a l ih =>
    have ih := ih (fun x hx => hf x (by simp [hx])) fun x hx => hp x (by simp [hx])
    rw [List.countP_cons, List.map_cons, List.sum_cons]
    have h0 := hf a (by simp)
    by_cases ha : p a = true
    · have := hp a (by simp) ha
      rw [if_pos ha]
      push_cast
      linarith
    · rw [if_neg ha]
      push_cast
      linarith

theorem sum_shift (l : List Rat) (m d : Rat) (hl : l ≠ []) (hm : m = l.sum / l.length) :
    (l.map fun x => (x - m + d) ^ 2).sum = (l.map fun x => (x - m) ^ 2).sum + l.length * d ^ 2 := by
  have h0 : (l.length : Rat) ≠ 0 := by
    have := List.length_pos_iff.mpr hl
    positivity
  have hs : l.sum = l.length * m := by rw [hm]; field_simp
  have key : ∀ l : List Rat, (l.map fun x => (x - m + d) ^ 2).sum =
      (l.map fun x => (x - m) ^ 2).sum + 2 * d * (l.sum - l.length * m) + l.length * d ^ 2 := by
    intro l
    induction l with
    | nil => simp
    | cons a l ih =>
      simp only [List.map_cons, List.sum_cons, ih, List.length_cons]
      push_cast
      ring
  rw [key l, hs]
  ring

/-- The median is within one standard deviation of the mean. -/
theorem median_near_mean (l : List Rat) (hl : l ≠ []) : (medianRat l - meanRat l) ^ 2 ≤ varRat l := by
  have hpos : (0 : Rat) < l.length := by
    have := List.length_pos_iff.mpr hl
    positivity
  obtain ⟨h1, h2⟩ := median_half l hl
  have hvar : (l.map fun x => (x - meanRat l) ^ 2).sum = l.length * varRat l := by
    unfold varRat
    rw [show meanRat (l.map fun r => (r - meanRat l) ^ 2) = (l.map fun r => (r - meanRat l) ^ 2).sum / l.length by
      unfold meanRat; rw [List.length_map]]
    field_simp
  generalize hm : medianRat l = m at *
  have shift := fun d => sum_shift l (meanRat l) d hl rfl
  rcases le_total (meanRat l) m with hd | hd
  · have hc := sum_ge_count l (fun x => (x - meanRat l + (m - meanRat l)) ^ 2) (fun x => decide (m ≤ x))
      (4 * (m - meanRat l) ^ 2) (fun x _ => by positivity) (by
        intro x _ hx
        simp only [decide_eq_true_eq] at hx
        nlinarith)
    rw [shift, hvar] at hc
    have h1' : (l.length : Rat) ≤ 2 * ((l.countP fun x => decide (m ≤ x) : Nat) : Rat) := by exact_mod_cast h1
    generalize ((l.countP fun x => decide (m ≤ x) : Nat) : Rat) = c at *
    have hq : 0 ≤ (m - meanRat l) ^ 2 := by positivity
    have : (l.length : Rat) * ((m - meanRat l) ^ 2) ≤ l.length * varRat l := by nlinarith
    exact le_of_mul_le_mul_left this hpos
  · have hc := sum_ge_count l (fun x => (x - meanRat l + (m - meanRat l)) ^ 2) (fun x => decide (x ≤ m))
      (4 * (m - meanRat l) ^ 2) (fun x _ => by positivity) (by
        intro x _ hx
        simp only [decide_eq_true_eq] at hx
        nlinarith)
    rw [shift, hvar] at hc
    have h1' : (l.length : Rat) ≤ 2 * ((l.countP fun x => decide (x ≤ m) : Nat) : Rat) := by exact_mod_cast h2
    generalize ((l.countP fun x => decide (x ≤ m) : Nat) : Rat) = c at *
    have hq : 0 ≤ (m - meanRat l) ^ 2 := by positivity
    have : (l.length : Rat) * ((m - meanRat l) ^ 2) ≤ l.length * varRat l := by nlinarith
    exact le_of_mul_le_mul_left this hpos

/-- At most one sixteenth of the values are far from the median. -/
theorem few_far (l : List Rat) : 16 * (l.countP fun x => !closeTo x (medianRat l) (varRat l)) ≤ l.length := by
  by_cases hl : l = []
  · subst hl; simp
  have hpos : (0 : Rat) < l.length := by
    have := List.length_pos_iff.mpr hl
    positivity
  have hmm := median_near_mean l hl
  have hvar : (l.map fun x => (x - meanRat l) ^ 2).sum = l.length * varRat l := by
    unfold varRat
    rw [show meanRat (l.map fun r => (r - meanRat l) ^ 2) = (l.map fun r => (r - meanRat l) ^ 2).sum / l.length by
      unfold meanRat; rw [List.length_map]]
    field_simp
  have hc := sum_ge_count l (fun x => (x - meanRat l) ^ 2) (fun x => !closeTo x (medianRat l) (varRat l))
    (16 * varRat l + (5 / 100000) ^ 2) (fun x _ => by positivity) (by
      intro x _ hx
      unfold closeTo at hx
      simp only [Bool.not_eq_true', Bool.or_eq_false_iff, decide_eq_false_iff_not, not_lt] at hx
      obtain ⟨hx1, hx2⟩ := hx
      have htri : |x - medianRat l| ≤ |x - meanRat l| + |medianRat l - meanRat l| := by
        have := abs_sub_le x (meanRat l) (medianRat l)
        rwa [abs_sub_comm (meanRat l)] at this
      rw [← sq_abs (x - meanRat l)]
      rw [← sq_abs (medianRat l - meanRat l)] at hmm
      have hd0 := abs_nonneg (medianRat l - meanRat l)
      have hy0 := abs_nonneg (x - meanRat l)
      generalize |x - medianRat l| = a at *
      generalize |x - meanRat l| = y at *
      generalize |medianRat l - meanRat l| = d at *
      have h5 : 5 * d ≤ a - 5 / 100000 := by
        by_contra hcon
        push Not at hcon
        nlinarith
      have h6 : 4 / 5 * (a - 5 / 100000) + 5 / 100000 ≤ y := by linarith
      nlinarith)
  rw [hvar] at hc
  generalize hcc : (l.countP fun x => !closeTo x (medianRat l) (varRat l)) = c at *
  have hv0 : 0 ≤ varRat l := le_trans (by positivity) hmm
  have hc0 : (0 : Rat) ≤ c := by positivity
  have : (16 * c : Rat) ≤ l.length := by
    rcases eq_or_lt_of_le hv0 with hv | hv
    · rw [← hv] at hc
      nlinarith
    · by_contra hcon
      push Not at hcon
      nlinarith
  exact_mod_cast this

/-- **C48, one pass.** A pass keeps, in their order, exactly the points whose latitude and longitude are each within
`5 (10⁻⁵ + standard deviation)` of the median; it removes at most one eighth of the points. -/
theorem C48_pass (x : List GpsRow) (hx : x ≠ []) :
    (outlierPass x).Sublist x ∧ 7 * x.length ≤ 8 * (outlierPass x).length ∧
    ∃ mlat mlon, Stats.IsMedian mlat (x.map GpsRow.lat) ∧ Stats.IsMedian mlon (x.map GpsRow.lon) ∧
      ∀ p, p ∈ outlierPass x ↔ p ∈ x ∧
        ((|p.lat - mlat| : Rat) : Real) < 5 * (1 / 100000 + Stats.std (x.map GpsRow.lat)) ∧
        ((|p.lon - mlon| : Rat) : Real) < 5 * (1 / 100000 + Stats.std (x.map GpsRow.lon)) := by
  refine ⟨List.filter_sublist, ?_, medianRat (x.map GpsRow.lat), medianRat (x.map GpsRow.lon),
    medianRat_isMedian _ (by simpa using hx), medianRat_isMedian _ (by simpa using hx), ?_⟩
  · have h1 := few_far (x.map GpsRow.lat)
    have h2 := few_far (x.map GpsRow.lon)
    rw [List.countP_map, List.length_map] at h1 h2
    unfold outlierPass
    simp only
    generalize medianRat (x.map GpsRow.lat) = m1 at *
    generalize medianRat (x.map GpsRow.lon) = m2 at *
    generalize varRat (x.map GpsRow.lat) = v1 at *
    generalize varRat (x.map GpsRow.lon) = v2 at *
    rw [← List.countP_eq_length_filter]
    have hsum : x.length ≤ (x.countP fun p => closeTo p.lat m1 v1 && closeTo p.lon m2 v2) +
        (x.countP ((fun x => !closeTo x m1 v1) ∘ GpsRow.lat)) + x.countP ((fun x => !closeTo x m2 v2) ∘ GpsRow.lon) := by
      clear h1 h2 hx
      induction x with
      | nil => simp
      | cons a l ih =>
        simp only [Function.comp_def] at ih
        simp only [List.countP_cons, List.length_cons, Function.comp_def]
        cases h1 : closeTo a.lat m1 v1 <;> cases h2 : closeTo a.lon m2 v2 <;> simp <;> omega
    omega
  · intro p
    unfold outlierPass
    simp only [List.mem_filter, Bool.and_eq_true, closeTo_iff]

/-- The points kept are the result of passes, each of which removes points, up to a pass that removes none. -/
inductive Passes : List GpsRow → List GpsRow → Prop where
  | done (x : List GpsRow) (h : outlierPass x = x) : Passes x x
  | more (x y : List GpsRow) (h : (outlierPass x).length < x.length) (r : Passes (outlierPass x) y) : Passes x y

theorem removeOutliersGo_passes : ∀ (fuel : Nat) (x : List GpsRow), x.length ≤ fuel → Passes x (removeOutliersGo fuel x)
  | 0, x, h => by
    have : x = [] := List.length_eq_zero_iff.mp (by omega)
    subst this
    exact .done [] rfl
  | fuel + 1, x, h => by
    rw [removeOutliersGo]
    split
    · rename_i hl
      exact .more x _ hl (removeOutliersGo_passes fuel _ (by omega))
    · rename_i hl
      refine .done x ?_
      exact List.Sublist.eq_of_length_le List.filter_sublist (by omega)

/-- **C48.** For every list of positions, outlier removal consists of passes, each of which (`C48_pass`) removes at least
one and at most one eighth of the points, and ends when a pass removes none. The result keeps the order, is not empty if the
list was not, and all its points are within `5 (10⁻⁵ + standard deviation)` of its medians. -/
theorem C48_safe (x : List GpsRow) :
    Passes x (removeOutliers x) ∧ (removeOutliers x).Sublist x ∧ (x ≠ [] → removeOutliers x ≠ []) ∧
    (x ≠ [] → ∃ mlat mlon, Stats.IsMedian mlat ((removeOutliers x).map GpsRow.lat) ∧
      Stats.IsMedian mlon ((removeOutliers x).map GpsRow.lon) ∧ ∀ p ∈ removeOutliers x,
        ((|p.lat - mlat| : Rat) : Real) < 5 * (1 / 100000 + Stats.std ((removeOutliers x).map GpsRow.lat)) ∧
        ((|p.lon - mlon| : Rat) : Real) < 5 * (1 / 100000 + Stats.std ((removeOutliers x).map GpsRow.lon))) := by
  have h := removeOutliersGo_passes x.length x (Nat.le_refl _)
  have key : ∀ x y, Passes x y → y.Sublist x ∧ (x ≠ [] → y ≠ []) ∧ outlierPass y = y := by
    intro x y h
    induction h with
    | done x h => exact ⟨List.Sublist.refl _, id, h⟩
    | more x y hl _ ih =>
      obtain ⟨h1, h2, h3⟩ := ih
      refine ⟨h1.trans List.filter_sublist, ?_, h3⟩
      intro hx
      apply h2
      obtain ⟨_, h7, _⟩ := C48_pass x hx
      intro he
      rw [he, List.length_nil] at h7
      have := List.length_pos_iff.mpr hx
      omega
  obtain ⟨k1, k2, k3⟩ := key x _ h
  refine ⟨h, k1, k2, ?_⟩
  intro hx
  obtain ⟨_, _, m1, m2, hm1, hm2, hp⟩ := C48_pass (removeOutliersGo x.length x) (k2 hx)
  refine ⟨m1, m2, hm1, hm2, ?_⟩
  intro p hpm
  have := (hp p).mp (by rw [k3]; exact hpm)
  exact this.2

/-- Twenty-nine points at one place and one a degree away: the distant one goes, the others stay. -/
example : removeOutliers (List.replicate 29 ⟨43, -116, 0⟩ ++ [⟨44, -116, 1⟩]) = List.replicate 29 ⟨43, -116, 0⟩ := by
  decide +kernel

/-- With few points even a distant one stays: seventeen are needed for one to be five standard deviations away. -/
example : removeOutliers (List.replicate 9 ⟨43, -116, 0⟩ ++ [⟨44, -116, 1⟩]) =
    List.replicate 9 ⟨43, -116, 0⟩ ++ [⟨44, -116, 1⟩] := by
  decide +kernel

end Gemlog
