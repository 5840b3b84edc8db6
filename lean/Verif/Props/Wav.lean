import Mathlib.Tactic.Linarith
import Mathlib.Tactic.FieldSimp
import Mathlib.Tactic.Ring
import Mathlib.Algebra.Order.Group.Abs
import Mathlib.Algebra.Order.Field.Basic
import Mathlib.Algebra.Order.Field.Rat
import Verif.Model.Wav

/-!
# C75: sound files

The file holds the recorded wave form: every sample, in order, shifted and scaled so that the mean is zero and the
largest amplitude is one.
-/

namespace Gemlog

/-! ## Specification -/

/-- All samples are equal. -/
def Constant (xs : List Rat) : Prop := ∀ x ∈ xs, ∀ y ∈ xs, x = y

/-- `ys` is `xs` in other units: scaled by the positive number `a`, and shifted. -/
def Rescaled (a b : Rat) (xs ys : List Rat) : Prop := 0 < a ∧ ys = xs.map fun x => a * x + b

/-! ## Lemmas -/

theorem foldl_max_abs_le (xs : List Rat) (m b : Rat) :
    xs.foldl (fun m x => max m |x|) m ≤ b ↔ m ≤ b ∧ ∀ x ∈ xs, |x| ≤ b := by
  induction xs generalizing m with
  | nil => simp
  | cons x xs ih =>
    simp only [List.foldl_cons, ih, max_le_iff, List.mem_cons, forall_eq_or_imp]
    tauto

theorem foldl_max_abs_attained (xs : List Rat) (m : Rat) :
    xs.foldl (fun m x => max m |x|) m = m ∨ ∃ x ∈ xs, xs.foldl (fun m x => max m |x|) m = |x| := by
  induction xs generalizing m with
  | nil => simp
  | cons x xs ih =>
    simp only [List.foldl_cons]
    rcases ih (max m |x|) with h | ⟨y, hy, h⟩
    · rcases max_choice m |x| with e | e
      · left; rw [h, e]
      · right; exact ⟨x, by simp, by rw [h, e]⟩
    · right; exact ⟨y, by simp [hy], h⟩

theorem largestAbs_le (xs : List Rat) : ∀ x ∈ xs, |x| ≤ largestAbs xs :=
  ((foldl_max_abs_le xs 0 _).1 le_rfl).2

theorem largestAbs_nonneg (xs : List Rat) : 0 ≤ largestAbs xs := ((foldl_max_abs_le xs 0 _).1 le_rfl).1

theorem largestAbs_attained (xs : List Rat) (h : 0 < largestAbs xs) : ∃ x ∈ xs, largestAbs xs = |x| := by
  rcases foldl_max_abs_attained xs 0 with e | e
  · exact absurd e (ne_of_gt h)
  · exact e

theorem sum_map_affine (a b : Rat) (xs : List Rat) :
    (xs.map fun x => a * x + b).sum = a * xs.sum + b * (xs.length : Rat) := by
  induction xs with
  | nil => simp
  | cons x xs ih => simp only [List.map_cons, List.sum_cons, ih, List.length_cons, Nat.cast_add, Nat.cast_one]; ring

theorem length_cast_pos (xs : List Rat) (h : xs ≠ []) : (0 : Rat) < (xs.length : Rat) := by
  exact_mod_cast List.length_pos_iff.2 h

theorem centred_sum (xs : List Rat) (h : xs ≠ []) : (centred xs).sum = 0 := by
  have hl := length_cast_pos xs h
  have : centred xs = xs.map fun x => 1 * x + -wavMean xs := by
    unfold centred; apply List.map_congr_left; intro x _; ring
  rw [this, sum_map_affine, wavMean]
  field_simp; ring

theorem centred_affine (a b : Rat) (xs : List Rat) (h : xs ≠ []) :
    centred (xs.map fun x => a * x + b) = (centred xs).map fun x => a * x := by
  have hl := length_cast_pos xs h
  have hm : wavMean (xs.map fun x => a * x + b) = a * wavMean xs + b := by
    unfold wavMean; rw [sum_map_affine, List.length_map]; field_simp
  unfold centred
  rw [hm, List.map_map, List.map_map]
  apply List.map_congr_left; intro x _
  simp only [Function.comp]; ring

theorem largestAbs_scale (a : Rat) (ha : 0 < a) (xs : List Rat) :
    largestAbs (xs.map fun x => a * x) = a * largestAbs xs := by
  have key : ∀ (xs : List Rat) (m : Rat), (xs.map fun x => a * x).foldl (fun m x => max m |x|) (a * m) =
      a * xs.foldl (fun m x => max m |x|) m := by
    intro xs
    induction xs with
    | nil => intro m; rfl
    | cons x xs ih =>
      intro m
      simp only [List.map_cons, List.foldl_cons]
      rw [← ih, abs_mul, abs_of_pos ha, mul_max_of_nonneg _ _ ha.le]
  have := key xs 0
  rw [mul_zero] at this
  exact this

theorem scaled_scale (a : Rat) (ha : 0 < a) (xs : List Rat) : 
    largestAbs xs > 0 → scaled (xs.map fun x => a * x) = scaled xs := by
  intro h
  have h2 : largestAbs (xs.map fun x => a * x) > 0 := by rw [largestAbs_scale a ha]; exact mul_pos ha h
  unfold scaled
  rw [if_pos h, if_pos h2, List.map_map]
  apply List.map_congr_left; intro x _
  simp only [Function.comp, largestAbs_scale a ha]
  field_simp

theorem constant_iff_largestAbs (xs : List Rat) (h : xs ≠ []) : Constant xs ↔ largestAbs (centred xs) = 0 := by
  constructor
  · intro hc
    obtain ⟨x0, t, rfl⟩ := List.exists_cons_of_ne_nil h
    have hm : wavMean (x0 :: t) = x0 := by
      have hl := length_cast_pos _ h
      have : (x0 :: t) = (x0 :: t).map fun x => 0 * x + x0 := by
        conv_lhs => rw [← List.map_id (x0 :: t)]
        apply List.map_congr_left; intro x hx; simp [hc x hx x0 (by simp)]
      unfold wavMean; rw [this, sum_map_affine, List.length_map]; field_simp; ring
    apply le_antisymm _ (largestAbs_nonneg _)
    apply (foldl_max_abs_le _ _ _).2 ⟨le_rfl, _⟩
    intro y hy
    obtain ⟨x, hx, rfl⟩ := List.mem_map.1 hy
    rw [hm, hc x hx x0 (by simp)]; simp
  · intro h0 x hx y hy
    have z : ∀ x ∈ xs, x = wavMean xs := by
      intro x hx
      have := largestAbs_le (centred xs) (x - wavMean xs) (List.mem_map.2 ⟨x, hx, rfl⟩)
      rw [h0] at this
      have := abs_nonpos_iff.1 this
      linarith
    rw [z x hx, z y hy]

theorem truncRat_int (n : Int) : truncRat (n : Rat) = n := by
  unfold truncRat; split <;> simp

/-! ## Properties -/

/-- C75, wave form. Every non-empty trace at a whole sample rate is written, with that rate. The file holds the samples
in order, scaled by one positive factor and shifted; their mean is zero and none is outside of −1 to 1. If the trace
is not constant some sample reaches −1 or 1, so that these facts determine the content of the file; if it is constant, the
file is silent. -/
theorem C75_wave (xs : List Rat) (n : Int) (h : xs ≠ []) :
    ∃ ys a b, (writeWav xs (n : Rat)).1 = .ok ⟨n, ys⟩ ∧ Rescaled a b xs ys ∧ ys.length = xs.length ∧ ys.sum = 0 ∧
      (∀ y ∈ ys, -1 ≤ y ∧ y ≤ 1) ∧
      (¬ Constant xs → ∃ y ∈ ys, y = 1 ∨ y = -1) ∧ (Constant xs → ∀ y ∈ ys, y = 0) := by
  have hw : (writeWav xs (n : Rat)).1 = .ok ⟨n, scaled (centred xs)⟩ := by
    unfold writeWav
    rw [if_neg h]; dsimp only
    rw [truncRat_int, if_neg (by simp)]
  have hsum := centred_sum xs h
  by_cases hp : largestAbs (centred xs) > 0
  · have hs : scaled (centred xs) = (centred xs).map fun x => x / largestAbs (centred xs) := by
      unfold scaled; rw [if_pos hp]
    have hnc : ¬ Constant xs := by
      rw [constant_iff_largestAbs xs h]; exact ne_of_gt hp
    refine ⟨_, 1 / largestAbs (centred xs), -wavMean xs / largestAbs (centred xs), hw,
      ⟨by positivity, ?_⟩, by rw [hs]; simp [centred], ?_, ?_, ?_, fun hc => absurd hc hnc⟩
    · rw [hs]; conv_lhs => rw [centred, List.map_map]
      apply List.map_congr_left; intro x _
      simp only [Function.comp]; rw [← centred]; ring
    · have : scaled (centred xs) = (centred xs).map fun x => (1 / largestAbs (centred xs)) * x + 0 := by
        rw [hs]; apply List.map_congr_left; intro x _; ring
      rw [this, sum_map_affine, hsum]; ring
    · intro y hy
      rw [hs] at hy
      obtain ⟨x, hx, rfl⟩ := List.mem_map.1 hy
      have hle := abs_le.1 (largestAbs_le _ x hx)
      constructor
      · rw [le_div_iff₀ hp]; linarith [hle.1]
      · rw [div_le_iff₀ hp]; linarith [hle.2]
    · intro _
      obtain ⟨x, hx, e⟩ := largestAbs_attained _ hp
      refine ⟨x / largestAbs (centred xs), by rw [hs]; exact List.mem_map.2 ⟨x, hx, rfl⟩, ?_⟩
      rcases abs_choice x with e' | e'
      · left; rw [e, e']; rw [div_self]; intro h0; rw [e, h0] at hp; simp at hp
      · right; rw [e, e']; rw [div_neg, div_self]; intro h0; rw [e, h0] at hp; simp at hp
  · have hz : largestAbs (centred xs) = 0 := le_antisymm (not_lt.1 hp) (largestAbs_nonneg _)
    have hs : scaled (centred xs) = centred xs := by unfold scaled; rw [if_neg hp]
    have hc := (constant_iff_largestAbs xs h).2 hz
    have h0 : ∀ y ∈ scaled (centred xs), y = 0 := by
      intro y hy; rw [hs] at hy
      have := largestAbs_le _ y hy
      rw [hz] at this; exact abs_nonpos_iff.1 this
    refine ⟨_, 1, -wavMean xs, hw, ⟨one_pos, ?_⟩, by rw [hs]; simp [centred], by rw [hs, hsum], ?_, fun hn => absurd hc hn,
      fun _ => h0⟩
    · rw [hs]; unfold centred; apply List.map_congr_left; intro x _; ring
    · intro y hy; rw [h0 y hy]; norm_num

/-- C75, sample rate. A rate that is not a whole number is refused, as is an empty trace; no file is written. -/
theorem C75_rate (xs : List Rat) (r : Rat) :
    (xs ≠ [] → ((writeWav xs r).1 = .error .typeError ↔ ¬ ∃ n : Int, r = n)) ∧
      (writeWav [] r).1 = .error .valueError := by
  refine ⟨fun h => ?_, by simp [writeWav]⟩
  unfold writeWav
  rw [if_neg h]; dsimp only
  by_cases hr : (truncRat r : Rat) = r
  · rw [if_neg (not_not.2 hr)]
    simp only [reduceCtorEq, false_iff, not_not]
    exact ⟨_, hr.symm⟩
  · rw [if_pos hr]
    simp only [true_iff]
    rintro ⟨n, rfl⟩
    exact hr (by rw [truncRat_int])

/-- C75, amplitudes. The amplitude of a recording is lost: whatever the trace, a trace that is louder or quieter by
any factor, or that is shifted, gives the same file. Since every file of a conversion is scaled on its own, amplitudes
cannot be compared between the files of one recording, nor between instruments. -/
theorem C75_violated_amplitude (xs : List Rat) (a b : Rat) (r : Rat) (h : ¬ Constant xs) (ha : 0 < a) :
    (writeWav (xs.map fun x => a * x + b) r).1 = (writeWav xs r).1 := by
  have hne : xs ≠ [] := by rintro rfl; exact h (by intro x hx; simp at hx)
  have hp : largestAbs (centred xs) > 0 :=
    lt_of_le_of_ne (largestAbs_nonneg _) (fun e => h ((constant_iff_largestAbs xs hne).2 e.symm))
  unfold writeWav
  rw [if_neg hne, if_neg (by simpa using hne)]
  rw [centred_affine a b xs hne, scaled_scale a ha _ hp]

/-- C75, the caller's trace. Writing a trace changes it: afterwards it holds what was written to the file, in units of
the largest amplitude, instead of the recorded samples; also if the rate is refused and nothing is written. -/
theorem C75_violated_trace (xs : List Rat) (r : Rat) :
    (∀ f, (writeWav xs r).1 = .ok f → (writeWav xs r).2 = f.data) ∧
      (xs ≠ [] → (∃ x ∈ xs, |x| > 1) → (writeWav xs r).2 ≠ xs) := by
  constructor
  · intro f
    unfold writeWav
    by_cases h : xs = []
    · rw [if_pos h]; simp
    · rw [if_neg h]; dsimp only
      by_cases hr : (truncRat r : Rat) ≠ r
      · rw [if_pos hr]; simp
      · rw [if_neg hr]; simp only [Except.ok.injEq]; rintro rfl; rfl
  · rintro h ⟨x, hx, hx1⟩ e
    obtain ⟨ys, a, b, hw, -, -, -, hb, -⟩ := C75_wave xs 1 h
    have e2 : (writeWav xs r).2 = ys := by
      have : (writeWav xs r).2 = scaled (centred xs) := by
        unfold writeWav; rw [if_neg h]; dsimp only; split <;> rfl
      rw [this]
      unfold writeWav at hw
      rw [if_neg h] at hw; dsimp only at hw
      split at hw
      · simp at hw
      · simp only [Except.ok.injEq, WavFile.mk.injEq] at hw; exact hw.2
    rw [← e, e2] at hx
    have := hb x hx
    exact absurd (abs_le.2 this) (not_le.2 hx1)

/-- C75, conversions. At the rate of the instruments (100 samples per second) every non-empty segment of a conversion
is written, one file each, under the name that tells its start. -/
theorem C75_files (id : List Nat) (out : List Trace) :
    (∀ tr ∈ out, tr.data ≠ [] → ∃ ys a b, (convertedName id (bytes "wav") tr.start, .ok ⟨100, ys⟩) ∈ wavFiles id 100 out ∧
      Rescaled a b (tr.data.map fun (x : Int) => (x : Rat)) ys) ∧
    (∀ f ∈ wavFiles id 100 out, ∃ tr ∈ out, tr.data ≠ [] ∧ f.1 = convertedName id (bytes "wav") tr.start ∧
      ∃ ys, f.2 = .ok ⟨100, ys⟩ ∧ ys.length = tr.data.length) ∧
    (wavFiles id 100 out).map Prod.fst =
      (out.filter fun tr => tr.data ≠ []).map fun tr => convertedName id (bytes "wav") tr.start := by
  have key : ∀ tr : Trace, tr.data ≠ [] → ∃ ys a b,
      (writeWav (tr.data.map fun (x : Int) => (x : Rat)) 100).1 = .ok ⟨100, ys⟩ ∧
      Rescaled a b (tr.data.map fun (x : Int) => (x : Rat)) ys ∧ ys.length = tr.data.length := by
    intro tr h
    obtain ⟨ys, a, b, hw, hr, hl, -⟩ := C75_wave (tr.data.map fun (x : Int) => (x : Rat)) 100 (by simpa using h)
    exact ⟨ys, a, b, by simpa using hw, hr, by simpa using hl⟩
  refine ⟨?_, ?_, ?_⟩
  · intro tr ht hne
    obtain ⟨ys, a, b, hw, hr, -⟩ := key tr hne
    refine ⟨ys, a, b, ?_, hr⟩
    unfold wavFiles
    refine List.mem_map.2 ⟨tr, ?_, by rw [hw]⟩
    rw [List.mem_filter]
    exact ⟨ht, by simpa using List.length_pos_iff.2 hne⟩
  · intro f hf
    obtain ⟨tr, ht, rfl⟩ := List.mem_map.1 hf
    rw [List.mem_filter] at ht
    have hne : tr.data ≠ [] := List.length_pos_iff.1 (by simpa using ht.2)
    obtain ⟨ys, a, b, hw, -, hl⟩ := key tr hne
    exact ⟨tr, ht.1, hne, rfl, ys, hw, hl⟩
  · unfold wavFiles
    rw [List.map_map]
    have : (fun tr : Trace => decide (tr.data.length > 0)) = fun tr => decide (tr.data ≠ []) := by
      funext tr; simp only [decide_eq_decide]; exact List.length_pos_iff
    rw [this]; rfl

/-! ## Examples -/

example : (writeWav [10, 12, 8, 14] 100).1 = .ok ⟨100, [-1/3, 1/3, -1, 1]⟩ := by decide +kernel

example : (writeWav [7, 7] 100).1 = .ok ⟨100, [0, 0]⟩ := by decide +kernel

example : (writeWav [1, 2] (1/2)).1 = .error .typeError := by decide +kernel

/-- A storm and a calm hour give the same file. -/
example : (writeWav [1, -1, 2] 100).1 = (writeWav [1000, -1000, 2000] 100).1 := by decide +kernel

example : ¬ Constant [1, -1, 2] := fun h => absurd (h 1 (by simp) (-1) (by simp)) (by decide +kernel)

example : wavFiles (bytes "..077..HDF") 100 [⟨158000000000, [5, 7]⟩, ⟨158000000300, []⟩] =
    [(bytes "2020-01-26T00_53_20...077..HDF.wav", .ok ⟨100, [-1, 1]⟩)] := by decide +kernel

end Gemlog
