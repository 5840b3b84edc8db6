import Verif.Lemmas.Millis

/-!
# Properties C07, C08, C09: millisecond counter unwrapping
-/

namespace Gemlog

/-- `s` is a possible reading of a counter that wraps at `R` when the true value is `t`. -/
def WrappedReading (R t s : Rat) : Prop := 0 ≤ s ∧ s < R ∧ ∃ k : Int, t = s + k * R

/-! ## C07 -/

/-- **C07.** Unwrapping a new reading against an old value returns a value that is congruent to the
reading modulo the rollover and lies in the window
`[old - maxNegative, old - maxNegative + rollover)`. -/
theorem C07_unwrap_spec (new old maxNeg R : Rat) (hR : 0 < R) :
    (∃ k : Int, unwrapMillis new old maxNeg R = new + k * R) ∧
    old - maxNeg ≤ unwrapMillis new old maxNeg R ∧
    unwrapMillis new old maxNeg R < old - maxNeg + R := by
  unfold unwrapMillis
  obtain ⟨k, hk⟩ := pyMod_spec (new - pyMod old R + maxNeg) R
  obtain ⟨j, hj⟩ := pyMod_spec old R
  have h0 := pyMod_nonneg (new - pyMod old R + maxNeg) hR
  have h1 := pyMod_lt (new - pyMod old R + maxNeg) hR
  refine ⟨⟨j - k, ?_⟩, by linarith, by linarith⟩
  push_cast; linarith

/-- **C07 (uniqueness).** It is the only such value: any `v` congruent to the reading in the window
is the returned one. -/
theorem C07_unwrap_unique (new old maxNeg R v : Rat) (hR : 0 < R) (k : Int)
    (hk : v = new + k * R) (h0 : old - maxNeg ≤ v) (h1 : v < old - maxNeg + R) :
    unwrapMillis new old maxNeg R = v := by
  obtain ⟨⟨j, hj⟩, ha, hb⟩ := C07_unwrap_spec new old maxNeg R hR
  have := eq_of_mod_range (a := unwrapMillis new old maxNeg R - (old - maxNeg))
    (b := v - (old - maxNeg)) (r := R) (k := j - k) (by linarith) (by linarith) (by linarith)
    (by linarith) (by push_cast; linarith)
  linarith

example : unwrapMillis 3 8190 (2 ^ 12) (2 ^ 13) = 8195 := by decide +kernel
example : unwrapMillis 8190 16385 (2 ^ 12) (2 ^ 13) = 16382 := by decide +kernel

/-! ## C08 -/

/-- **C08.** If the true clock `T` moves by less than half a rollover between lines and starts within
half a rollover of `offset`, then unwrapping the wrapped readings `s` returns exactly `T`. -/
theorem C08_true_clock_recovered (R offset : Rat) (hR : 0 < R) (T s : List Rat)
    (hs : List.Forall₂ (WrappedReading R) T s)
    (hstep : List.IsChain (fun a b => b - a < R / 2 ∧ -(R / 2) < b - a) T)
    (hne : T ≠ [])
    (hfirst : ∀ t ∈ T.head?, -(R / 2) ≤ t - offset ∧ t - offset < R / 2) :
    correctedMillis R offset s = some T := by
  cases hs with
  | nil => exact absurd rfl hne
  | cons hx hrest =>
    rename_i t x T s
    obtain ⟨hx0, hxR, i, hi⟩ := hx
    have hw := walk_true hR T s t x i 0 hrest hx0 hxR hi hstep
    have h1 := hfirst t (by simp)
    have hraw : correctedRaw R (x :: s) = x :: T.map (fun t => t + ((0 - i : Int) : Rat) * R) := by
      rw [correctedRaw_eq_walk]
      simp only [walk, stepDelta]
      simp [hw]
    have hsh : offsetShift R offset x = i * R := by
      obtain ⟨j, hj⟩ := pyMod_spec offset R
      have : pyMod (x - pyMod offset R + R / 2) R = t - offset + R / 2 := by
        refine pyMod_eq (k := j - i) hR ?_ (by linarith) (by linarith)
        push_cast; linarith
      unfold offsetShift
      rw [this, hi]; ring
    unfold correctedMillis
    rw [hraw]
    simp only [hsh, List.map_cons, List.map_map, Option.some.injEq, List.cons.injEq]
    refine ⟨by rw [hi], ?_⟩
    conv_rhs => rw [← List.map_id T]
    apply List.map_congr_left
    intro a _
    simp only [Function.comp, id]
    push_cast; ring

/-- A clock crossing a roll-over, with a small backward step, as it occurs between D and G lines. -/
example : correctedMillis (2 ^ 13) 8000 [8180, 8190, 8, 2, 18]
    = some [8180, 8190, 8200, 8194, 8210] := by decide +kernel

/-- The hypotheses of `C08_true_clock_recovered` are met by that clock. -/
example : List.Forall₂ (WrappedReading (2 ^ 13)) [8180, 8190, 8200, 8194, 8210]
      [8180, 8190, 8, 2, 18] ∧
    List.IsChain (fun a b : Rat => b - a < (2 ^ 13) / 2 ∧ -((2 ^ 13) / 2) < b - a)
      [8180, 8190, 8200, 8194, 8210] := by
  constructor
  · refine .cons ⟨by norm_num, by norm_num, 0, by norm_num⟩
      (.cons ⟨by norm_num, by norm_num, 0, by norm_num⟩
      (.cons ⟨by norm_num, by norm_num, 1, by norm_num⟩
      (.cons ⟨by norm_num, by norm_num, 1, by norm_num⟩
      (.cons ⟨by norm_num, by norm_num, 1, by norm_num⟩ .nil))))
  · simp; norm_num

/-- **C08 (no assumption on the clock).** For arbitrary readings each corrected time is congruent to
its reading modulo the rollover, and the first one lies within half a rollover of `offset`. -/
theorem C08_corrected_congruent (R offset : Rat) (hR : 0 < R) (s out : List Rat)
    (h : correctedMillis R offset s = some out) :
    List.Forall₂ (fun m x => ∃ k : Int, m = x + k * R) out s ∧
    ∀ m ∈ out.head?, -(R / 2) ≤ m - offset ∧ m - offset < R / 2 := by
  have key : ∀ (c : Rat) (hc : ∃ k : Int, c = k * R) (s : List Rat) (prev : Option Rat) (k : Int),
      List.Forall₂ (fun m x => ∃ k : Int, m = x + k * R)
        ((walk R prev k s).map fun m => m + c) s := by
    intro c hc s
    induction s with
    | nil => intro prev k; simp [walk]
    | cons x s ih =>
      intro prev k
      obtain ⟨i, hi⟩ := hc
      simp only [walk, List.map_cons]
      refine .cons ⟨(k + stepDelta R prev x) + i, ?_⟩ (ih _ _)
      rw [hi]; push_cast; ring
  cases s with
  | nil => simp [correctedMillis, correctedRaw_eq_walk, walk] at h
  | cons x s =>
    unfold correctedMillis at h
    rw [correctedRaw_eq_walk] at h
    have hcons : walk R none 0 (x :: s) = x :: walk R (some x) 0 s := by simp [walk, stepDelta]
    rw [hcons] at h
    simp only [Option.some.injEq] at h
    obtain ⟨j, hj⟩ := pyMod_spec offset R
    obtain ⟨i, hi⟩ := pyMod_spec (x - pyMod offset R + R / 2) R
    have h0 := pyMod_nonneg (x - pyMod offset R + R / 2) hR
    have h1 := pyMod_lt (x - pyMod offset R + R / 2) hR
    have hshift : ∃ k : Int, offsetShift R offset x = k * R :=
      ⟨j - i, by unfold offsetShift; push_cast; linarith⟩
    constructor
    · rw [← h, ← hcons]; exact key _ hshift _ _ _
    · rw [← h]
      intro m hm
      simp only [List.map_cons, List.head?_cons, Option.mem_def, Option.some.injEq] at hm
      rw [← hm]; unfold offsetShift
      constructor <;> linarith

/-! ## C09 -/

/-- **C09.** Production and reference unwrapping agree on all sequences of counts in `[0, 8192)`
without a jump of exactly `+4096`, up to the multiple of 8192 contained in `offset`: the reference reader starts from
`offset % 8192`. -/
theorem C09_fast_eq_slow (offset : Rat) (s : List Rat) (hne : s ≠ [])
    (hrange : ∀ x ∈ s, 0 ≤ x ∧ x < 8192)
    (hjump : List.IsChain (fun a b => b - a ≠ 4096) s) :
    ∃ k : Int, (k : Rat) * 8192 = offset - pyMod offset 8192 ∧ correctedMillis (2 ^ 13) offset s
      = some ((slowUnwrap offset s).map fun m => m + (k : Rat) * 8192) := by
  have hR : (0 : Rat) < 2 ^ 13 := by norm_num
  have key : ∀ (s : List Rat) (p : Rat) (m : Rat) (k i : Int),
      (∀ x ∈ s, 0 ≤ x ∧ x < 8192) → 0 ≤ p → p < 8192 → m = p + i * 8192 →
      List.IsChain (fun a b => b - a ≠ 4096) (p :: s) →
      walk (2 ^ 13) (some p) k s
        = (slowUnwrapFrom m s).map (fun m => m + ((k - i : Int) : Rat) * 8192) := by
    intro s
    induction s with
    | nil => intros; simp [walk, slowUnwrapFrom]
    | cons x s ih =>
      intro p m k i hr hp0 hp1 hm hch
      obtain ⟨hx0, hx1⟩ := hr x (by simp)
      rw [List.isChain_cons_cons] at hch
      obtain ⟨hj, hch⟩ := hch
      have hU : unwrapMillis x m (2 ^ 12) (2 ^ 13)
          = x + ((i + stepDelta (2 ^ 13) (some p) x : Int) : Rat) * 8192 := by
        apply C07_unwrap_unique (k := i + stepDelta (2 ^ 13) (some p) x) _ _ _ _ _ hR
        · norm_num
        · push_cast; rw [hm]
          simp only [stepDelta]
          split_ifs <;> push_cast <;> norm_num at * <;> linarith
        · push_cast; rw [hm]
          simp only [stepDelta]
          have hlt : ¬ (2 ^ 13 / 2 : Rat) < x - p → x - p < 4096 := by
            intro h
            rcases lt_or_eq_of_le (not_lt.mp h) with h | h
            · norm_num at h; linarith
            · exfalso; apply hj; rw [h]; norm_num
          split_ifs with h1 h2 h2
          · norm_num at *; linarith
          · norm_num at *; linarith
          · norm_num at *; linarith
          · have := hlt h2; norm_num at *; linarith
      simp only [walk, slowUnwrapFrom, List.map_cons]
      rw [ih x (unwrapMillis x m (2 ^ 12) (2 ^ 13)) (k + stepDelta (2 ^ 13) (some p) x)
        (i + stepDelta (2 ^ 13) (some p) x)
        (fun y hy => hr y (by simp [hy])) hx0 hx1 hU hch]
      congr 1
      · rw [hU]; push_cast; ring
      · have : k + stepDelta (2 ^ 13) (some p) x - (i + stepDelta (2 ^ 13) (some p) x) = k - i := by
          ring
        rw [this]
  cases s with
  | nil => exact absurd rfl hne
  | cons x s =>
    obtain ⟨hx0, hx1⟩ := hrange x (by simp)
    obtain ⟨j, hj⟩ := pyMod_spec offset (2 ^ 13)
    obtain ⟨⟨i, hi⟩, _, _⟩ := C07_unwrap_spec x (pyMod offset (2 ^ 13)) (2 ^ 12) (2 ^ 13) hR
    have hi' : unwrapMillis x (pyMod offset (2 ^ 13)) (2 ^ 12) (2 ^ 13) = x + i * 8192 := by
      rw [hi]; norm_num
    have hk := key s x _ 0 i (fun y hy => hrange y (by simp [hy])) hx0 hx1 hi' hjump
    have hmm : pyMod (pyMod offset (2 ^ 13)) (2 ^ 13) = pyMod offset (2 ^ 13) :=
      pyMod_eq (k := 0) hR (by simp) (pyMod_nonneg _ hR) (pyMod_lt _ hR)
    have hsh : offsetShift (2 ^ 13) offset x = ((i + j : Int) : Rat) * 8192 := by
      have h2 := hi'
      unfold unwrapMillis at h2
      rw [hmm] at h2
      unfold offsetShift
      have : (2 ^ 13 / 2 : Rat) = 2 ^ 12 := by norm_num
      rw [this]
      push_cast
      norm_num at *
      linarith
    refine ⟨j, by norm_num at hj; linarith, ?_⟩
    unfold correctedMillis
    rw [correctedRaw_eq_walk]
    simp only [walk, stepDelta, slowUnwrap, slowUnwrapFrom, List.map_cons, Option.some.injEq,
      add_zero, Int.cast_zero, zero_mul, zero_add, List.cons.injEq, hsh]
    refine ⟨by rw [hi']; push_cast; ring, ?_⟩
    rw [hk, List.map_map]
    apply List.map_congr_left
    intro a _
    simp only [Function.comp]
    push_cast; ring

example : (∀ x ∈ [8180, 8190, 8, 2, (18 : Rat)], 0 ≤ x ∧ x < 8192) ∧
    List.IsChain (fun a b => b - a ≠ 4096) [8180, 8190, 8, 2, (18 : Rat)] := by
  constructor
  · decide +kernel
  · simp; norm_num

/-- **C09 (the exclusion is needed).** At a jump of exactly `+4096` the two readers disagree. -/
theorem C09_half_rollover_differs :
    correctedMillis (2 ^ 13) 0 [0, 4096] = some [0, 4096] ∧ slowUnwrap 0 [0, 4096] = [0, -4096] := by
  decide +kernel

end Gemlog
