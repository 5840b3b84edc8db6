import Verif.Model.Interp
import Mathlib.Data.Rat.Floor
import Mathlib.Tactic.Linarith
import Mathlib.Tactic.Ring
import Mathlib.Tactic.FieldSimp
import Mathlib.Tactic.LinearCombination

/-!
# Properties C26-C28: resampling

The theorems hold for every spline constructor.
-/

namespace Gemlog

/-! ## Specification -/

/-- A step of the record at which it is interrupted: more than 25 ms forward, or backward, and neither beginning at
the first time nor ending at the last time of the record. -/
def InnerGap (first last a b : Rat) : Prop := (b - a > 25 / 1000 ∨ b < a) ∧ first < a ∧ b < last

open Classical in
/-- Add a time in front of the runs that follow it. -/
noncomputable def addTime (first last a : Rat) : List (List Rat) → List (List Rat)
  | [] => [[a]]
  | [] :: rs => [a] :: rs
  | (b :: r) :: rs => if InnerGap first last a b then [a] :: (b :: r) :: rs else (a :: b :: r) :: rs

/-- The record split into runs at the interruptions. -/
noncomputable def runs (first last : Rat) : List Rat → List (List Rat)
  | [] => []
  | a :: l => addTime first last a (runs first last l)

/-- First and last time of a run. -/
def runLimits (r : List Rat) : Rat × Rat := (r.headD 0, r.getLastD 0)

/-- Time in seconds of sample number `k` of a trace. -/
def Trace.time (tr : Trace) (k : Nat) : Rat := ((tr.start : Rat) + k) / 100

/-! ## Rounding -/

theorem npRound_near (x : Rat) : |(npRound x : Rat) - x| ≤ 1 / 2 := by
  unfold npRound
  have h1 := Int.floor_le x
  have h2 := Int.lt_floor_add_one x
  simp only
  rw [abs_le]
  split_ifs with h h' h''
  · constructor <;> linarith
  · push_cast; constructor <;> linarith
  · constructor <;> linarith
  · push_cast; constructor <;> linarith

/-- `x` is not halfway between two integers. -/
def NotHalf (x : Rat) : Prop := ∀ k : Int, x ≠ k + 1 / 2

theorem npRound_add (x : Rat) (hx : NotHalf x) (k : Int) : npRound (x + k) = npRound x + k := by
  unfold npRound
  have hf : ⌊x + (k : Rat)⌋ = ⌊x⌋ + k := Int.floor_add_intCast x k
  simp only [hf]
  have he : x + (k : Rat) - ((⌊x⌋ + k : Int) : Rat) = x - (⌊x⌋ : Rat) := by push_cast; ring
  rw [he]
  have hne : x - (⌊x⌋ : Rat) ≠ 1 / 2 := by
    intro h
    exact hx ⌊x⌋ (by linarith)
  split_ifs with h1 h2
  · rfl
  · ring
  all_goals exact absurd (le_antisymm (not_lt.mp h2) (not_lt.mp h1)) hne

/-! ## Runs -/

theorem addTime_cons (first last a b : Rat) (r : List Rat) (rs : List (List Rat)) :
    (InnerGap first last a b → addTime first last a ((b :: r) :: rs) = [a] :: (b :: r) :: rs) ∧
    (¬ InnerGap first last a b → addTime first last a ((b :: r) :: rs) = (a :: b :: r) :: rs) := by
  constructor
  · intro h; exact if_pos h
  · intro h; exact if_neg h

theorem runs_ne_nil (first last : Rat) (a : Rat) (l : List Rat) :
    ∃ r rs, runs first last (a :: l) = (a :: r) :: rs := by
  unfold runs
  cases h : runs first last l with
  | nil => exact ⟨[], [], rfl⟩
  | cons r rs =>
    cases r with
    | nil => exact ⟨[], rs, rfl⟩
    | cons b r =>
      by_cases hg : InnerGap first last a b
      · rw [(addTime_cons first last a b r rs).1 hg]; exact ⟨[], _, rfl⟩
      · rw [(addTime_cons first last a b r rs).2 hg]; exact ⟨b :: r, rs, rfl⟩

theorem runs_flatten (first last : Rat) (l : List Rat) : (runs first last l).flatten = l := by
  induction l with
  | nil => rfl
  | cons a l ih =>
    unfold runs
    cases h : runs first last l with
    | nil =>
      rw [h] at ih
      simp at ih
      subst ih
      rfl
    | cons r rs =>
      rw [h] at ih
      cases r with
      | nil => simp [addTime] at ih ⊢; exact ih
      | cons b r =>
        by_cases hg : InnerGap first last a b
        · rw [(addTime_cons first last a b r rs).1 hg]; simpa using ih
        · rw [(addTime_cons first last a b r rs).2 hg]; simpa using ih

theorem isBreak_inner (first last a b : Rat) :
    (isBreak (a, b) && (decide (a > first) && decide (b < last))) = true ↔ InnerGap first last a b := by
  unfold isBreak InnerGap
  simp only [Bool.and_eq_true, Bool.or_eq_true, decide_eq_true_eq]
  constructor
  · rintro ⟨h1, h2, h3⟩
    exact ⟨h1.imp id (fun h => by linarith), h2, h3⟩
  · rintro ⟨h1, h2, h3⟩
    exact ⟨h1.imp id (fun h => by linarith), h2, h3⟩

theorem breakPairs_eq (first last : Rat) (t : List Rat) :
    breakPairs first last t = (t.zip t.tail).filter fun p =>
      isBreak p && (decide (p.1 > first) && decide (p.2 < last)) := by
  unfold breakPairs
  rw [List.filter_filter]
  congr 1
  funext p
  rw [Bool.and_comm]

/-- The limits computed from the breaks are those of the runs. -/
theorem limits_eq_runs (first last : Rat) : ∀ (l : List Rat) (a : Rat),
    (a :: (breakPairs first last (a :: l)).map Prod.snd).zip
      ((breakPairs first last (a :: l)).map Prod.fst ++ [(a :: l).getLastD 0])
    = (runs first last (a :: l)).map runLimits := by
  intro l
  induction l with
  | nil => intro a; simp [breakPairs, runs, addTime, runLimits]
  | cons b l ih =>
    intro a
    have ihb := ih b
    obtain ⟨r, rs, hr⟩ := runs_ne_nil first last b l
    rw [hr] at ihb
    have hruns : runs first last (a :: b :: l) = addTime first last a ((b :: r) :: rs) := by
      rw [← hr]; rfl
    rw [hruns]
    have hzip : (a :: b :: l).zip (a :: b :: l).tail = (a, b) :: (b :: l).zip (b :: l).tail := rfl
    rw [breakPairs_eq] at ihb ⊢
    rw [hzip, List.filter_cons]
    have hlast : (a :: b :: l).getLastD 0 = (b :: l).getLastD 0 := by simp [List.getLastD]
    rw [hlast]
    generalize (b :: l).getLastD 0 = z at ihb ⊢
    generalize List.filter (fun p => isBreak p && (decide (p.1 > first) && decide (p.2 < last)))
      ((b :: l).zip (b :: l).tail) = bp at ihb ⊢
    by_cases hg : InnerGap first last a b
    · rw [if_pos ((isBreak_inner first last a b).mpr hg)]
      rw [(addTime_cons first last a b r rs).1 hg]
      simp only [List.map_cons, List.cons_append, List.zip_cons_cons] at ihb ⊢
      rw [ihb]
      simp [runLimits]
    · rw [if_neg (fun h => hg ((isBreak_inner first last a b).mp h))]
      rw [(addTime_cons first last a b r rs).2 hg]
      cases bp with
      | nil =>
        simp only [List.map_nil, List.nil_append, List.zip_cons_cons, List.zip_nil_left, List.map_cons,
          List.cons.injEq] at ihb ⊢
        obtain ⟨h1, h2⟩ := ihb
        refine ⟨?_, h2⟩
        simp only [runLimits, List.headD_cons, Prod.mk.injEq, List.getLastD_cons, true_and] at h1 ⊢
        exact h1
      | cons q bp =>
        simp only [List.map_cons, List.cons_append, List.zip_cons_cons, List.cons.injEq] at ihb ⊢
        obtain ⟨h1, h2⟩ := ihb
        refine ⟨?_, h2⟩
        simp only [runLimits, List.headD_cons, Prod.mk.injEq, List.getLastD_cons, true_and] at h1 ⊢
        exact h1

/-- The chunks to be resampled are the runs with different first and last time. -/
theorem chunkLimits_eq (a : Rat) (l : List Rat) :
    chunkLimits a ((a :: l).getLastD 0) (a :: l) =
      ((runs a ((a :: l).getLastD 0) (a :: l)).map runLimits).filter fun p => p.1 != p.2 := by
  unfold chunkLimits
  simp only
  rw [limits_eq_runs]

/-- The runs are exactly the maximal pieces without interruption. -/
theorem runs_spec (first last : Rat) (l : List Rat) :
    (∀ r ∈ runs first last l, r ≠ [] ∧ r.IsChain (fun a b => ¬ InnerGap first last a b)) ∧
    (runs first last l).IsChain (fun r r' => InnerGap first last (r.getLastD 0) (r'.headD 0)) := by
  induction l with
  | nil => simp [runs]
  | cons a l ih =>
    cases l with
    | nil => simp [runs, addTime]
    | cons b l =>
      obtain ⟨r, rs, hr⟩ := runs_ne_nil first last b l
      rw [hr] at ih
      have hruns : runs first last (a :: b :: l) = addTime first last a ((b :: r) :: rs) := by rw [← hr]; rfl
      rw [hruns]
      by_cases hg : InnerGap first last a b
      · rw [(addTime_cons first last a b r rs).1 hg]
        refine ⟨?_, ?_⟩
        · intro x hx
          rcases List.mem_cons.mp hx with rfl | h
          · simp
          · exact ih.1 x h
        · rw [List.isChain_cons_cons]
          exact ⟨by simpa using hg, ih.2⟩
      · rw [(addTime_cons first last a b r rs).2 hg]
        refine ⟨?_, ?_⟩
        · intro x hx
          rcases List.mem_cons.mp hx with rfl | h
          · refine ⟨by simp, ?_⟩
            rw [List.isChain_cons_cons]
            exact ⟨hg, (ih.1 _ (by simp)).2⟩
          · exact ih.1 x (by simp [h])
        · have := ih.2
          cases rs with
          | nil => simp
          | cons r' rs =>
            rw [List.isChain_cons_cons] at this ⊢
            exact ⟨by simpa [List.getLastD] using this.1, this.2⟩

/-- An interruption separates the runs. -/
theorem runs_split (first last a b : Rat) (hg : InnerGap first last a b) (post : List Rat) : ∀ pre : List Rat,
    ∃ R1 R2, runs first last (pre ++ a :: b :: post) = R1 ++ R2 ∧ R1.flatten = pre ++ [a] ∧ R2.flatten = b :: post ∧
      R1 ≠ [] := by
  intro pre
  induction pre with
  | nil =>
    obtain ⟨r, rs, hr⟩ := runs_ne_nil first last b post
    have hruns : runs first last (a :: b :: post) = addTime first last a ((b :: r) :: rs) := by rw [← hr]; rfl
    refine ⟨[[a]], (b :: r) :: rs, ?_, by simp, ?_, by simp⟩
    · rw [List.nil_append, hruns, (addTime_cons first last a b r rs).1 hg]; rfl
    · rw [← hr]; exact runs_flatten _ _ _
  | cons c pre ih =>
    obtain ⟨R1, R2, h1, h2, h3, h4⟩ := ih
    have hruns : runs first last (c :: pre ++ a :: b :: post) = addTime first last c (R1 ++ R2) := by
      rw [← h1]; rfl
    cases R1 with
    | nil => exact absurd rfl h4
    | cons r R1 =>
      cases r with
      | nil =>
        obtain ⟨d, l, hd⟩ : ∃ d l, pre ++ a :: b :: post = d :: l := by cases pre <;> simp
        obtain ⟨r, rs, hr⟩ := runs_ne_nil first last d l
        rw [hd, hr] at h1
        simp at h1
      | cons d r =>
        rw [hruns, List.cons_append]
        by_cases hcd : InnerGap first last c d
        · rw [(addTime_cons first last c d r _).1 hcd]
          exact ⟨[c] :: (d :: r) :: R1, R2, rfl, by simpa using h2, h3, by simp⟩
        · rw [(addTime_cons first last c d r _).2 hcd]
          exact ⟨(c :: d :: r) :: R1, R2, rfl, by simpa using h2, h3, by simp⟩

/-! ## Traces of the runs -/

/-- The samples within about 10 ms of a run, given to the spline. -/
def windowOf (samples : List (Rat × Option Rat)) (r : List Rat) : List (Rat × Option Rat) :=
  samples.filter fun p => decide (r.headD 0 - 11 / 1000 ≤ p.1 ∧ p.1 ≤ r.getLastD 0 + 9 / 1000)

/-- A run that is resampled: it has a duration, and the spline can be constructed. -/
def Resampled (spline : Spliner) (samples : List (Rat × Option Rat)) (r : List Rat) : Prop :=
  r.headD 0 ≠ r.getLastD 0 ∧ (spline (windowOf samples r)).isSome

/-- The trace made from a run: it starts at the multiple of 10 ms nearest to the run's start, has a sample per full
10 ms of the run, and (unless the start is exactly between two multiples) its samples are the spline's values at
their own times, rounded to integers. -/
def TraceOf (spline : Spliner) (samples : List (Rat × Option Rat)) (r : List Rat) (tr : Trace) : Prop :=
  ∃ f, spline (windowOf samples r) = some f ∧
    |tr.time 0 - r.headD 0| ≤ 5 / 1000 ∧
    tr.data ≠ [] ∧ (tr.data.length : Int) = ⌊(r.getLastD 0 - r.headD 0) * 100⌋ ∧
    (NotHalf (r.headD 0 * 100) → ∀ k (hk : k < tr.data.length), tr.data[k] = npRound (f (tr.time k)))

theorem chunkPoints_eq (samples : List (Rat × Option Rat)) (r : List Rat) :
    chunkPoints samples (r.headD 0) (r.getLastD 0) = windowOf samples r := by
  unfold chunkPoints windowOf
  congr 1
  funext p
  rw [Bool.eq_iff_iff]
  simp only [Bool.and_eq_true, decide_eq_true_eq]
  constructor
  · rintro ⟨h1, h2⟩; constructor <;> linarith
  · rintro ⟨h1, h2⟩; constructor <;> linarith

theorem pyTrunc_pos {x : Rat} (h : (pyTrunc x).toNat ≠ 0) : ((pyTrunc x).toNat : Int) = ⌊x⌋ ∧ 1 ≤ x := by
  unfold pyTrunc at h ⊢
  by_cases hx : 0 ≤ x
  · rw [if_pos hx] at h ⊢
    have h0 : 0 ≤ ⌊x⌋ := Int.floor_nonneg.mpr hx
    refine ⟨Int.toNat_of_nonneg h0, ?_⟩
    have h1 : (1 : Int) ≤ ⌊x⌋ := by omega
    have h2 := Int.floor_le x
    have h3 : ((1 : Int) : Rat) ≤ (⌊x⌋ : Rat) := by exact_mod_cast h1
    push_cast at h3
    linarith
  · rw [if_neg hx] at h
    exfalso
    apply h
    have : ⌈x⌉ ≤ 0 := by
      rw [Int.ceil_le]
      push_cast
      linarith
    omega

theorem interpChunk_spec (spline : Spliner) (samples : List (Rat × Option Rat)) (r : List Rat) :
    ((spline (windowOf samples r) = none → interpChunk spline samples (runLimits r) = .ok none)) ∧
    (spline (windowOf samples r) ≠ none → r.getLastD 0 - r.headD 0 < 1 / 100 →
      interpChunk spline samples (runLimits r) = .error .other) ∧
    (spline (windowOf samples r) ≠ none → 1 / 100 ≤ r.getLastD 0 - r.headD 0 →
      ∃ tr, interpChunk spline samples (runLimits r) = .ok (some tr) ∧ TraceOf spline samples r tr) := by
  unfold interpChunk runLimits
  simp only [chunkPoints_eq]
  refine ⟨?_, ?_, ?_⟩
  · intro h; rw [h]
  · intro h hs
    obtain ⟨f, hf⟩ := Option.ne_none_iff_exists'.mp h
    rw [hf]
    simp only
    have : chunkTimes (r.headD 0) (r.getLastD 0) = [] := by
      unfold chunkTimes
      have hz : (pyTrunc ((r.getLastD 0 - r.headD 0) / (1 / 100))).toNat = 0 := by
        by_contra hne
        have := (pyTrunc_pos hne).2
        rw [le_div_iff₀ (by norm_num)] at this
        linarith
      rw [hz]; rfl
    rw [this]
  · intro h hs
    obtain ⟨f, hf⟩ := Option.ne_none_iff_exists'.mp h
    rw [hf]
    simp only
    have hx : (r.getLastD 0 - r.headD 0) / (1 / 100) = (r.getLastD 0 - r.headD 0) * 100 := by ring
    have h1 : (1 : Rat) ≤ (r.getLastD 0 - r.headD 0) * 100 := by linarith
    have hfl : 1 ≤ ⌊(r.getLastD 0 - r.headD 0) * 100⌋ := by
      rw [Int.le_floor]; exact_mod_cast h1
    have hn : ((pyTrunc ((r.getLastD 0 - r.headD 0) / (1 / 100))).toNat : Int)
        = ⌊(r.getLastD 0 - r.headD 0) * 100⌋ := by
      rw [hx]
      unfold pyTrunc
      rw [if_pos (by linarith)]
      omega
    obtain ⟨n, hn'⟩ : ∃ n, (pyTrunc ((r.getLastD 0 - r.headD 0) / (1 / 100))).toNat = n + 1 :=
      ⟨(pyTrunc ((r.getLastD 0 - r.headD 0) / (1 / 100))).toNat - 1, by omega⟩
    rw [hn'] at hn
    have hcons : chunkTimes (r.headD 0) (r.getLastD 0) = npRound (r.headD 0 * 100) ::
        (List.range n).map (fun (k : Nat) => npRound ((r.headD 0 + ((k + 1 : Nat) : Rat) * (1 / 100)) * 100)) := by
      unfold chunkTimes
      rw [hn', List.range_succ_eq_map, List.map_cons, List.map_map]
      congr 1
      norm_num
    have hlen : (chunkTimes (r.headD 0) (r.getLastD 0)).length = n + 1 := by
      unfold chunkTimes; rw [hn']; simp
    have hget : ∀ k (hk : k < (chunkTimes (r.headD 0) (r.getLastD 0)).length),
        (chunkTimes (r.headD 0) (r.getLastD 0))[k] = npRound (r.headD 0 * 100 + (k : Int)) := by
      intro k hk
      have : ∀ (m : Nat) (g : Nat → Int) (hk' : k < ((List.range m).map g).length), ((List.range m).map g)[k] = g k := by
        intro m g hk'; simp
      refine (this _ _ hk).trans ?_
      congr 1
      push_cast
      ring
    generalize hct : chunkTimes (r.headD 0) (r.getLastD 0) = ct at hcons hlen hget
    rw [hcons]
    refine ⟨_, rfl, f, hf, ?_, ?_, ?_, ?_⟩
    · unfold Trace.time
      simp only [Nat.cast_zero, add_zero]
      have := npRound_near (r.headD 0 * 100)
      rw [abs_le] at this ⊢
      constructor <;> linarith [this.1, this.2]
    · simp
    · simp only [List.length_map, List.length_cons, List.length_range]
      rw [← hn]
    · intro hh k hk
      simp only [← hcons]
      simp only [List.getElem_map]
      rw [hget k (by simpa [hcons] using hk), npRound_add _ hh]
      unfold Trace.time
      push_cast
      rfl

open Classical in
theorem interpChunks_ok (spline : Spliner) (samples : List (Rat × Option Rat)) : ∀ (R : List (List Rat)) (out : List Trace),
    interpChunks spline samples ((R.map runLimits).filter fun p => p.1 != p.2) = .ok out →
    List.Forall₂ (TraceOf spline samples) (R.filter fun r => decide (Resampled spline samples r)) out := by
  intro R
  induction R with
  | nil =>
    intro out h
    simp only [List.map_nil, List.filter_nil, interpChunks, Except.ok.injEq] at h
    subst h
    exact .nil
  | cons r R ih =>
    intro out h
    rw [List.map_cons, List.filter_cons] at h
    obtain ⟨c1, c2, c3⟩ := interpChunk_spec spline samples r
    by_cases hne : r.headD 0 = r.getLastD 0
    · rw [if_neg (by rw [Bool.not_eq_true]; exact bne_eq_false_iff_eq.mpr hne)] at h
      rw [List.filter_cons, if_neg (by rw [decide_eq_true_eq]; exact fun h' => h'.1 hne)]
      exact ih out h
    · rw [if_pos (bne_iff_ne.mpr hne : ((runLimits r).1 != (runLimits r).2) = true)] at h
      rw [interpChunks] at h
      by_cases hs : spline (windowOf samples r) = none
      · rw [c1 hs] at h
        rw [List.filter_cons, if_neg (by rw [decide_eq_true_eq]; intro h'; have := h'.2; rw [hs] at this; simp at this)]
        exact ih out h
      · rw [List.filter_cons, if_pos (by
          rw [decide_eq_true_eq]
          exact ⟨hne, Option.isSome_iff_ne_none.mpr hs⟩)]
        by_cases hd : r.getLastD 0 - r.headD 0 < 1 / 100
        · rw [c2 hs hd] at h; simp at h
        · obtain ⟨tr, ht, htr⟩ := c3 hs (not_lt.mp hd)
          rw [ht] at h
          simp only at h
          cases hrest : interpChunks spline samples ((R.map runLimits).filter fun p => p.1 != p.2) with
          | error x => rw [hrest] at h; simp at h
          | ok trs =>
            rw [hrest] at h
            simp only [Except.ok.injEq] at h
            subst h
            exact .cons htr (ih trs hrest)

theorem interpChunks_raises (spline : Spliner) (samples : List (Rat × Option Rat)) : ∀ (R : List (List Rat)),
    (∃ out, interpChunks spline samples ((R.map runLimits).filter fun p => p.1 != p.2) = .ok out) ↔
    ∀ r ∈ R, r.headD 0 ≠ r.getLastD 0 → spline (windowOf samples r) ≠ none → 1 / 100 ≤ r.getLastD 0 - r.headD 0 := by
  intro R
  induction R with
  | nil => simp [interpChunks]
  | cons r R ih =>
    rw [List.map_cons, List.filter_cons, List.forall_mem_cons, ← ih]
    obtain ⟨c1, c2, c3⟩ := interpChunk_spec spline samples r
    by_cases hne : r.headD 0 = r.getLastD 0
    · rw [if_neg (by rw [Bool.not_eq_true]; exact bne_eq_false_iff_eq.mpr hne)]
      exact ⟨fun h => ⟨fun h' => absurd hne h', h⟩, fun h => h.2⟩
    · rw [if_pos (bne_iff_ne.mpr hne : ((runLimits r).1 != (runLimits r).2) = true)]
      rw [interpChunks]
      by_cases hs : spline (windowOf samples r) = none
      · rw [c1 hs]
        simp only
        exact ⟨fun h => ⟨fun _ h' => absurd hs h', h⟩, fun h => h.2⟩
      · by_cases hd : r.getLastD 0 - r.headD 0 < 1 / 100
        · rw [c2 hs hd]
          constructor
          · rintro ⟨out, h⟩; simp at h
          · rintro ⟨h, _⟩; exact absurd (h hne hs) (not_le.mpr hd)
        · obtain ⟨tr, ht, htr⟩ := c3 hs (not_lt.mp hd)
          rw [ht]
          simp only
          constructor
          · rintro ⟨out, h⟩
            refine ⟨fun _ _ => not_lt.mp hd, ?_⟩
            cases hrest : interpChunks spline samples ((R.map runLimits).filter fun p => p.1 != p.2) with
            | error x => rw [hrest] at h; simp at h
            | ok trs => exact ⟨trs, rfl⟩
          · rintro ⟨_, trs, h⟩
            rw [h]; exact ⟨_, rfl⟩

/-! ## The record -/

/-- The samples of the record that have a time, with the time first. -/
def recordOf (data : List (Rat × Option Rat × Option Rat)) : List (Rat × Option Rat) :=
  data.filterMap fun p => p.2.2.map fun (t : Rat) => (t, p.2.1)

/-- The sample times. -/
def timesOf (data : List (Rat × Option Rat × Option Rat)) : List Rat := (recordOf data).map Prod.fst

/-- The runs of the record. -/
noncomputable def runsOf (data : List (Rat × Option Rat × Option Rat)) : List (List Rat) :=
  runs ((timesOf data).headD 0) ((timesOf data).getLastD 0) (timesOf data)

theorem interpTime_eq (spline : Spliner) (data : List (Rat × Option Rat × Option Rat)) :
    (timesOf data = [] → interpTime spline data = .error .other) ∧
    (timesOf data ≠ [] → interpTime spline data = interpChunks spline (recordOf data)
      (((runsOf data).map runLimits).filter fun p => p.1 != p.2)) := by
  unfold interpTime
  have hs : timedSamples data = recordOf data := rfl
  simp only [hs]
  have ht : (recordOf data).map Prod.fst = timesOf data := rfl
  rw [ht]
  unfold runsOf
  cases h : timesOf data with
  | nil => simp
  | cons a l =>
    refine ⟨by simp, fun _ => ?_⟩
    simp only [List.head?_cons, List.getLast?_cons, List.headD_cons]
    have hl : (a :: l).getLastD 0 = l.getLast?.getD a := by
      simp [List.getLastD_eq_getLast?, List.getLast?_cons]
    rw [← hl, chunkLimits_eq]

/-! ## C27 -/

open Classical in
/-- **C27.** The traces correspond one to one, in order, to the runs that are resampled. -/
theorem C27_one_trace_per_run (spline : Spliner) (data : List (Rat × Option Rat × Option Rat)) (out : List Trace)
    (h : interpTime spline data = .ok out) :
    List.Forall₂ (TraceOf spline (recordOf data))
      ((runsOf data).filter fun r => decide (Resampled spline (recordOf data) r)) out := by
  obtain ⟨h1, h2⟩ := interpTime_eq spline data
  by_cases hn : timesOf data = []
  · rw [h1 hn] at h; simp at h
  · rw [h2 hn] at h
    exact interpChunks_ok spline _ _ out h

theorem traceOf_bounds {spline : Spliner} {samples : List (Rat × Option Rat)} {r : List Rat} {tr : Trace}
    (h : TraceOf spline samples r tr) : ∀ k < tr.data.length,
      r.headD 0 - 5 / 1000 ≤ tr.time k ∧ tr.time k ≤ r.getLastD 0 - 5 / 1000 := by
  obtain ⟨f, _, h1, _, h2, _⟩ := h
  intro k hk
  have h3 := Int.floor_le ((r.getLastD 0 - r.headD 0) * 100)
  rw [← h2] at h3
  have h4 : ((k : Rat)) + 1 ≤ (tr.data.length : Rat) := by exact_mod_cast hk
  have h5 : ((tr.data.length : Int) : Rat) = (tr.data.length : Rat) := by push_cast; rfl
  rw [h5] at h3
  have h6 : (0 : Rat) ≤ k := Nat.cast_nonneg k
  unfold Trace.time at h1 ⊢
  rw [abs_le] at h1
  push_cast at h1
  have e : ((tr.start : Rat) + 0) / 100 = (tr.start : Rat) / 100 := by ring
  rw [e] at h1
  have e2 : ((tr.start : Rat) + k) / 100 = (tr.start : Rat) / 100 + k / 100 := by ring
  rw [e2]
  constructor <;> linarith [h1.1, h1.2]

theorem mem_run {first last : Rat} {l r : List Rat} (hr : r ∈ runs first last l) :
    r ≠ [] ∧ ∀ x ∈ r, x ∈ l := by
  refine ⟨((runs_spec first last l).1 r hr).1, ?_⟩
  intro x hx
  rw [← runs_flatten first last l]
  exact List.mem_flatten.mpr ⟨r, hr, hx⟩

theorem headD_mem {r : List Rat} (h : r ≠ []) : r.headD 0 ∈ r ∧ r.getLastD 0 ∈ r := by
  cases r with
  | nil => exact absurd rfl h
  | cons a r =>
    refine ⟨by simp, ?_⟩
    rw [List.getLastD_eq_getLast?, List.getLast?_eq_some_getLast (by simp)]
    exact List.getLast_mem _

theorem forall₂_right {α β : Type} {R : α → β → Prop} {l : List α} {m : List β} (h : List.Forall₂ R l m) :
    ∀ b ∈ m, ∃ a ∈ l, R a b := by
  induction h with
  | nil => simp
  | @cons a b l m hab _ ih =>
    intro x hx
    rcases List.mem_cons.mp hx with rfl | h
    · exact ⟨a, by simp, hab⟩
    · obtain ⟨y, hy, hr⟩ := ih x h
      exact ⟨y, by simp [hy], hr⟩

/-- **C27.** Every sample time is a multiple of 10 ms within 5 ms of the recorded interval it comes from. -/
theorem C27_on_grid_inside (spline : Spliner) (data : List (Rat × Option Rat × Option Rat)) (out : List Trace)
    (h : interpTime spline data = .ok out) :
    ∀ tr ∈ out, ∃ r ∈ runsOf data, (∀ x ∈ r, x ∈ timesOf data) ∧ ∀ k < tr.data.length,
      (∃ m : Int, tr.time k = m / 100) ∧ r.headD 0 - 5 / 1000 ≤ tr.time k ∧ tr.time k ≤ r.getLastD 0 - 5 / 1000 := by
  have hf := C27_one_trace_per_run spline data out h
  intro tr htr
  obtain ⟨r, hr, ht⟩ : ∃ r ∈ runsOf data, TraceOf spline (recordOf data) r tr := by
    obtain ⟨r, hr, ht⟩ := forall₂_right hf tr htr
    exact ⟨r, (List.mem_filter.mp hr).1, ht⟩
  refine ⟨r, hr, (mem_run hr).2, ?_⟩
  intro k hk
  refine ⟨⟨tr.start + k, by unfold Trace.time; push_cast; rfl⟩, traceOf_bounds ht k hk⟩

theorem sorted_run {first last : Rat} {l : List Rat} (hs : l.Pairwise (· ≤ ·)) :
    (runs first last l).Pairwise fun r r' => r.getLastD 0 + 25 / 1000 < r'.headD 0 := by
  have hmem := runs_spec first last l
  have hle : ∀ r ∈ runs first last l, r.headD 0 ≤ r.getLastD 0 := by
    intro r hr
    have hsub : r.Pairwise (· ≤ ·) := by
      have h2 : (runs first last l).flatten.Pairwise (· ≤ ·) := by rw [runs_flatten]; exact hs
      exact (List.pairwise_flatten.mp h2).1 r hr
    cases r with
    | nil => simp
    | cons a r =>
      have hl := (headD_mem (r := a :: r) (by simp)).2
      simp only [List.headD_cons]
      rcases List.mem_cons.mp hl with h | h
      · rw [h]
      · exact List.rel_of_pairwise_cons hsub h
  have hcross : (runs first last l).Pairwise fun r r' => ∀ x ∈ r, ∀ y ∈ r', x ≤ y := by
    have h2 : (runs first last l).flatten.Pairwise (· ≤ ·) := by rw [runs_flatten]; exact hs
    exact (List.pairwise_flatten.mp h2).2
  generalize runs first last l = R at hmem hle hcross
  obtain ⟨hne, hch⟩ := hmem
  induction R with
  | nil => simp
  | cons r R ih =>
    rw [List.pairwise_cons] at hcross ⊢
    refine ⟨?_, ih (fun x hx => hle x (by simp [hx])) hcross.2 (fun x hx => hne x (by simp [hx]))
      (List.isChain_cons.mp hch).2⟩
    cases R with
    | nil => simp
    | cons r1 R =>
      rw [List.isChain_cons_cons] at hch
      have hm1 := headD_mem (hne r1 (by simp)).1
      have hm := headD_mem (hne r (by simp)).1
      have hle1 : r.getLastD 0 ≤ r1.headD 0 := hcross.1 r1 (by simp) _ hm.2 _ hm1.1
      have hgap : r.getLastD 0 + 25 / 1000 < r1.headD 0 := by
        rcases hch.1.1 with h | h
        · linarith
        · linarith
      intro r' hr'
      rcases List.mem_cons.mp hr' with rfl | h'
      · exact hgap
      · have hm' := headD_mem (hne r' (by simp [h'])).1
        have := (List.pairwise_cons.mp hcross.2).1 r' h' _ hm1.1 _ hm'.1
        linarith

/-- **C27.** The traces of a record whose times never go back are in order, do not overlap, and are more than 25 ms apart. -/
theorem C27_ordered (spline : Spliner) (data : List (Rat × Option Rat × Option Rat)) (out : List Trace)
    (hs : (timesOf data).Pairwise (· ≤ ·)) (h : interpTime spline data = .ok out) :
    out.Pairwise fun tr tr' => ∀ k < tr.data.length, ∀ k' < tr'.data.length, tr.time k + 25 / 1000 < tr'.time k' := by
  classical
  have hf := C27_one_trace_per_run spline data out h
  have hp : ((runsOf data).filter fun r => decide (Resampled spline (recordOf data) r)).Pairwise
      fun r r' => r.getLastD 0 + 25 / 1000 < r'.headD 0 := (sorted_run hs).filter _
  clear h
  generalize ((runsOf data).filter fun r => decide (Resampled spline (recordOf data) r)) = R at hf hp
  induction hf with
  | nil => simp
  | @cons r tr R out htr hrest ih =>
    rw [List.pairwise_cons] at hp ⊢
    refine ⟨?_, ih hp.2⟩
    intro tr' htr' k hk k' hk'
    obtain ⟨r', hm', ht'⟩ := forall₂_right hrest tr' htr'
    have hr' := hp.1 r' hm'
    have b1 := (traceOf_bounds htr k hk).2
    have b2 := (traceOf_bounds ht' k' hk').1
    linarith

theorem forall₂_left {α β : Type} {R : α → β → Prop} {l : List α} {m : List β} (h : List.Forall₂ R l m) :
    ∀ a ∈ l, ∃ b ∈ m, R a b := by
  induction h with
  | nil => simp
  | @cons a b l m hab _ ih =>
    intro x hx
    rcases List.mem_cons.mp hx with rfl | h
    · exact ⟨b, by simp, hab⟩
    · obtain ⟨y, hy, hr⟩ := ih x h
      exact ⟨y, by simp [hy], hr⟩

/-- **C27, nothing is left out.** Every multiple of 10 ms within a run that is resampled, up to 15 ms before its end, is the time of an output sample. -/
theorem C27_complete (spline : Spliner) (data : List (Rat × Option Rat × Option Rat)) (out : List Trace)
    (h : interpTime spline data = .ok out) (r : List Rat) (hr : r ∈ runsOf data) (hsome : (spline (windowOf (recordOf data) r)).isSome = true)
    (m : Int) (h1 : r.headD 0 ≤ (m : Rat) / 100) (h2 : (m : Rat) / 100 ≤ r.getLastD 0 - 15 / 1000) :
    ∃ tr ∈ out, ∃ k < tr.data.length, tr.time k = (m : Rat) / 100 := by
  classical
  have hf := C27_one_trace_per_run spline data out h
  have hres : Resampled spline (recordOf data) r := by
    refine ⟨?_, hsome⟩
    intro e
    rw [e] at h1
    linarith
  obtain ⟨tr, htr, f, _, h3, _, h4, _⟩ := forall₂_left hf r (List.mem_filter.mpr ⟨hr, by simpa using hres⟩)
  unfold Trace.time at h3
  rw [abs_le] at h3
  push_cast at h3
  have h5 : tr.start ≤ m := by
    have : (tr.start : Rat) < m + 1 := by linarith [h3.2]
    exact_mod_cast Int.lt_add_one_iff.mp (by exact_mod_cast this)
  refine ⟨tr, htr, (m - tr.start).toNat, ?_, ?_⟩
  · have h6 : (m - tr.start) + 1 ≤ ⌊(r.getLastD 0 - r.headD 0) * 100⌋ := by
      rw [Int.le_floor]
      push_cast
      linarith [h3.1]
    omega
  · unfold Trace.time
    have : (((m - tr.start).toNat : Int) : Rat) = (m : Rat) - tr.start := by
      rw [Int.toNat_of_nonneg (by omega)]
      push_cast
      ring
    rw [show (((m - tr.start).toNat : Nat) : Rat) = (((m - tr.start).toNat : Int) : Rat) by push_cast; rfl, this]
    ring

/-- Successive times without an interruption between them are in one run. -/
theorem runs_joined (first last a b : Rat) (hg : ¬ InnerGap first last a b) (post : List Rat) : ∀ pre : List Rat,
    ∃ r ∈ runs first last (pre ++ a :: b :: post), a ∈ r ∧ b ∈ r := by
  intro pre
  induction pre with
  | nil =>
    obtain ⟨r, rs, hr⟩ := runs_ne_nil first last b post
    refine ⟨a :: b :: r, ?_, by simp, by simp⟩
    rw [List.nil_append]
    have : runs first last (a :: b :: post) = addTime first last a ((b :: r) :: rs) := by rw [← hr]; rfl
    rw [this, (addTime_cons first last a b r rs).2 hg]
    simp
  | cons x pre ih =>
    obtain ⟨r, hr, ha, hb⟩ := ih
    have hx : runs first last (x :: pre ++ a :: b :: post) = addTime first last x (runs first last (pre ++ a :: b :: post)) := rfl
    rw [hx]
    cases hR : runs first last (pre ++ a :: b :: post) with
    | nil => rw [hR] at hr; simp at hr
    | cons r0 rs =>
      rw [hR] at hr
      cases r0 with
      | nil =>
        rcases List.mem_cons.mp hr with rfl | hr
        · simp at ha
        · exact ⟨r, by unfold addTime; simp [hr], ha, hb⟩
      | cons y r0 =>
        by_cases hi : InnerGap first last x y
        · rw [(addTime_cons first last x y r0 rs).1 hi]
          exact ⟨r, List.mem_cons_of_mem _ hr, ha, hb⟩
        · rw [(addTime_cons first last x y r0 rs).2 hi]
          rcases List.mem_cons.mp hr with rfl | hr
          · exact ⟨x :: y :: r0, by simp, by simp at ha ⊢; tauto, by simp at hb ⊢; tauto⟩
          · exact ⟨r, by simp [hr], ha, hb⟩

theorem sorted_limits {first last : Rat} {l : List Rat} (hs : l.Pairwise (· ≤ ·)) {r : List Rat} (hr : r ∈ runs first last l) :
    ∀ x ∈ r, r.headD 0 ≤ x ∧ x ≤ r.getLastD 0 := by
  have h2 : (runs first last l).flatten.Pairwise (· ≤ ·) := by rw [runs_flatten]; exact hs
  have hsub := (List.pairwise_flatten.mp h2).1 r hr
  intro x hx
  constructor
  · cases r with
    | nil => simp at hx
    | cons a r =>
      rcases List.mem_cons.mp hx with rfl | hx
      · simp
      · exact List.rel_of_pairwise_cons hsub hx
  · have hne : r ≠ [] := by rintro rfl; simp at hx
    have : r.getLastD 0 = r.getLast hne := by rw [List.getLastD_eq_getLast?, List.getLast?_eq_some_getLast hne]; rfl
    rw [this]
    have e := List.dropLast_append_getLast hne
    rw [← e] at hsub hx
    rcases List.mem_append.mp hx with hx | hx
    · exact (List.pairwise_append.mp hsub).2.2 x hx _ (by simp)
    · rw [List.mem_singleton.mp hx]

/-! ## C26 -/

/-- **C26 is violated by every gap in the first or in the last step** of a record: whatever the length of the gap, if the spline can be constructed, samples are
produced for every 10 ms of it (up to 15 ms before its end). -/
theorem C26_violated_ends (spline : Spliner) (data : List (Rat × Option Rat × Option Rat)) (out : List Trace)
    (hs : (timesOf data).Pairwise (· ≤ ·)) (h : interpTime spline data = .ok out)
    (hsp : ∀ r ∈ runsOf data, r.headD 0 ≠ r.getLastD 0 → (spline (windowOf (recordOf data) r)).isSome = true)
    (pre post : List Rat) (a b : Rat) (ht : timesOf data = pre ++ a :: b :: post)
    (hend : (timesOf data).headD 0 = a ∨ b = (timesOf data).getLastD 0)
    (m : Int) (h1 : a ≤ (m : Rat) / 100) (h2 : (m : Rat) / 100 ≤ b - 15 / 1000) :
    ∃ tr ∈ out, ∃ k < tr.data.length, tr.time k = (m : Rat) / 100 := by
  have hg : ¬ InnerGap ((timesOf data).headD 0) ((timesOf data).getLastD 0) a b := by
    rintro ⟨_, h3, h4⟩
    rcases hend with h5 | h5
    · rw [h5] at h3; exact lt_irrefl _ h3
    · rw [← h5] at h4; exact lt_irrefl _ h4
  obtain ⟨r, hr, ha, hb⟩ := runs_joined _ _ a b hg post pre
  rw [← ht] at hr
  have hla := (sorted_limits hs hr a ha).1
  have hlb := (sorted_limits hs hr b hb).2
  refine C27_complete spline data out h r hr (hsp r hr (by intro e; rw [e] at hla; linarith)) m (by linarith) (by linarith)

/-- **C26** (gaps inside the record). Between two successive samples more than 25 ms apart, the first of which is later than the
record's first time and the second earlier than its last, no sample is produced (up to rounding to the nearest
10 ms, so not after 5 ms before the first and before 5 ms before the second).
Missing: the first and the last step of the record, see `C26_violated_ends`. -/
theorem C26_gaps_stay_empty_partial (spline : Spliner) (data : List (Rat × Option Rat × Option Rat)) (out : List Trace)
    (hs : (timesOf data).Pairwise (· ≤ ·)) (h : interpTime spline data = .ok out)
    (pre post : List Rat) (a b : Rat) (ht : timesOf data = pre ++ a :: b :: post) (hgap : b - a > 25 / 1000)
    (hfirst : (timesOf data).headD 0 < a) (hlast : b < (timesOf data).getLastD 0) :
    ∀ tr ∈ out, ∀ k < tr.data.length, tr.time k ≤ a - 5 / 1000 ∨ b - 5 / 1000 ≤ tr.time k := by
  intro tr htr k hk
  obtain ⟨r, hr, _, hb⟩ := C27_on_grid_inside spline data out h tr htr
  obtain ⟨_, hb1, hb2⟩ := hb k hk
  have hne := (mem_run hr).1
  obtain ⟨R1, R2, h1, h2, h3, _⟩ := runs_split _ _ a b ⟨Or.inl hgap, hfirst, hlast⟩ post pre
  unfold runsOf at hr
  rw [← ht] at h1
  rw [h1] at hr
  rw [ht] at hs
  obtain ⟨_, hs2, hs3⟩ := List.pairwise_append.mp hs
  rcases List.mem_append.mp hr with hm | hm
  · left
    have : r.getLastD 0 ∈ pre ++ [a] := by
      rw [← h2]; exact List.mem_flatten.mpr ⟨r, hm, (headD_mem hne).2⟩
    rcases List.mem_append.mp this with h' | h'
    · have := hs3 _ h' a (by simp)
      linarith
    · rw [List.mem_singleton] at h'; rw [h'] at hb2; exact hb2
  · right
    have : r.headD 0 ∈ b :: post := by
      rw [← h3]; exact List.mem_flatten.mpr ⟨r, hm, (headD_mem hne).1⟩
    rcases List.mem_cons.mp this with h' | h'
    · linarith
    · have := List.rel_of_pairwise_cons (List.pairwise_cons.mp hs2).2 h'
      linarith

/-- A record given by its times in hundredths of a second, with constant samples. -/
def recordAt (t : List Rat) : List (Rat × Option Rat × Option Rat) := t.map fun x => (0, some 7, some (x / 100))

/-- A constant "spline", for examples: it fails on fewer than two points. -/
def flatSpline : Spliner := fun pts => if pts.length < 2 then none else some fun _ => 7

example : interpTime flatSpline (recordAt [0, 1, 2, 3, 9, 10, 11, 12, 20, 21]) =
    .ok [⟨0, [7, 7, 7]⟩, ⟨9, [7, 7, 7]⟩, ⟨20, [7]⟩] ∧
    (timesOf (recordAt [0, 1, 2, 3, 9, 10, 11, 12, 20, 21])).Pairwise (· ≤ ·) := by decide +kernel

/-- **C26 is violated** for a gap in the first step: whatever the spline, if it can be constructed from the record, a second
without data is filled with samples. -/
theorem C26_violated (spline : Spliner) (f : Rat → Rat)
    (hsp : spline (recordOf (recordAt [0, 100, 101, 102])) = some f) :
    ∃ out, interpTime spline (recordAt [0, 100, 101, 102]) = .ok out ∧
      ∃ tr ∈ out, 50 < tr.data.length ∧ tr.time 50 = 1 / 2 := by
  have h1 : chunkLimits 0 (102 / 100) [0, 1, 101 / 100, 102 / 100] = [(0, 102 / 100)] := by decide +kernel
  have h2 : timedSamples (recordAt [0, 100, 101, 102]) = [(0, some 7), (1, some 7), (101 / 100, some 7), (102 / 100, some 7)] := by
    decide +kernel
  have h3 : chunkPoints [(0, some 7), (1, some 7), (101 / 100, some 7), (102 / 100, some 7)] 0 (102 / 100)
      = recordOf (recordAt [0, 100, 101, 102]) := by decide +kernel
  have h4 : chunkTimes 0 (102 / 100) = (0 : Int) :: (List.range 101).map fun (k : Nat) => (k : Int) + 1 := by decide +kernel
  refine ⟨[⟨0, (chunkTimes 0 (102 / 100)).map fun (k : Int) => npRound (f ((k : Rat) / 100))⟩], ?_, _, List.mem_singleton.mpr rfl, ?_, ?_⟩
  · unfold interpTime
    simp only [h2, List.map_cons, List.map_nil, List.head?_cons, List.getLast?_cons_cons, List.getLast?_singleton, h1]
    unfold interpChunks interpChunk
    simp only [h3, hsp, h4, interpChunks]
  · rw [List.length_map, h4]; simp
  · unfold Trace.time; norm_num

/-- The hypotheses of `C26_violated_ends` are met: a gap of a second in the last step. -/
example : ∃ out, interpTime flatSpline (recordAt [0, 1, 2, 102]) = .ok out ∧ (timesOf (recordAt [0, 1, 2, 102])).Pairwise (· ≤ ·) ∧
    (∀ r ∈ runsOf (recordAt [0, 1, 2, 102]), r.headD 0 ≠ r.getLastD 0 → (flatSpline (windowOf (recordOf (recordAt [0, 1, 2, 102])) r)).isSome = true) ∧
    timesOf (recordAt [0, 1, 2, 102]) = [0, 1 / 100] ++ (2 / 100) :: (102 / 100) :: [] := by
  have ht : timesOf (recordAt [0, 1, 2, 102]) = [0, 1 / 100, 2 / 100, 102 / 100] := by decide +kernel
  refine ⟨[⟨0, List.replicate 102 7⟩], by decide +kernel, by decide +kernel, ?_, by decide +kernel⟩
  intro r hr _
  have hlim : ∀ r ∈ runsOf (recordAt [0, 1, 2, 102]), r = [0, 1 / 100, 2 / 100, 102 / 100] := by
    intro r hr
    unfold runsOf at hr
    rw [ht] at hr
    simp only [runs, addTime, InnerGap] at hr
    norm_num at hr
    rw [hr]
    norm_num
  rw [hlim r hr]
  decide +kernel

/-! ## C28 -/

/-- **C28** (exact condition). Resampling a record with at least one timed sample succeeds exactly if every run that has a
duration and admits a spline lasts at least 10 ms.
Missing: shorter runs, see `C28_violated`. -/
theorem C28_succeeds_iff_partial (spline : Spliner) (data : List (Rat × Option Rat × Option Rat)) :
    (∃ out, interpTime spline data = .ok out) ↔ timesOf data ≠ [] ∧
      ∀ r ∈ runsOf data, r.headD 0 ≠ r.getLastD 0 → spline (windowOf (recordOf data) r) ≠ none →
        1 / 100 ≤ r.getLastD 0 - r.headD 0 := by
  obtain ⟨h1, h2⟩ := interpTime_eq spline data
  by_cases hn : timesOf data = []
  · rw [h1 hn]; simp [hn]
  · rw [h2 hn, interpChunks_raises]
    simp [hn]

/-- **C28 is violated**: two samples 5 ms apart between two gaps end the resampling of the whole record with an internal
error. -/
theorem C28_violated :
    interpTime flatSpline (recordAt [0, 1, 2, 10, 21 / 2, 20, 21, 22]) = .error .other := by decide +kernel

end Gemlog
