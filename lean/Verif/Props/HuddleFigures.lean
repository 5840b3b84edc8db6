import Verif.Model.HuddleFigures
import Verif.Props.HuddleGps
import Verif.Props.Interp

/-!
# C113: the figures of the huddle test show the readings

The report refers to the figures for details. Proved: every point of a curve is a reading at its time; the bars of the histogram count the runs of the GPS of
up to 175 seconds. Violated: nine of ten readings are not in the figures, and no bar counts the longer runs, for which the axis has a label.
-/

namespace Gemlog

/-! ## Specification -/

/-- The rows that have a time. -/
def timedRows (rows : List HuddleRow) : List HuddleRow := rows.filter fun r => r.t.isSome

/-- The times of the rows with the GPS off. -/
def offTimes (rows : List HuddleRow) : List (Option Rat) := (rows.filter fun r => decide (r.gpsOnFlag = some 0)).map HuddleRow.t

/-- Run `i` of the GPS: the time from row `i` of those with the GPS off to the next one, if it is more than 11 seconds. -/
def gpsRun (rows : List HuddleRow) (i : Nat) : Option Rat :=
  match (offTimes rows)[i]?, (offTimes rows)[i + 1]? with
  | some (some a), some (some b) => if b - a > 11 then some (b - a) else none
  | _, _ => none

/-- The number of runs of the GPS, without the first ten steps, for whose length `p` holds. -/
def runCount (rows : List HuddleRow) (p : Rat → Bool) : Nat :=
  (List.range ((offTimes rows).length - 1 - 10)).countP fun i => (gpsRun rows (10 + i)).elim false p

/-! ## Curves -/

theorem everyTenth_get {α : Type} (k : Nat) (l : List α) (i : Nat) : (everyTenth k l)[i]? = l[k + 10 * i]? := by
  induction l generalizing k i with
  | nil => cases k <;> simp [everyTenth]
  | cons x l ih =>
    cases k with
    | zero =>
      cases i with
      | zero => simp [everyTenth]
      | succ i =>
        rw [everyTenth, List.getElem?_cons_succ, ih, show 0 + 10 * (i + 1) = 9 + 10 * i + 1 by omega, List.getElem?_cons_succ]
    | succ k => rw [everyTenth, ih, show k + 1 + 10 * i = k + 10 * i + 1 by omega, List.getElem?_cons_succ]

/-- **C113, curves.** Point `i` of a curve is the reading in row `10 i` of the rows that have a time, at most half a second from its time. -/
theorem C113_curve (col : HuddleRow → Option Rat) (rows : List HuddleRow) (i : Nat) :
    ((curvePoints col rows)[i]? = none ↔ (timedRows rows).length ≤ 10 * i) ∧
    ∀ p, (curvePoints col rows)[i]? = some p → ∃ r t, (timedRows rows)[10 * i]? = some r ∧ r.t = some t ∧ p.2 = col r ∧ |(p.1 : Rat) - t| ≤ 1 / 2 := by
  have e : (curvePoints col rows)[i]? = ((timedRows rows)[10 * i]?).map fun r => (npRound (r.t.getD 0), col r) := by
    unfold curvePoints timedRows
    rw [List.getElem?_map, everyTenth_get, Nat.zero_add]
  rw [e]
  refine ⟨by simp, ?_⟩
  intro p hp
  obtain ⟨r, hr, rfl⟩ := Option.map_eq_some_iff.mp hp
  have ht := (List.mem_filter.mp (List.mem_of_getElem? hr)).2
  obtain ⟨t, ht⟩ := Option.isSome_iff_exists.mp ht
  refine ⟨r, t, hr, ht, rfl, ?_⟩
  simp only [ht, Option.getD_some]
  exact npRound_near t

/-- **C113 violated: readings.** Nine of ten rows make no difference to a curve, whatever their readings: if two recordings have the same times, and the same readings in
every tenth row, the curves are the same. So a reading out of range that is reported need not be in the figure to which the report refers. -/
theorem C113_violated_readings (col : HuddleRow → Option Rat) (rows rows' : List HuddleRow) (htime : rows.map HuddleRow.t = rows'.map HuddleRow.t)
    (hten : ∀ i r r', (timedRows rows)[10 * i]? = some r → (timedRows rows')[10 * i]? = some r' → col r = col r') :
    curvePoints col rows = curvePoints col rows' := by
  have hl : (timedRows rows).map HuddleRow.t = (timedRows rows').map HuddleRow.t := by
    have key : ∀ l : List HuddleRow, (timedRows l).map HuddleRow.t = (l.map HuddleRow.t).filter Option.isSome := by
      intro l
      rw [List.filter_map]
      rfl
    rw [key, key, htime]
  apply List.ext_getElem?
  intro i
  have e : ∀ l : List HuddleRow, (curvePoints col l)[i]? = ((timedRows l)[10 * i]?).map fun r => (npRound (r.t.getD 0), col r) := by
    intro l
    unfold curvePoints timedRows
    rw [List.getElem?_map, everyTenth_get, Nat.zero_add]
  rw [e, e]
  have hi := congrArg (fun l => l[10 * i]?) hl
  simp only [List.getElem?_map] at hi
  cases h1 : (timedRows rows)[10 * i]? with
  | none =>
    rw [h1] at hi
    rw [Option.map_eq_none_iff.mp hi.symm]
  | some r =>
    rw [h1] at hi
    obtain ⟨r', h2, h3⟩ := Option.map_eq_some_iff.mp hi.symm
    rw [h2]
    simp only [Option.map_some, Option.some.injEq, Prod.mk.injEq]
    exact ⟨by rw [h3], hten i r r' h1 h2⟩

/-! ## The histogram -/

theorem countP_filterMap (p : Rat → Bool) (l : List (Option Rat)) : (l.filterMap id).countP p = l.countP fun d => d.elim false p := by
  induction l with
  | nil => rfl
  | cons x l ih =>
    cases x with
    | none => rw [List.filterMap_cons_none rfl, ih]; simp
    | some y => rw [show (some y :: l).filterMap id = y :: l.filterMap id from rfl, List.countP_cons, List.countP_cons, ih]; rfl

theorem runCount_eq (rows : List HuddleRow) (p : Rat → Bool) : runCount rows p = (gpsIntervals rows).countP fun d => d.elim false p := by
  unfold runCount gpsIntervals
  rw [List.countP_filter, countP_range, List.length_drop, diffCol_length]
  apply List.countP_congr
  intro i _
  rw [List.getElem?_drop]
  change (gpsRun rows (10 + i)).elim false p = true ↔ ((diffCol (offTimes rows))[10 + i]?.map _).getD false = true
  have hr : ∀ x, gpsRun rows (10 + i) = some x ↔ (diffCol (offTimes rows))[10 + i]? = some (some x) ∧ x > 11 := by
    intro x
    rw [diffCol_getElem?]
    unfold gpsRun
    constructor
    · intro h
      split at h
      · rename_i a b ha hb
        split at h
        · rename_i hab
          cases h
          exact ⟨⟨a, b, ha, hb, rfl⟩, hab⟩
        · cases h
      · cases h
    · rintro ⟨⟨a, b, ha, hb, rfl⟩, hab⟩
      rw [ha, hb]
      exact if_pos hab
  constructor
  · intro h
    cases hg : gpsRun rows (10 + i) with
    | none => rw [hg] at h; cases h
    | some x =>
      rw [hg] at h
      obtain ⟨h1, h2⟩ := (hr x).mp hg
      rw [h1]
      have h3 : p x = true := h
      simp [nanLt, h2, h3]
  · intro h
    cases hc : (diffCol (offTimes rows))[10 + i]? with
    | none => rw [hc] at h; cases h
    | some d =>
      rw [hc] at h
      cases d with
      | none => simp at h
      | some x =>
        simp only [Option.map_some, Option.getD_some, Option.elim, nanLt, Bool.and_eq_true, decide_eq_true_eq] at h
        rw [(hr x).mpr ⟨hc, h.2⟩]
        exact h.1

/-- **C113, the histogram.** Bar `k` counts the runs of the GPS which, less the interval between rows, last from 10 + 5 k to 15 + 5 k seconds; the last bar includes 175. -/
theorem C113_histogram (interval : Rat) (rows : List HuddleRow) :
    (gpsHistogram interval rows).length = 33 ∧ ∀ k : Nat, k < 33 → (gpsHistogram interval rows)[k]? = some (runCount rows fun x =>
      decide (10 + 5 * (k : Rat) ≤ x - interval) && (decide (x - interval < 15 + 5 * (k : Rat)) || decide (k = 32 ∧ x - interval = 175))) := by
  refine ⟨by simp [gpsHistogram], ?_⟩
  intro k hk
  rw [runCount_eq]
  unfold gpsHistogram
  dsimp only
  rw [List.getElem?_map, List.getElem?_range hk, Option.map_some, List.countP_map, countP_filterMap]
  congr 1
  apply List.countP_congr
  intro d _
  cases d with
  | none => rfl
  | some x =>
    have hk' : (k : Rat) ≤ 32 := by exact_mod_cast (by omega : k ≤ 32)
    simp only [Option.elim, Function.comp, inBin, shownRunTime]
    split
    · rename_i h
      have h1 : ¬ (180 : Rat) < 15 + 5 * k := by linarith
      have h2 : ¬ x - interval < 15 + 5 * (k : Rat) := by linarith
      have h3 : ¬ x - interval = 175 := by intro h'; rw [h'] at h; norm_num at h
      simp [h1, h2, h3]
    · simp

theorem bins_below (x : Rat) (n : Nat) (hn : n ≤ 32) :
    ((List.range n).map fun k => if inBin k x then 1 else 0).sum = if 10 ≤ x ∧ x < 10 + 5 * (n : Rat) then 1 else 0 := by
  induction n with
  | zero =>
    have : ¬ (10 ≤ x ∧ x < 10 + 5 * ((0 : Nat) : Rat)) := by
      rintro ⟨h1, h2⟩
      norm_num at h2
      linarith
    rw [if_neg this]
    rfl
  | succ n ih =>
    rw [List.range_succ, List.map_append, List.sum_append, ih (by omega), List.map_singleton, List.sum_singleton]
    have hb : inBin n x = true ↔ 10 + 5 * (n : Rat) ≤ x ∧ x < 15 + 5 * (n : Rat) := by
      unfold inBin
      have : n ≠ 32 := by omega
      simp [this]
    have hn0 : (0 : Rat) ≤ n := by exact_mod_cast Nat.zero_le n
    push_cast
    by_cases h1 : 10 ≤ x ∧ x < 10 + 5 * (n : Rat)
    · rw [if_pos h1, if_neg (by rw [hb]; rintro ⟨h, _⟩; linarith [h1.2]), if_pos ⟨h1.1, by linarith [h1.2]⟩]
    · rw [if_neg h1]
      by_cases h2 : 10 + 5 * (n : Rat) ≤ x ∧ x < 15 + 5 * (n : Rat)
      · rw [if_pos (hb.mpr h2), if_pos ⟨by linarith [h2.1], by linarith [h2.2]⟩]
      · rw [if_neg (fun h => h2 (hb.mp h)), if_neg]
        rintro ⟨h3, h4⟩
        apply h1
        refine ⟨h3, ?_⟩
        by_contra h5
        exact h2 ⟨by linarith, by linarith⟩

/-- A run is in one of the bars exactly if it lasts from 10 to 175 seconds. -/
theorem bins_total (x : Rat) : ((List.range 33).map fun k => if inBin k x then 1 else 0).sum = if 10 ≤ x ∧ x ≤ 175 then 1 else 0 := by
  rw [show (33 : Nat) = 32 + 1 from rfl, List.range_succ, List.map_append, List.sum_append, bins_below x 32 (le_refl _), List.map_singleton, List.sum_singleton]
  have hb : inBin 32 x = true ↔ 170 ≤ x ∧ x ≤ 175 := by
    unfold inBin
    simp only [Bool.and_eq_true, Bool.or_eq_true, decide_eq_true_eq]
    push_cast
    constructor
    · rintro ⟨h1, h2 | ⟨_, h2⟩⟩
      · exact ⟨by linarith, by linarith⟩
      · exact ⟨by linarith, by linarith⟩
    · rintro ⟨h1, h2⟩
      refine ⟨by linarith, ?_⟩
      rcases lt_or_eq_of_le h2 with h | h
      · exact Or.inl (by linarith)
      · exact Or.inr ⟨trivial, h⟩
  push_cast
  by_cases h1 : 10 ≤ x ∧ x < 10 + 5 * (32 : Rat)
  · rw [if_pos h1, if_neg (by rw [hb]; rintro ⟨h, _⟩; linarith [h1.2]), if_pos ⟨h1.1, by linarith [h1.2]⟩]
  · rw [if_neg h1]
    by_cases h2 : 170 ≤ x ∧ x ≤ 175
    · rw [if_pos (hb.mpr h2), if_pos ⟨by linarith [h2.1], h2.2⟩]
    · rw [if_neg (fun h => h2 (hb.mp h)), if_neg]
      rintro ⟨h3, h4⟩
      apply h1
      refine ⟨h3, ?_⟩
      by_contra h5
      exact h2 ⟨by linarith, h4⟩

theorem bars_sum (l : List Rat) (n : Nat) : ((List.range n).map fun k => l.countP (inBin k)).sum =
    (l.map fun x => ((List.range n).map fun k => if inBin k x then 1 else 0).sum).sum := by
  induction l with
  | nil => simp
  | cons x l ih =>
    rw [List.map_cons, List.sum_cons, ← ih, ← List.sum_map_add]
    congr 1
    apply List.map_congr_left
    intro k _
    rw [List.countP_cons, Nat.add_comm]

/-- **C113 violated: long runs.** All the bars together count the runs which, less the interval between rows, last from 10 to 175 seconds. So no bar counts a longer run, although the code sets
runs of more than 180 seconds to 180 and the axis has the label ">180" for them. -/
theorem C113_violated_long (interval : Rat) (rows : List HuddleRow) :
    (gpsHistogram interval rows).sum = runCount rows fun x => decide (10 ≤ x - interval ∧ x - interval ≤ 175) := by
  rw [runCount_eq]
  unfold gpsHistogram
  dsimp only
  rw [bars_sum, ← countP_filterMap]
  generalize (gpsIntervals rows).filterMap id = l
  induction l with
  | nil => rfl
  | cons x l ih =>
    rw [List.map_cons, List.map_cons, List.sum_cons, ih, List.countP_cons, Nat.add_comm, bins_total]
    congr 1
    have : (10 ≤ shownRunTime interval x ∧ shownRunTime interval x ≤ 175) ↔ (10 ≤ x - interval ∧ x - interval ≤ 175) := by
      unfold shownRunTime
      split
      · rename_i h
        constructor
        · rintro ⟨_, h2⟩; norm_num at h2
        · rintro ⟨_, h2⟩; linarith
      · rfl
    simp only [this, decide_eq_true_eq]

/-! ## Examples -/

/-- Rows every second with the GPS off, then a run of the GPS of `d` seconds. -/
def figureRows (d : Rat) : List HuddleRow :=
  (List.range 12).map (fun (i : Nat) => ⟨some i, some 3, some 20, some 1, some 1, some 1, some 0, some 0, some 100, some 100⟩) ++
    [⟨some (11 + d), some 3, some 20, some 1, some 1, some 1, some 0, some 0, some 100, some 100⟩]

/-- The battery drops to 1 volt in one row, which is not in the figure. -/
def droppedRows : List HuddleRow := (figureRows 20).set 3 ⟨some 3, some 1, some 20, some 1, some 1, some 1, some 0, some 0, some 100, some 100⟩

example : curvePoints HuddleRow.batt (figureRows 20) = [(0, some 3), (10, some 3)] ∧ (timedRows (figureRows 20)).length = 13 := by
  refine ⟨by decide +kernel, by decide +kernel⟩

example : droppedRows.map HuddleRow.t = (figureRows 20).map HuddleRow.t ∧
    curvePoints HuddleRow.batt droppedRows = curvePoints HuddleRow.batt (figureRows 20) ∧
    (HTest.battMin, HStatus.error) ∈ testRow droppedRows ∧ (HTest.battMin, HStatus.okay) ∈ testRow (figureRows 20) := by
  refine ⟨by decide +kernel, by decide +kernel, by decide +kernel, by decide +kernel⟩

/-- A run of 20 seconds is in bar 1; a run of 300 seconds gives a warning, but is in no bar. -/
example : gpsHistogram 1 (figureRows 20) = (List.replicate 33 0).set 1 1 ∧ gpsHistogram 1 (figureRows 300) = List.replicate 33 0 ∧
    gpsStatus (figureRows 300) = .warning ∧ runCount (figureRows 300) (fun _ => true) = 1 := by
  refine ⟨by decide +kernel, by decide +kernel, by decide +kernel, by decide +kernel⟩

end Gemlog
