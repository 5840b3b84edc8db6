import Verif.Model.HuddleFull
import Verif.Props.HuddleTemp
import Verif.Props.Fill

/-!
# C104 and C105: statistics, waveforms and completion of the huddle test
-/

namespace Gemlog

/-! ## Specification -/

/-- The readings of a column that are there. -/
def readings (rows : List HuddleRow) (col : HuddleRow → Option Rat) : List Rat := rows.filterMap col

/-- `x` is the smallest reading. -/
def IsLeastReading (rows : List HuddleRow) (col : HuddleRow → Option Rat) (x : Option Rat) : Prop :=
  ∃ m, x = some m ∧ m ∈ readings rows col ∧ ∀ y ∈ readings rows col, m ≤ y

/-- `x` is the greatest reading. -/
def IsGreatestReading (rows : List HuddleRow) (col : HuddleRow → Option Rat) (x : Option Rat) : Prop :=
  ∃ m, x = some m ∧ m ∈ readings rows col ∧ ∀ y ∈ readings rows col, y ≤ m

/-- `x` is the mean of `l`; missing if there is nothing to average. -/
def IsMeanOf (l : List Rat) (x : Option Rat) : Prop :=
  (x = none ↔ l = []) ∧ ∀ m, x = some m → m * l.length = l.sum

/-- Steps between consecutive numbers. -/
def stepsOf : List Rat → List Rat
  | a :: b :: l => (b - a) :: stepsOf (b :: l)
  | _ => []

/-- The statistics of a logger. -/
def StatsSay (rows : List HuddleRow) (s : HuddleStats) : Prop :=
  ((∀ r ∈ rows, r.batt ≠ none) → IsLeastReading rows HuddleRow.batt s.battMin ∧ IsGreatestReading rows HuddleRow.batt s.battMax) ∧
  ((∀ r ∈ rows, r.temp ≠ none) → IsLeastReading rows HuddleRow.temp s.tempMin ∧ IsGreatestReading rows HuddleRow.temp s.tempMax) ∧
  IsMeanOf (readings rows HuddleRow.temp) s.tempMean ∧
  s.flatA2 * ((rows.length : Rat) - 1) = flatSteps rows HuddleRow.A2 ∧
  s.flatA3 * ((rows.length : Rat) - 1) = flatSteps rows HuddleRow.A3 ∧
  s.fifoOver * rows.length = rows.countP (fun r => decide (∃ x, r.maxFifoUsed = some x ∧ 5 < x)) ∧
  ((∀ r ∈ rows, r.maxOverruns ≠ none) → IsGreatestReading rows HuddleRow.maxOverruns s.maxOverruns) ∧
  (∀ ts : List Rat, ((rows.filter fun r => decide (r.gpsOnFlag = some 0)).map HuddleRow.t) = ts.map some →
    IsMeanOf (((stepsOf ts).drop 10).filter fun d => 11 < d) s.gpsMean) ∧
  s.gpsRatio = min 180 ((readings rows HuddleRow.gpsOnFlag).sum / rows.length * 900)

/-! ## Statistics -/

theorem filterMap_col (rows : List HuddleRow) (col : HuddleRow → Option Rat) :
    (rows.map col).filterMap id = readings rows col := by
  rw [List.filterMap_map]; rfl

theorem mem_readings {rows : List HuddleRow} {col : HuddleRow → Option Rat} {x : Rat} :
    x ∈ readings rows col ↔ HasReading rows col x := by
  unfold readings HasReading; rw [List.mem_filterMap]

theorem least_reading {rows : List HuddleRow} {col : HuddleRow → Option Rat} (hne : rows ≠ [])
    (h : ∀ r ∈ rows, col r ≠ none) :
    IsLeastReading rows col (pyMinCol (rows.map col)) ∧ IsGreatestReading rows col (pyMaxCol (rows.map col)) := by
  obtain ⟨v, h1, h2, h3⟩ := full_col h
  have hv : v ≠ [] := by
    intro hv; rw [hv] at h2; exact hne (List.length_eq_zero_iff.mp h2.symm)
  obtain ⟨m, hm, hmem, hle⟩ := pyMinCol_some v hv
  obtain ⟨m', hm', hmem', hle'⟩ := pyMaxCol_some v hv
  rw [h1]
  exact ⟨⟨m, hm, mem_readings.mpr ((h3 m).mp hmem), fun y hy => hle y ((h3 y).mpr (mem_readings.mp hy))⟩,
    ⟨m', hm', mem_readings.mpr ((h3 m').mp hmem'), fun y hy => hle' y ((h3 y).mpr (mem_readings.mp hy))⟩⟩

theorem skipMean_spec (l : List (Option Rat)) : IsMeanOf (l.filterMap id) (skipMean l) := by
  unfold skipMean IsMeanOf
  split
  · rename_i h; rw [h]; simp
  · rename_i h
    refine ⟨⟨fun h' => absurd h' (by simp), fun h' => absurd h' h⟩, ?_⟩
    rintro m ⟨⟩
    have : ((l.filterMap id).length : Rat) ≠ 0 := by
      simpa using h
    field_simp

theorem diffCol_some (ts : List Rat) : diffCol (ts.map some) = (stepsOf ts).map some := by
  induction ts with
  | nil => rfl
  | cons a l ih =>
    cases l with
    | nil => rfl
    | cons b l =>
      simp only [List.map_cons] at ih
      simp only [List.map_cons, diffCol, stepsOf, ih]

theorem gpsIntervals_full {rows : List HuddleRow} {ts : List Rat}
    (h : ((rows.filter fun r => decide (r.gpsOnFlag = some 0)).map HuddleRow.t) = ts.map some) :
    (gpsIntervals rows).filterMap id = ((stepsOf ts).drop 10).filter fun d => 11 < d := by
  unfold gpsIntervals
  rw [h, diffCol_some, ← List.map_drop, List.filter_map, List.filterMap_map]
  simp only [Function.comp_def, id, nanLt, List.filterMap_some]

theorem statsOf_says (rows : List HuddleRow) (hn : 1 < rows.length) : StatsSay rows (statsOf rows) := by
  have hne : rows ≠ [] := by rintro rfl; simp at hn
  have h1 : ((rows.length : Rat) - 1) ≠ 0 := by
    have : (1 : Rat) < rows.length := by exact_mod_cast hn
    linarith
  have h0 : (rows.length : Rat) ≠ 0 := by
    have : (1 : Rat) < rows.length := by exact_mod_cast hn
    linarith
  have hflat : ∀ col : HuddleRow → Option Rat, flatPart (rows.map col) * ((rows.length : Rat) - 1) = flatSteps rows col := by
    intro col
    unfold flatPart
    rw [flat_count, List.length_map]
    field_simp
  refine ⟨fun h => least_reading hne h, fun h => least_reading hne h, ?_, hflat _, hflat _, ?_, fun h => (least_reading hne h).2, ?_, ?_⟩
  · rw [← filterMap_col]; exact skipMean_spec _
  · simp only [statsOf]
    rw [fifo_count]
    field_simp
  · intro ts hts
    rw [← gpsIntervals_full hts]; exact skipMean_spec _
  · simp only [statsOf, onTime, filterMap_col, List.length_map]
    split
    · rename_i h; rw [min_eq_left h.le]
    · rename_i h; rw [min_eq_right (not_lt.mp h)]

/-! ## The loop over the loggers -/

theorem huddleWave_window {spline : List (Int × Int) → Int → Rat} {empty : Except HExc Unit} {window : Option (Int × Int)}
    {st : List Trace} {w : Int × Int} {tr : Trace} (h : huddleWave spline empty window st = .ok (w, tr)) :
    ∀ w', window = some w' → w = w' := by
  rintro w' rfl
  unfold huddleWave at h
  split at h
  · cases h
  · split at h
    · cases h
    · simp only [Option.getD_some] at h
      split at h
      · cases h
      · split at h
        · split at h
          · cases h
          · cases h; rfl
        · cases h; rfl

/-- What a logger that passes the loop body has. -/
theorem huddleLogger_ok {spline : List (Int × Int) → Int → Rat} {empty : Except HExc Unit} {all : List (List Nat)}
    {window : Option (Int × Int)} {l : HuddleFiles} {rows : List HuddleRow} {w : Int × Int} {tr : Trace}
    (h : huddleLogger spline empty all window l = .ok (rows, w, tr)) :
    l.rows = some rows ∧ labelCheck rows = .ok () ∧ all.count l.sn ≤ 1 ∧ pyInt l.sn ≠ none ∧
      (∃ fixes, l.gps = some fixes ∧ ∀ g ∈ fixes, g.t ≠ none) ∧
      ∃ st, l.wave = some st ∧ huddleWave spline empty window st = .ok (w, tr) := by
  unfold huddleLogger at h
  cases hr : l.rows with
  | none => rw [hr] at h; cases h
  | some rows' =>
    rw [hr] at h
    simp only at h
    cases hl : labelCheck rows' with
    | error e => rw [hl] at h; cases h
    | ok u =>
      rw [hl] at h
      simp only at h
      split at h
      · cases h
      · rename_i hc
        cases hp : pyInt l.sn with
        | none => rw [hp] at h; cases h
        | some z =>
          rw [hp] at h
          simp only at h
          cases hg : l.gps with
          | none => rw [hg] at h; cases h
          | some times =>
            rw [hg] at h
            simp only at h
            split at h
            · cases h
            · rename_i ht
              cases hw : l.wave with
              | none => rw [hw] at h; cases h
              | some st =>
                rw [hw] at h
                simp only at h
                cases hv : huddleWave spline empty window st with
                | error e => rw [hv] at h; cases h
                | ok r =>
                  rw [hv] at h
                  cases h
                  refine ⟨rfl, hl, by omega, by simp, ⟨times, rfl, ?_⟩, st, rfl, hv⟩
                  intro t htm hn
                  exact ht (List.any_eq_true.mpr ⟨t, htm, by rw [hn]; rfl⟩)

theorem huddleLoop_ok {spline : List (Int × Int) → Int → Rat} {empty : Except HExc Unit} {all : List (List Nat)}
    {window : Option (Int × Int)} {ls : List HuddleFiles} {out : List (List Nat × List HuddleRow × Trace)}
    (h : huddleLoop spline empty all window ls = .ok out) :
    List.Forall₂ (fun l q => q.1 = l.sn ∧ l.rows = some q.2.1 ∧ labelCheck q.2.1 = .ok () ∧ all.count l.sn ≤ 1 ∧ pyInt l.sn ≠ none ∧
      (∃ fixes, l.gps = some fixes ∧ ∀ g ∈ fixes, g.t ≠ none) ∧ l.wave ≠ none) ls out := by
  induction ls generalizing window out with
  | nil => cases h; exact .nil
  | cons l rest ih =>
    rw [huddleLoop] at h
    split at h
    · cases h
    · rename_i rows w tr hl
      split at h
      · cases h
      · rename_i out' ho
        cases h
        obtain ⟨h1, h2, h3, h4, h5, st, h6, -⟩ := huddleLogger_ok hl
        exact .cons ⟨rfl, h1, h2, h3, h4, h5, by rw [h6]; simp⟩ (ih ho)

/-- What a run that completes consists of. -/
theorem huddleRun_ok {spline : List (Int × Int) → Int → Rat} {empty : Except HExc Unit} {loggers : List HuddleFiles} {only : Bool}
    {r : HuddleRun} (h : huddleRun spline empty loggers only = .ok r) :
    ∃ read, huddleLoop spline empty (loggers.map HuddleFiles.sn) none loggers = .ok read ∧
      verifyHuddle (read.map fun q => (q.1, q.2.1)) only = .ok r.outcome ∧ r.stats = read.map (fun q => (q.1, statsOf q.2.1)) ∧
      r.waves = read.map fun q => (q.1, q.2.2) := by
  unfold huddleRun at h
  split at h
  · cases h
  · split at h
    · cases h
    · rename_i read hr
      split at h
      · cases h
      · rename_i out ho
        cases h
        exact ⟨read, hr, ho, rfl, rfl⟩

theorem forall₂_at {α β : Type} {R : α → β → Prop} {a : List α} {b : List β} (h : List.Forall₂ R a b) :
    ∀ (i : Nat) (x : α), a[i]? = some x → ∃ y, b[i]? = some y ∧ R x y := by
  induction h with
  | nil => intro i x hx; simp at hx
  | cons hr _ ih =>
    intro i x hx
    cases i with
    | zero => simp only [List.getElem?_cons_zero, Option.some.injEq] at hx; subst hx; exact ⟨_, rfl, hr⟩
    | succ i => simp only [List.getElem?_cons_succ] at hx ⊢; exact ih i x hx

theorem forall₂_map_eq {α β γ : Type} {R : α → β → Prop} {a : List α} {b : List β} {f : α → γ} {g : β → γ} (h : List.Forall₂ R a b)
    (hfg : ∀ x y, R x y → g y = f x) : b.map g = a.map f := by
  induction h with
  | nil => rfl
  | cons hr _ ih => rw [List.map_cons, List.map_cons, hfg _ _ hr, ih]

/-- **C104.** If the huddle test completes, the table of statistics has one row for each logger, in order, and the numbers are
what their names say. -/
theorem C104_statistics (spline : List (Int × Int) → Int → Rat) (empty : Except HExc Unit) (loggers : List HuddleFiles) (only : Bool)
    (r : HuddleRun) (h : huddleRun spline empty loggers only = .ok r) :
    r.stats.map Prod.fst = loggers.map HuddleFiles.sn ∧
    ∀ (i : Nat) (l : HuddleFiles), loggers[i]? = some l →
      ∃ rows s, l.rows = some rows ∧ r.stats[i]? = some (l.sn, s) ∧ StatsSay rows s := by
  obtain ⟨read, h1, -, h3, -⟩ := huddleRun_ok h
  have hf := huddleLoop_ok h1
  rw [h3]
  constructor
  · rw [List.map_map]
    exact forall₂_map_eq hf fun x y hxy => hxy.1
  · intro i l hi
    obtain ⟨q, hq, e1, e2, e3, -⟩ := forall₂_at hf i l hi
    refine ⟨q.2.1, statsOf q.2.1, e2, ?_, statsOf_says _ (labelCheck_length e3)⟩
    rw [List.getElem?_map, hq]
    simp [e1]

/-- **C104 violated: missing readings.** If the first reading of the battery or the temperature is missing, the smallest and the greatest
are missing in the table, whatever the other readings are. -/
theorem C104_violated_missing (r : HuddleRow) (rest : List HuddleRow) :
    (r.batt = none → (statsOf (r :: rest)).battMin = none ∧ (statsOf (r :: rest)).battMax = none) ∧
    (r.temp = none → (statsOf (r :: rest)).tempMin = none ∧ (statsOf (r :: rest)).tempMax = none) := by
  constructor <;> intro hr <;> simp only [statsOf, List.map_cons, hr, pyMinCol, pyMaxCol] <;>
    exact ⟨foldl_min_none _, foldl_max_none _⟩

/-- **C104 violated: the ratio.** The "GPS on-time ratio" is no ratio: every logger with its GPS on for a fifth of the time or more has 180
there. -/
theorem C104_violated_ratio (rows : List HuddleRow) (hne : rows ≠ [])
    (h : (rows.length : Rat) ≤ 5 * (readings rows HuddleRow.gpsOnFlag).sum) : (statsOf rows).gpsRatio = 180 := by
  have h0 : (0 : Rat) < rows.length := by exact_mod_cast List.length_pos_iff.mpr hne
  simp only [statsOf, onTime, filterMap_col, List.length_map]
  split
  · rfl
  · rename_i hn
    refine le_antisymm (not_lt.mp hn) ?_
    rw [div_mul_eq_mul_div, le_div_iff₀ h0]
    linarith

/-! ## Waveforms and completion -/

/-- `tr` is the recording of a logger up to its first gap of a tenth of a second or more, with the shorter gaps before filled by the spline. Every stretch
between two gaps, one of them shorter than that, has more than ten samples. -/
def FirstRun (spline : List (Int × Int) → Int → Rat) (l : HuddleFiles) (tr : Trace) : Prop :=
  ∃ st segs rest, l.wave = some st ∧ (∀ q ∈ st, q.data ≠ []) ∧ Consistent (samples st) ∧ Separate segs ∧ (∀ q, q ∈ samples segs ↔ q ∈ samples st) ∧
    (∀ (i : Nat) (a b c : Trace), segs[i]? = some a → segs[i + 1]? = some b → segs[i + 2]? = some c →
      b.start - a.stop < 10 ∨ c.start - b.stop < 10 → 10 < b.data.length) ∧
    Separate (tr :: rest) ∧ ∀ q, q ∈ samples (tr :: rest) ↔ q ∈ samples st ∨ ∃ (i : Nat) (a b : Trace), segs[i]? = some a ∧ segs[i + 1]? = some b ∧
      b.start - a.stop < 10 ∧ FilledAt spline 10 (samples segs) a b q

/-- The time shown in the figure: the first run without the first and the last ten minutes. -/
def shownTime (tr : Trace) : Int × Int := (tr.start + 60000, tr.stop - 60000)

/-- A trace has a sample in a window. -/
def SampleIn (w : Int × Int) (tr : Trace) : Prop := ∃ q ∈ samples [tr], w.1 ≤ q.1 ∧ q.1 ≤ w.2

theorem remerge_separate {segs : List Trace} (hA : Separate segs) (hc : Consistent (samples segs)) : remerge segs = segs :=
  apart_unique (remerge_spec hA.1 hc).1 hA (remerge_spec hA.1 hc).2

theorem trim_empty_iff (w : Int × Int) (tr : Trace) : (tr.trim w.1 w.2).data = [] ↔ ¬ SampleIn w tr := by
  have h := trim_stamps w.1 w.2 tr
  have e : (tr.trim w.1 w.2).data = [] ↔ stamps (tr.trim w.1 w.2).start (tr.trim w.1 w.2).data = [] := by
    cases (tr.trim w.1 w.2).data <;> simp [stamps]
  rw [e, h, List.filter_eq_nil_iff]
  unfold SampleIn
  simp [samples]

theorem huddleWave_run {spline : List (Int × Int) → Int → Rat} (empty : Except HExc Unit) (window : Option (Int × Int)) {l : HuddleFiles}
    {tr : Trace} (h : FirstRun spline l tr) :
    ∃ st, l.wave = some st ∧ huddleWave spline empty window st =
      if (window.getD (shownTime tr)).1 > (window.getD (shownTime tr)).2 then .error .valueError
      else if (tr.trim (window.getD (shownTime tr)).1 (window.getD (shownTime tr)).2).data = [] then
        match empty with
        | .error e => .error e
        | .ok () => .ok (window.getD (shownTime tr), tr.trim (window.getD (shownTime tr)).1 (window.getD (shownTime tr)).2)
      else .ok (window.getD (shownTime tr), tr.trim (window.getD (shownTime tr)).1 (window.getD (shownTime tr)).2) := by
  obtain ⟨st, segs, rest, h1, h2, h3, h4, h5, h6, h7, h8⟩ := h
  refine ⟨st, h1, ?_⟩
  obtain ⟨out, ho, ho1, ho2⟩ := C88_filled_partial (spline := spline) (g := 10) h2 h3 h4 h5 (by intro i a b c h1 h2 h3 h; exact_mod_cast h6 i a b c h1 h2 h3 h)
  obtain rfl : out = tr :: rest := apart_unique ho1 h7 fun q => (ho2 q).trans (h8 q).symm
  unfold huddleWave
  rw [ho]
  simp only
  rw [remerge_separate h7 (increasing_consistent (apart_increasing h7))]
  rfl

/-- What a logger needs for the loop body not to fail. -/
def LoggerFit (empty : Except HExc Unit) (all : List (List Nat)) (w : Int × Int) (l : HuddleFiles) (tr : Trace) : Prop :=
  (∃ rows, l.rows = some rows ∧ labelCheck rows = .ok ()) ∧ all.count l.sn ≤ 1 ∧ pyInt l.sn ≠ none ∧
    (∃ fixes, l.gps = some fixes ∧ ∀ g ∈ fixes, g.t ≠ none) ∧ w.1 ≤ w.2 ∧ (SampleIn w tr ∨ empty = .ok ())

theorem huddleLogger_fit {spline : List (Int × Int) → Int → Rat} {empty : Except HExc Unit} {all : List (List Nat)}
    {window : Option (Int × Int)} {l : HuddleFiles} {tr : Trace} (h : FirstRun spline l tr) :
    (LoggerFit empty all (window.getD (shownTime tr)) l tr → huddleLogger spline empty all window l =
      .ok (l.rows.getD [], window.getD (shownTime tr), tr.trim (window.getD (shownTime tr)).1 (window.getD (shownTime tr)).2)) ∧
    ((∃ x, huddleLogger spline empty all window l = .ok x) → LoggerFit empty all (window.getD (shownTime tr)) l tr) := by
  obtain ⟨st, hst, hw⟩ := huddleWave_run (spline := spline) empty window h
  generalize window.getD (shownTime tr) = w at hw ⊢
  constructor
  · rintro ⟨⟨rows, hr, hl⟩, hc, hp, ⟨times, hg, ht⟩, hle, hs⟩
    unfold huddleLogger
    obtain ⟨z, hz⟩ := Option.ne_none_iff_exists'.mp hp
    have hany : ¬ (times.any (fun g => g.t.isNone)) = true := by
      intro ha
      obtain ⟨t, ht1, ht2⟩ := List.any_eq_true.mp ha
      exact ht t ht1 (by simpa using ht2)
    rw [hr, hz, hg, hst]
    simp only [hl]
    have hval : huddleWave spline empty window st = .ok (w, tr.trim w.1 w.2) := by
      rw [hw, if_neg (by omega)]
      split
      · rename_i he
        have : empty = .ok () := by
          rcases hs with hs | hs
          · exact absurd hs ((trim_empty_iff w tr).mp he)
          · exact hs
        rw [this]
      · rfl
    rw [if_neg (by omega), if_neg hany, hval]
    rfl
  · rintro ⟨⟨rows, w', tr'⟩, hx⟩
    obtain ⟨h1, h2, h3, h4, h5, st', h6, h7⟩ := huddleLogger_ok hx
    rw [hst] at h6
    cases h6
    rw [hw] at h7
    refine ⟨⟨rows, h1, h2⟩, h3, h4, h5, ?_, ?_⟩
    · by_contra hn
      rw [if_pos (by omega)] at h7
      cases h7
    · by_contra hn
      rw [not_or] at hn
      split at h7
      · cases h7
      · rw [if_pos ((trim_empty_iff w tr).mpr hn.1)] at h7
        cases he : empty with
        | error e => rw [he] at h7; cases h7
        | ok u => exact hn.2 he

theorem huddleLoop_fit {spline : List (Int × Int) → Int → Rat} {empty : Except HExc Unit} {all : List (List Nat)} {run : HuddleFiles → Trace}
    (w : Int × Int) (ls : List HuddleFiles) (h : ∀ l ∈ ls, FirstRun spline l (run l)) :
    ((∀ l ∈ ls, LoggerFit empty all w l (run l)) → huddleLoop spline empty all (some w) ls =
      .ok (ls.map fun l => (l.sn, l.rows.getD [], (run l).trim w.1 w.2))) ∧
    ((∃ x, huddleLoop spline empty all (some w) ls = .ok x) → ∀ l ∈ ls, LoggerFit empty all w l (run l)) := by
  induction ls with
  | nil => exact ⟨fun _ => rfl, fun _ l hl => by simp at hl⟩
  | cons l rest ih =>
    obtain ⟨i1, i2⟩ := ih fun q hq => h q (by simp [hq])
    obtain ⟨f1, f2⟩ := huddleLogger_fit (spline := spline) (empty := empty) (all := all) (window := some w) (h l (by simp))
    simp only [Option.getD_some] at f1 f2
    constructor
    · intro hf
      rw [huddleLoop, f1 (hf l (by simp))]
      simp only
      rw [i1 fun q hq => hf q (by simp [hq])]
      rfl
    · rintro ⟨x, hx⟩
      rw [huddleLoop] at hx
      split at hx
      · cases hx
      · rename_i rows w' tr' hl
        have hw' : w' = w := by
          obtain ⟨-, -, -, -, -, st, -, hv⟩ := huddleLogger_ok hl
          exact huddleWave_window hv w rfl
        subst hw'
        split at hx
        · cases hx
        · rename_i out ho
          intro q hq
          rcases List.mem_cons.mp hq with rfl | hq
          · exact f2 ⟨_, hl⟩
          · exact i2 ⟨_, ho⟩ q hq

/-- **C105.** Loggers whose files are there, and whose waveforms have more than ten samples between gaps of which one is shorter than a tenth of a second:
the huddle test completes exactly if the first logger recorded at least twenty minutes up to its first gap of a tenth of a second, no serial number is given twice, all are numbers, no GPS
time is missing, the tests of the metadata complete, and every logger has samples in the time shown (or the libraries can draw an empty
waveform). The messages, results and statistics are then those of the metadata; the figure shows, for each logger, exactly the samples
of its first run in the time shown. -/
theorem C105_completes_partial (spline : List (Int × Int) → Int → Rat) (empty : Except HExc Unit) (first : HuddleFiles)
    (rest : List HuddleFiles) (only : Bool) (rows : HuddleFiles → List HuddleRow) (fixes : HuddleFiles → List HuddleFix)
    (run : HuddleFiles → Trace) (hfiles : ∀ l ∈ first :: rest, l.rows = some (rows l) ∧ l.gps = some (fixes l) ∧ FirstRun spline l (run l)) :
    ((∃ r, huddleRun spline empty (first :: rest) only = .ok r) ↔
      120000 ≤ (run first).stop - (run first).start ∧ ((first :: rest).map HuddleFiles.sn).Nodup ∧
      (∀ l ∈ first :: rest, pyInt l.sn ≠ none ∧ (∀ g ∈ fixes l, g.t ≠ none) ∧ (SampleIn (shownTime (run first)) (run l) ∨ empty = .ok ())) ∧
      ∃ out, verifyHuddle ((first :: rest).map fun l => (l.sn, rows l)) only = .ok out) ∧
    ∀ r, huddleRun spline empty (first :: rest) only = .ok r →
      verifyHuddle ((first :: rest).map fun l => (l.sn, rows l)) only = .ok r.outcome ∧
      List.Forall₂ (fun l q => q.1 = l.sn ∧ ∀ s, s ∈ samples [q.2] ↔
        s ∈ samples [run l] ∧ (run first).start + 60000 ≤ s.1 ∧ s.1 ≤ (run first).stop - 60000) (first :: rest) r.waves := by
  set all := (first :: rest).map HuddleFiles.sn with hall
  obtain ⟨f1, f2⟩ := huddleLogger_fit (spline := spline) (empty := empty) (all := all) (window := none) (hfiles first (by simp)).2.2
  obtain ⟨i1, i2⟩ := huddleLoop_fit (spline := spline) (empty := empty) (all := all) (shownTime (run first)) rest
    fun l hl => (hfiles l (by simp [hl])).2.2
  simp only [Option.getD_none] at f1 f2
  set w := shownTime (run first) with hw
  have hloop : (∀ l ∈ first :: rest, LoggerFit empty all w l (run l)) → huddleLoop spline empty all none (first :: rest) =
      .ok ((first :: rest).map fun l => (l.sn, l.rows.getD [], (run l).trim w.1 w.2)) := by
    intro hf
    rw [huddleLoop, f1 (hf first (by simp))]
    simp only
    rw [i1 fun l hl => hf l (by simp [hl])]
    rfl
  have hloop' : (∃ x, huddleLoop spline empty all none (first :: rest) = .ok x) → ∀ l ∈ first :: rest, LoggerFit empty all w l (run l) := by
    rintro ⟨x, hx⟩
    rw [huddleLoop] at hx
    split at hx
    · cases hx
    · rename_i rows' w' tr' hl
      have hfit := f2 ⟨_, hl⟩
      rw [f1 hfit] at hl
      cases hl
      split at hx
      · cases hx
      · rename_i out ho
        intro q hq
        rcases List.mem_cons.mp hq with rfl | hq
        · exact hfit
        · exact i2 ⟨_, ho⟩ q hq
  have hmap : (((first :: rest).map fun l => (l.sn, l.rows.getD [], (run l).trim w.1 w.2)).map fun q => (q.1, q.2.1)) =
      (first :: rest).map fun l => (l.sn, rows l) := by
    rw [List.map_map]
    apply List.map_congr_left
    intro l hl
    simp [(hfiles l hl).1]
  have hread : ∀ r, huddleRun spline empty (first :: rest) only = .ok r → (∀ l ∈ first :: rest, LoggerFit empty all w l (run l)) ∧
      verifyHuddle ((first :: rest).map fun l => (l.sn, rows l)) only = .ok r.outcome ∧
      r.waves = (first :: rest).map fun l => (l.sn, (run l).trim w.1 w.2) := by
    intro r hr
    obtain ⟨read, e1, e2, -, e4⟩ := huddleRun_ok hr
    have hf := hloop' ⟨_, e1⟩
    rw [hloop hf] at e1
    cases e1
    rw [hmap] at e2
    refine ⟨hf, e2, ?_⟩
    rw [e4, List.map_map]
    rfl
  refine ⟨⟨?_, ?_⟩, ?_⟩
  · rintro ⟨r, hr⟩
    obtain ⟨hf, hv, -⟩ := hread r hr
    refine ⟨?_, ?_, ?_, _, hv⟩
    · have := (hf first (by simp)).2.2.2.2.1
      simp only [hw, shownTime] at this
      omega
    · rw [List.nodup_iff_count_le_one]
      intro a
      by_cases ha : a ∈ all
      · obtain ⟨l, hl, rfl⟩ := List.mem_map.mp ha
        exact (hf l hl).2.1
      · rw [List.count_eq_zero.mpr ha]; omega
    · intro l hl
      obtain ⟨-, -, e3, ⟨t, ht, htn⟩, -, e6⟩ := hf l hl
      rw [(hfiles l hl).2.1] at ht
      cases ht
      exact ⟨e3, htn, e6⟩
  · rintro ⟨h1, h2, h3, out, h4⟩
    have hlab := (individualTests_eq _ _ _ (verifyHuddle_individual h4)).1
    have hf : ∀ l ∈ first :: rest, LoggerFit empty all w l (run l) := by
      intro l hl
      refine ⟨⟨rows l, (hfiles l hl).1, hlab (l.sn, rows l) (List.mem_map.mpr ⟨l, hl, rfl⟩)⟩,
        List.nodup_iff_count_le_one.mp h2 _, (h3 l hl).1, ⟨fixes l, (hfiles l hl).2.1, (h3 l hl).2.1⟩, ?_, (h3 l hl).2.2⟩
      simp only [hw, shownTime]
      omega
    unfold huddleRun
    rw [if_neg (by simp), ← hall, hloop hf]
    simp only
    rw [hmap, h4]
    exact ⟨_, rfl⟩
  · intro r hr
    obtain ⟨-, e1, e2⟩ := hread r hr
    refine ⟨e1, ?_⟩
    rw [e2, List.forall₂_map_right_iff]
    refine List.forall₂_same.mpr fun l _ => ⟨rfl, fun s => ?_⟩
    have := trim_stamps w.1 w.2 (run l)
    simp only [samples, List.flatMap_cons, List.flatMap_nil, List.append_nil]
    rw [this, List.mem_filter]
    simp [hw, shownTime]

/-- **C105 violated: serial numbers with letters.** A logger whose serial number is not a number ends the test for all loggers. -/
theorem C105_violated_letters (spline : List (Int × Int) → Int → Rat) (empty : Except HExc Unit) (loggers : List HuddleFiles) (only : Bool)
    (l : HuddleFiles) (hl : l ∈ loggers) (hsn : pyInt l.sn = none) : ∃ e, huddleRun spline empty loggers only = .error e := by
  cases h : huddleRun spline empty loggers only with
  | error e => exact ⟨e, rfl⟩
  | ok r =>
    obtain ⟨read, h1, -⟩ := huddleRun_ok h
    obtain ⟨i, hi⟩ := List.mem_iff_getElem?.mp hl
    obtain ⟨q, -, -, -, -, -, hp, -⟩ := forall₂_at (huddleLoop_ok h1) i l hi
    exact absurd hsn hp

/-- **C105 violated: serial numbers given twice.** If a serial number is given twice, the test ends with an exception. -/
theorem C105_violated_twice (spline : List (Int × Int) → Int → Rat) (empty : Except HExc Unit) (loggers : List HuddleFiles) (only : Bool)
    (h2 : ¬ (loggers.map HuddleFiles.sn).Nodup) : ∃ e, huddleRun spline empty loggers only = .error e := by
  cases h : huddleRun spline empty loggers only with
  | error e => exact ⟨e, rfl⟩
  | ok r =>
    obtain ⟨read, h1, -⟩ := huddleRun_ok h
    refine absurd (List.nodup_iff_count_le_one.mpr fun a => ?_) h2
    by_cases ha : a ∈ loggers.map HuddleFiles.sn
    · obtain ⟨l, hl, rfl⟩ := List.mem_map.mp ha
      obtain ⟨i, hi⟩ := List.mem_iff_getElem?.mp hl
      obtain ⟨q, -, -, -, -, hc, -⟩ := forall₂_at (huddleLoop_ok h1) i l hi
      exact hc
    · rw [List.count_eq_zero.mpr ha]; omega

/-- **C105 violated: after a gap.** Nothing that a logger recorded after its first gap of a tenth of a second or more is shown, whether or not it
lies in the time shown. -/
theorem C105_violated_gap (spline : List (Int × Int) → Int → Rat) (empty : Except HExc Unit) (first : HuddleFiles) (rest : List HuddleFiles)
    (only : Bool) (rows : HuddleFiles → List HuddleRow) (fixes : HuddleFiles → List HuddleFix) (run : HuddleFiles → Trace)
    (hfiles : ∀ l ∈ first :: rest, l.rows = some (rows l) ∧ l.gps = some (fixes l) ∧ FirstRun spline l (run l)) (r : HuddleRun)
    (hr : huddleRun spline empty (first :: rest) only = .ok r) (i : Nat) (l : HuddleFiles) (hl : (first :: rest)[i]? = some l)
    (s : Int × Int) (hafter : (run l).stop < s.1) :
    ∃ tr, r.waves[i]? = some (l.sn, tr) ∧ s ∉ samples [tr] := by
  obtain ⟨-, hw⟩ := (C105_completes_partial spline empty first rest only rows fixes run hfiles).2 r hr
  obtain ⟨q, hq, e1, e2⟩ := forall₂_at hw i l hl
  refine ⟨q.2, by rw [hq, ← e1], fun hin => ?_⟩
  have h1 := ((e2 s).mp hin).1
  simp only [samples, List.flatMap_cons, List.flatMap_nil, List.append_nil] at h1
  have h2 := mem_stamps_range h1
  have hne : (run l).data.length ≠ 0 := by omega
  unfold Trace.stop at hafter
  rw [if_neg hne] at hafter
  omega

/-- **C105 violated: short tests.** If the recording of the first logger is shorter than twenty minutes, or has a gap of a tenth of a second
or more in its first twenty minutes, the test ends with an exception, however good the data of all loggers are otherwise. -/
theorem C105_violated_short (spline : List (Int × Int) → Int → Rat) (empty : Except HExc Unit) (first : HuddleFiles) (rest : List HuddleFiles)
    (only : Bool) (tr : Trace) (hrun : FirstRun spline first tr) (hshort : tr.stop - tr.start < 120000) :
    ∃ e, huddleRun spline empty (first :: rest) only = .error e := by
  cases h : huddleRun spline empty (first :: rest) only with
  | error e => exact ⟨e, rfl⟩
  | ok r =>
    obtain ⟨read, h1, -⟩ := huddleRun_ok h
    rw [huddleLoop] at h1
    split at h1
    · cases h1
    · rename_i rows w tr' hl
      have := ((huddleLogger_fit hrun).2 ⟨_, hl⟩).2.2.2.2.1
      simp only [Option.getD_none, shownTime] at this
      omega

theorem huddleLoop_wave {spline : List (Int × Int) → Int → Rat} {empty : Except HExc Unit} {all : List (List Nat)}
    {window : Option (Int × Int)} {ls : List HuddleFiles} {out : List (List Nat × List HuddleRow × Trace)}
    (h : huddleLoop spline empty all window ls = .ok out) {l : HuddleFiles} (hl : l ∈ ls) :
    ∃ st w x, l.wave = some st ∧ huddleWave spline empty w st = .ok x := by
  induction ls generalizing window out with
  | nil => cases hl
  | cons a rest ih =>
    rw [huddleLoop] at h
    split at h
    · cases h
    · rename_i rows w tr ha
      split at h
      · cases h
      · rename_i out' ho
        rcases List.mem_cons.mp hl with rfl | hl
        · unfold huddleLogger at ha
          repeat' split at ha
          all_goals first
            | cases ha; done
            | exact ⟨_, _, _, by assumption, by assumption⟩
        · exact ih ho hl

/-- **C105 violated: close gaps.** If the recording of any logger has two gaps shorter than a tenth of a second, with at most a tenth of a second between their ends, the
test ends with an exception. -/
theorem C105_violated_close (spline : List (Int × Int) → Int → Rat) (empty : Except HExc Unit) (loggers : List HuddleFiles) (only : Bool)
    (l : HuddleFiles) (hl : l ∈ loggers) (st : List Trace) (hw : l.wave = some st) (hne : ∀ tr ∈ st, tr.data ≠ []) (hc : Consistent (samples st))
    (x y z : Trace) (hA : Separate [x, y, z]) (hs : ∀ q, q ∈ samples [x, y, z] ↔ q ∈ samples st) (h1 : y.start - x.stop < 10)
    (h2 : z.start - y.stop < 10) (h3 : z.start ≤ y.start + 10) : ∃ e, huddleRun spline empty loggers only = .error e := by
  cases h : huddleRun spline empty loggers only with
  | error e => exact ⟨e, rfl⟩
  | ok r =>
    obtain ⟨read, h4, -⟩ := huddleRun_ok h
    obtain ⟨st', w, out, e1, e2⟩ := huddleLoop_wave h4 hl
    obtain rfl : st' = st := Option.some.inj (e1.symm.trans hw)
    unfold huddleWave at e2
    rw [C88_violated_close hne hc hA hs h1 h2 h3] at e2
    cases e2

/-! ## Examples -/

/-- Files of a logger with metadata and one waveform of `n` equal samples. -/
def huddleFiles (sn : List Nat) (rows : List HuddleRow) (start : Int) (n : Nat) : HuddleFiles :=
  ⟨sn, some rows, some [⟨some 43, some (-116), some 0⟩], some [⟨start, List.replicate n 7⟩]⟩

theorem demo_firstRun (spline : List (Int × Int) → Int → Rat) (sn : List Nat) (rows : List HuddleRow) (start : Int) (n : Nat) (hn : n ≠ 0) :
    FirstRun spline (huddleFiles sn rows start n) ⟨start, List.replicate n 7⟩ := by
  have hsep : Separate [⟨start, List.replicate n 7⟩] := by
    refine ⟨?_, List.IsChain.singleton _⟩
    intro q hq
    rw [List.mem_singleton] at hq
    subst hq
    simpa using hn
  refine ⟨_, _, [], rfl, hsep.1, ?_, hsep, fun q => Iff.rfl, ?_, hsep, ?_⟩
  · intro t x y hx hy
    simp only [samples, List.flatMap_cons, List.flatMap_nil, List.append_nil] at hx hy
    have h1 := ((mem_stamps_iff _ _ _ _).mp hx).2
    have h2 := ((mem_stamps_iff _ _ _ _).mp hy).2
    exact Option.some.inj (h1.symm.trans h2)
  · intro i a b c _ h
    simp at h
  · intro q
    constructor
    · exact Or.inl
    · rintro (h | ⟨i, a, b, -, h, -⟩)
      · exact h
      · simp at h

/-- Every recording has a first run, unless stretches between short gaps are very short. -/
theorem firstRun_exists (spline : List (Int × Int) → Int → Rat) (l : HuddleFiles) (st segs : List Trace) (hw : l.wave = some st) (hst : st ≠ [])
    (hne : ∀ q ∈ st, q.data ≠ []) (hc : Consistent (samples st)) (hA : Separate segs) (hs : ∀ q, q ∈ samples segs ↔ q ∈ samples st)
    (hlong : ∀ (i : Nat) (a b c : Trace), segs[i]? = some a → segs[i + 1]? = some b → segs[i + 2]? = some c →
      b.start - a.stop < 10 ∨ c.start - b.stop < 10 → 10 < b.data.length) : ∃ tr, FirstRun spline l tr := by
  obtain ⟨out, -, ho1, ho2⟩ := C88_filled_partial (spline := spline) (g := 10) hne hc hA hs
    (by intro i a b c h1 h2 h3 h; exact_mod_cast hlong i a b c h1 h2 h3 h)
  cases out with
  | cons tr rest => exact ⟨tr, st, segs, rest, hw, hne, hc, hA, hs, hlong, ho1, ho2⟩
  | nil =>
    exfalso
    obtain ⟨t, ht⟩ := List.exists_mem_of_ne_nil st hst
    have hd := hne t ht
    obtain ⟨x, xs, hx⟩ := List.exists_cons_of_ne_nil hd
    have : (t.start, x) ∈ samples st := List.mem_flatMap.mpr ⟨t, ht, by rw [hx]; simp [stamps]⟩
    have := (ho2 _).mpr (Or.inl this)
    simp [samples] at this

theorem demo_stop (start : Int) (n : Nat) (hn : n ≠ 0) : Trace.stop ⟨start, List.replicate n 7⟩ = start + n - 1 := by
  simp [Trace.stop, hn]

/-- Two loggers with at least 21 minutes of data complete the test, although libraries fail for empty waveforms. -/
theorem demo_completes (spline : List (Int × Int) → Int → Rat) (m n : Nat) (hm : 721 ≤ m) (hn : 126000 ≤ n) :
    ∃ r, huddleRun spline (.error .other) [huddleFiles (bytes "061") (curveRows 30 1 m fun _ => 20) 3000 n,
      huddleFiles (bytes "065") (curveRows (30 + 1) 1 m fun _ => 25) 4000 n] false = .ok r := by
  refine (C105_completes_partial spline _ _ _ false (fun l => l.rows.getD []) (fun l => l.gps.getD [])
    (fun l => (l.wave.getD []).headD ⟨0, []⟩) ?_).1.mpr ⟨?_, ?_, ?_, ?_⟩
  · intro l hl
    simp only [List.mem_cons, List.not_mem_nil, or_false] at hl
    rcases hl with rfl | rfl <;> exact ⟨rfl, rfl, demo_firstRun _ _ _ _ _ (by omega)⟩
  · simp only [huddleFiles, Option.getD_some, List.headD_cons]
    rw [demo_stop _ _ (by omega)]
    omega
  · simp only [huddleFiles, List.map_cons, List.map_nil]
    decide +kernel
  · intro l hl
    have key : ∀ start : Int, start ≤ 63000 → 0 < start → SampleIn (shownTime ⟨3000, List.replicate n 7⟩) ⟨start, List.replicate n 7⟩ := by
      intro start h2 h3
      refine ⟨(63000, 7), ?_, by simp [shownTime], ?_⟩
      · simp only [samples, List.flatMap_cons, List.flatMap_nil, List.append_nil]
        rw [mem_stamps_iff]
        refine ⟨h2, ?_⟩
        rw [List.getElem?_replicate, if_pos (by omega)]
      · simp only [shownTime]
        rw [demo_stop _ _ (by omega)]
        omega
    simp only [List.mem_cons, List.not_mem_nil, or_false] at hl
    rcases hl with rfl | rfl
    · exact ⟨show pyInt (bytes "061") ≠ none by decide +kernel, by simp [huddleFiles], Or.inl (key 3000 (by norm_num) (by norm_num))⟩
    · exact ⟨show pyInt (bytes "065") ≠ none by decide +kernel, by simp [huddleFiles], Or.inl (key 4000 (by norm_num) (by norm_num))⟩
  · obtain ⟨h1, h2, h3, h4⟩ := demo_C79 1 m (by norm_num) (by omega) (by omega) _ 20 25 rfl
    obtain ⟨out, _, _, h, -⟩ := C79_temperatures_partial 1 60 (by norm_num) _ false (by simp) h1 _ _ h2 h3 h4
    exact ⟨out, h⟩

/-- A logger with less than twenty minutes of data, which its metadata would pass. -/
example (spline : List (Int × Int) → Int → Rat) (rest : List HuddleFiles) (n : Nat) (hn : n ≠ 0) (h : n ≤ 120000) :
    ∃ e, huddleRun spline (.ok ()) (huddleFiles (bytes "061") (curveRows 30 1 900 fun _ => 20) 3000 n :: rest) false = .error e :=
  C105_violated_short spline _ _ _ _ _ (demo_firstRun _ _ _ _ _ hn) (by rw [demo_stop _ _ hn]; dsimp only; omega)

example (spline : List (Int × Int) → Int → Rat) (rows : List HuddleRow) (n : Nat) :
    ∃ e, huddleRun spline (.ok ()) [huddleFiles (bytes "06A") rows 3000 n] false = .error e :=
  C105_violated_letters spline _ _ _ _ (List.mem_singleton_self _) (show pyInt (bytes "06A") = none by decide +kernel)

example (spline : List (Int × Int) → Int → Rat) (rows : List HuddleRow) (n : Nat) :
    ∃ e, huddleRun spline (.ok ()) [huddleFiles (bytes "061") rows 3000 n, huddleFiles (bytes "061") rows 3000 n] false = .error e :=
  C105_violated_twice spline _ _ _ (by simp [huddleFiles])

/-- GPS always on, or on in every fifth row: the same entry. -/
example : (statsOf [{ plainRow 0 5 20 1 with gpsOnFlag := some 1 }, { plainRow 1 5 20 1 with gpsOnFlag := some 1 }]).gpsRatio = 180 ∧
    (statsOf ({ plainRow 0 5 20 1 with gpsOnFlag := some 1 } :: List.replicate 4 (plainRow 1 5 20 1))).gpsRatio = 180 :=
  ⟨C104_violated_ratio _ (by simp) (by simp [readings, plainRow]; norm_num), C104_violated_ratio _ (by simp) (by decide +kernel)⟩

/-- The statistics of twelve rows. -/
example : (statsOf (demoHuddleRows 5 20)).battMin = some (489 / 100) ∧ (statsOf (demoHuddleRows 5 20)).tempMean = some 20 := by
  decide +kernel

/-- A recording with two gaps of three samples, two samples apart. -/
example (spline : List (Int × Int) → Int → Rat) : ∃ e, huddleRun spline (.ok ()) [⟨bytes "061", some [], some [],
    some [⟨0, [1, 2]⟩, ⟨5, [3, 4]⟩, ⟨10, [5, 6]⟩]⟩] false = .error e := by
  have hA : Separate [⟨0, [1, 2]⟩, ⟨5, [3, 4]⟩, ⟨10, [5, 6]⟩] := by
    refine ⟨by simp, ?_⟩
    simp [Trace.stop]
  exact C105_violated_close spline _ _ _ _ (List.mem_singleton_self _) _ rfl hA.1 (increasing_consistent (apart_increasing hA)) _ _ _ hA
    (fun q => Iff.rfl) (by decide) (by decide) (by decide)

end Gemlog
