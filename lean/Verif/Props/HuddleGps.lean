import Verif.Props.HuddleFull

/-!
# C110: the huddle test checks the GPS and the waveforms

The documentation of `verify_huddle_test` says that GPS information is checked to be collected frequently and to show one place, for each logger and for all
loggers together, and that waveforms are checked for clipping. Proved: a GPS that runs for more than three minutes is reported, if the logger has
recorded at least ten rows with the GPS off before, and switches it off again. Nothing else of this is checked.
-/

namespace Gemlog

/-! ## Specification -/

/-- The same files, except for the GPS file; both GPS files are tables in which no time is missing. -/
def SameButGps (l l' : HuddleFiles) : Prop :=
  l'.sn = l.sn ∧ l'.rows = l.rows ∧ l'.wave = l.wave ∧
    (∃ fixes, l.gps = some fixes ∧ ∀ g ∈ fixes, g.t ≠ none) ∧ ∃ fixes, l'.gps = some fixes ∧ ∀ g ∈ fixes, g.t ≠ none

/-- The same serial number and metadata; waveforms and GPS files may differ. -/
def SameMetadata (l l' : HuddleFiles) : Prop := l'.sn = l.sn ∧ l'.rows = l.rows

/-! ## Proofs -/

theorem gpsStatus_warning (rows : List HuddleRow) : gpsStatus rows = .warning ↔ WarningCase rows .gpsRunTime := by
  have h := gps_any rows
  unfold gpsStatus
  by_cases hc : WarningCase rows .gpsRunTime
  · rw [if_pos (h.mpr hc)]; simp [hc]
  · rw [if_neg (fun h' => hc (h.mp h'))]; simp [hc]

/-- The loggers as the single tests see them. -/
theorem huddleRun_loggers {spline : List (Int × Int) → Int → Rat} {empty : Except HExc Unit} {loggers : List HuddleFiles} {only : Bool}
    {r : HuddleRun} (h : huddleRun spline empty loggers only = .ok r) :
    verifyHuddle (loggers.map fun l => (l.sn, l.rows.getD [])) only = .ok r.outcome ∧
      r.stats = loggers.map fun l => (l.sn, statsOf (l.rows.getD [])) := by
  obtain ⟨read, h1, h2, h3, -⟩ := huddleRun_ok h
  have hf := huddleLoop_ok h1
  have e1 : read.map (fun q => (q.1, q.2.1)) = loggers.map fun l => (l.sn, l.rows.getD []) :=
    forall₂_map_eq hf fun l q hq => by rw [hq.1, hq.2.1]; rfl
  have e2 : read.map (fun q => (q.1, statsOf q.2.1)) = loggers.map fun l => (l.sn, statsOf (l.rows.getD [])) :=
    forall₂_map_eq hf fun l q hq => by rw [hq.1, hq.2.1]; rfl
  exact ⟨e1 ▸ h2, e2 ▸ h3⟩

/-- **C110, long GPS runs.** If a logger has at least ten rows with the GPS off, then a row with the GPS off, and the next row with the GPS off is more than 180
seconds later, there is a warning about its GPS. Missing: everything else that the documentation says about GPS data and waveforms. -/
theorem C110_long_run_partial (spline : List (Int × Int) → Int → Rat) (empty : Except HExc Unit) (loggers : List HuddleFiles) (only : Bool)
    (r : HuddleRun) (h : huddleRun spline empty loggers only = .ok r) (l : HuddleFiles) (hl : l ∈ loggers)
    (before during after : List HuddleRow) (x y : HuddleRow) (hrows : l.rows = some (before ++ x :: during ++ y :: after))
    (hten : 10 ≤ before.countP fun q => decide (q.gpsOnFlag = some 0)) (hx : x.gpsOnFlag = some 0) (hy : y.gpsOnFlag = some 0)
    (hon : ∀ q ∈ during, q.gpsOnFlag ≠ some 0) (a b : Rat) (ha : x.t = some a) (hb : y.t = some b) (hab : 180 < b - a) :
    ⟨.gpsRunTime, some l.sn⟩ ∈ r.outcome.printed.individual.warnings := by
  obtain ⟨hv, -⟩ := huddleRun_loggers h
  obtain ⟨-, -, -, hw, -⟩ := individualTests_eq _ _ _ (verifyHuddle_individual hv)
  rw [hw, List.nil_append, List.mem_flatMap]
  refine ⟨(l.sn, l.rows.getD []), List.mem_map.mpr ⟨l, hl, rfl⟩, ?_⟩
  rw [mem_messagesFor]
  refine ⟨?_, by simp⟩
  have hs : gpsStatus (l.rows.getD []) = .warning := by
    rw [gpsStatus_warning, hrows, Option.getD_some]
    refine ⟨(before.filter fun q => decide (q.gpsOnFlag = some 0)).length, x, y, a, b, by rw [← List.countP_eq_length_filter]; exact hten, ?_, ?_, ha, hb, hab⟩
    · rw [List.append_assoc, List.filter_append, List.getElem?_append_right (Nat.le_refl _), Nat.sub_self, List.cons_append, List.filter_cons_of_pos (by simp [hx])]
      rfl
    · have hnil : (during.filter fun q => decide (q.gpsOnFlag = some 0)) = [] := by
        rw [List.filter_eq_nil_iff]
        intro q hq
        simpa using hon q hq
      rw [List.append_assoc, List.filter_append, List.getElem?_append_right (Nat.le_succ _), List.cons_append, List.filter_cons_of_pos (by simp [hx]),
        List.filter_append, hnil, List.nil_append, List.filter_cons_of_pos (by simp [hy])]
      simp
  unfold testRow
  rw [hs]
  simp

theorem huddleLogger_sameGps {spline : List (Int × Int) → Int → Rat} {empty : Except HExc Unit} {all : List (List Nat)} {window : Option (Int × Int)}
    {l l' : HuddleFiles} (h : SameButGps l l') : huddleLogger spline empty all window l' = huddleLogger spline empty all window l := by
  obtain ⟨h1, h2, h3, ⟨f, hf, hf'⟩, g, hg, hg'⟩ := h
  have hno : ∀ fixes : List HuddleFix, (∀ g ∈ fixes, g.t ≠ none) → (fixes.any fun g => g.t.isNone) = false := by
    intro fixes hall
    rw [List.any_eq_false]
    intro g hgm
    have := hall g hgm
    simpa using this
  unfold huddleLogger
  rw [h1, h2, h3, hf, hg]
  simp only [hno f hf', hno g hg']

theorem huddleLoop_sameGps {spline : List (Int × Int) → Int → Rat} {empty : Except HExc Unit} {all : List (List Nat)}
    {ls ls' : List HuddleFiles} (h : List.Forall₂ SameButGps ls ls') : ∀ window : Option (Int × Int),
    huddleLoop spline empty all window ls' = huddleLoop spline empty all window ls := by
  induction h with
  | nil => intro _; rfl
  | cons hl _ ih =>
    intro window
    rw [huddleLoop, huddleLoop, huddleLogger_sameGps hl]
    simp only [ih, hl.1]

/-- **C110 is violated for GPS data.** The result does not depend on what the GPS files say, as long as no time is missing: neither on the positions, which may be
anywhere on the globe, nor on the number of fixes, which may be zero. -/
theorem C110_violated_positions (spline : List (Int × Int) → Int → Rat) (empty : Except HExc Unit) (loggers loggers' : List HuddleFiles) (only : Bool)
    (h : List.Forall₂ SameButGps loggers loggers') : huddleRun spline empty loggers' only = huddleRun spline empty loggers only := by
  unfold huddleRun
  have h1 : loggers' = [] ↔ loggers = [] := by cases h <;> simp
  have h2 : loggers'.map HuddleFiles.sn = loggers.map HuddleFiles.sn := by
    exact forall₂_map_eq h fun l l' hl => hl.1
  rw [h2, huddleLoop_sameGps h]
  simp only [h1]

/-- **C110 is violated for waveforms.** Of two tests that complete with the same metadata, one may have flat or clipped waveforms, or those of another place: the
messages, results and statistics are the same. -/
theorem C110_violated_waveforms (spline : List (Int × Int) → Int → Rat) (empty : Except HExc Unit) (loggers loggers' : List HuddleFiles) (only : Bool)
    (h : List.Forall₂ SameMetadata loggers loggers') (r r' : HuddleRun) (hr : huddleRun spline empty loggers only = .ok r)
    (hr' : huddleRun spline empty loggers' only = .ok r') : r'.outcome = r.outcome ∧ r'.stats = r.stats := by
  obtain ⟨h1, h2⟩ := huddleRun_loggers hr
  obtain ⟨h1', h2'⟩ := huddleRun_loggers hr'
  have e1 : loggers'.map (fun l => (l.sn, l.rows.getD [])) = loggers.map fun l => (l.sn, l.rows.getD []) :=
    forall₂_map_eq h fun l l' hl => by rw [hl.1, hl.2]
  have e2 : loggers'.map (fun l => (l.sn, statsOf (l.rows.getD []))) = loggers.map fun l => (l.sn, statsOf (l.rows.getD [])) :=
    forall₂_map_eq h fun l l' hl => by rw [hl.1, hl.2]
  rw [e1, h1] at h1'
  injection h1' with h1'
  exact ⟨h1'.symm, by rw [h2, h2', e2]⟩

/-- **C110 is violated for the GPS run time.** A logger whose GPS never stopped running, in every row on, passes the test of the GPS run time. So does one whose GPS never ran: off
in every row, with at most 180 seconds from row to row. -/
theorem C110_violated_always (spline : List (Int × Int) → Int → Rat) (empty : Except HExc Unit) (loggers : List HuddleFiles) (only : Bool)
    (r : HuddleRun) (h : huddleRun spline empty loggers only = .ok r) (i : Nat) (l : HuddleFiles) (hl : loggers[i]? = some l)
    (rows : List HuddleRow) (hrows : l.rows = some rows)
    (hflag : (∀ q ∈ rows, q.gpsOnFlag = some 1) ∨ (∀ q ∈ rows, q.gpsOnFlag = some 0) ∧
      ∀ (k : Nat) (x y : HuddleRow) (a b : Rat), rows[k]? = some x → rows[k + 1]? = some y → x.t = some a → y.t = some b → b - a ≤ 180) :
    ∃ row, r.outcome.printed.individual.results[i]? = some (l.sn, row) ∧ (HTest.gpsRunTime, HStatus.okay) ∈ row := by
  obtain ⟨hv, -⟩ := huddleRun_loggers h
  obtain ⟨-, hres, -⟩ := individualTests_eq _ _ _ (verifyHuddle_individual hv)
  refine ⟨testRow rows, ?_, ?_⟩
  · rw [hres, List.nil_append, List.getElem?_map, List.getElem?_map, hl, Option.map_some, Option.map_some, hrows]
    rfl
  · have hnot : ¬ WarningCase rows .gpsRunTime := by
      rintro ⟨k, x, y, a, b, -, hx, hy, ha, hb, hab⟩
      rcases hflag with hon | ⟨hoff, hstep⟩
      · have : (rows.filter fun q => decide (q.gpsOnFlag = some 0)) = [] := by
          rw [List.filter_eq_nil_iff]
          intro q hq
          rw [hon q hq]
          decide
        rw [this] at hx
        simp at hx
      · have : (rows.filter fun q => decide (q.gpsOnFlag = some 0)) = rows := by
          rw [List.filter_eq_self]
          intro q hq
          rw [hoff q hq]
          decide
        rw [this] at hx hy
        have := hstep k x y a b hx hy ha hb
        linarith
    have hs : gpsStatus rows = .okay := by
      have h1 := (gpsStatus_warning rows).not.mpr hnot
      unfold gpsStatus at h1 ⊢
      split
      · rename_i hc; rw [if_pos hc] at h1; exact absurd rfl h1
      · rfl
    unfold testRow
    rw [hs]
    simp

/-! ## Examples -/

/-- A logger in Boise, and the same files with a GPS file from Paris, or without a single fix. -/
example (rows : List HuddleRow) (start : Int) (n : Nat) :
    SameButGps (huddleFiles (bytes "061") rows start n) { huddleFiles (bytes "061") rows start n with gps := some [⟨some 49, some 2, some 0⟩] } ∧
    SameButGps (huddleFiles (bytes "061") rows start n) { huddleFiles (bytes "061") rows start n with gps := some [] } := by
  refine ⟨⟨rfl, rfl, rfl, ⟨_, rfl, ?_⟩, _, rfl, ?_⟩, ⟨rfl, rfl, rfl, ⟨_, rfl, ?_⟩, _, rfl, ?_⟩⟩ <;> simp

/-- Ten rows with the GPS off, one more, and the next only 200 seconds later. -/
example : WarningCase (((List.range 11).map fun i : Nat => plainRow (i : Rat) 5 20 1) ++ [plainRow 210 5 20 1]) .gpsRunTime := by
  rw [← gpsStatus_warning]
  decide +kernel

example : gpsStatus ((List.range 5000).map fun i : Nat => { plainRow (i : Rat) 5 20 1 with gpsOnFlag := some 1 }) = .okay := by decide +kernel

end Gemlog
