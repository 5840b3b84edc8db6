import Verif.Props.HuddleFull

/-!
# C105: missing files
-/

namespace Gemlog

/-- **C105: missing files.** The test completes only if the metadata, GPS and waveform files of all loggers are there. -/
theorem C105_missing_file (spline : List (Int × Int) → Int → Rat) (empty : Except HExc Unit) (loggers : List HuddleFiles) (only : Bool)
    (l : HuddleFiles) (hl : l ∈ loggers) (hno : l.rows = none ∨ l.gps = none ∨ l.wave = none) :
    ∃ e, huddleRun spline empty loggers only = .error e := by
  cases h : huddleRun spline empty loggers only with
  | error e => exact ⟨e, rfl⟩
  | ok r =>
    obtain ⟨read, h1, -⟩ := huddleRun_ok h
    obtain ⟨i, hi⟩ := List.mem_iff_getElem?.mp hl
    obtain ⟨q, -, -, hr, -, -, -, ⟨fixes, hg, -⟩, hw⟩ := forall₂_at (huddleLoop_ok h1) i l hi
    rcases hno with h | h | h
    · rw [h] at hr; cases hr
    · rw [h] at hg; cases hg
    · exact absurd h hw

/-- **C105: which exception.** The exception tells a missing file from a serial number that is not a number: for the first logger, it is "file not
found" if there is no metadata file. If its metadata can be tested and its serial number is given once, it is a `ValueError` if that is not a number, and
otherwise "file not found" if the GPS or waveform file is missing and no GPS time is. -/
theorem C105_which_exception (spline : List (Int × Int) → Int → Rat) (empty : Except HExc Unit) (first : HuddleFiles) (rest : List HuddleFiles)
    (only : Bool) :
    (first.rows = none → huddleRun spline empty (first :: rest) only = .error .missing) ∧
    (∀ rows, first.rows = some rows → labelCheck rows = .ok () → first.sn ∉ rest.map HuddleFiles.sn →
      (pyInt first.sn = none → huddleRun spline empty (first :: rest) only = .error .valueError) ∧
      (pyInt first.sn ≠ none →
        (first.gps = none → huddleRun spline empty (first :: rest) only = .error .missing) ∧
        (∀ fixes, first.gps = some fixes →
          ((∃ g ∈ fixes, g.t = none) → huddleRun spline empty (first :: rest) only = .error .valueError) ∧
          ((∀ g ∈ fixes, g.t ≠ none) → first.wave = none → huddleRun spline empty (first :: rest) only = .error .missing)))) := by
  have key : ∀ e, huddleLogger spline empty ((first :: rest).map HuddleFiles.sn) none first = .error e →
      huddleRun spline empty (first :: rest) only = .error e := by
    intro e he
    unfold huddleRun
    rw [if_neg (by simp), huddleLoop, he]
  refine ⟨fun h => key _ (by simp only [huddleLogger, h]), fun rows hr hlc hsn => ?_⟩
  have hc : ¬ ((first :: rest).map HuddleFiles.sn).count first.sn > 1 := by
    rw [List.map_cons, List.count_cons_self, List.count_eq_zero.mpr hsn]; omega
  refine ⟨fun hp => key _ ?_, fun hp => ?_⟩
  · simp only [huddleLogger, hr, hlc, if_neg hc, hp]
  · obtain ⟨n, hn⟩ := Option.ne_none_iff_exists'.mp hp
    refine ⟨fun hg => key _ ?_, fun fixes hg => ⟨fun ⟨g, hm, ht⟩ => key _ ?_, fun hall hw => key _ ?_⟩⟩
    · simp only [huddleLogger, hr, hlc, if_neg hc, hn, hg]
    · have : fixes.any (fun g => g.t.isNone) = true := List.any_eq_true.mpr ⟨g, hm, by rw [ht]; rfl⟩
      simp only [huddleLogger, hr, hlc, if_neg hc, hn, hg, this, if_true]
    · have : ¬ fixes.any (fun g => g.t.isNone) = true := by
        intro h
        obtain ⟨g, hm, ht⟩ := List.any_eq_true.mp h
        exact hall g hm (by simpa using ht)
      simp only [huddleLogger, hr, hlc, if_neg hc, hn, hg, if_neg this, hw]

/-- Two loggers, the second without a waveform file. -/
example (spline : List (Int × Int) → Int → Rat) (rows : List HuddleRow) :
    ∃ e, huddleRun spline (.ok ()) [huddleFiles (bytes "061") rows 3000 9, ⟨bytes "062", some rows, some [], none⟩] false = .error e :=
  C105_missing_file spline _ _ _ _ (List.mem_cons_of_mem _ (List.mem_singleton_self _)) (.inr (.inr rfl))

/-- A first logger with twelve rows and a serial number with a letter; one with a GPS file and no waveforms. -/
example (spline : List (Int × Int) → Int → Rat) :
    huddleRun spline (.ok ()) [⟨bytes "06A", some (demoHuddleRows 5 20), some [], none⟩] true = .error .valueError ∧
    huddleRun spline (.ok ()) [⟨bytes "061", some (demoHuddleRows 5 20), some [], none⟩] true = .error .missing :=
  ⟨((C105_which_exception spline _ _ [] true).2 _ rfl (by decide +kernel) (by simp)).1 (by decide +kernel),
   ((((C105_which_exception spline _ _ [] true).2 _ rfl (by decide +kernel) (by simp)).2 (by decide +kernel)).2 _ rfl).2 (by simp) rfl⟩

end Gemlog
