import Verif.Props.Windows
import Verif.Props.ReadSingle
import Verif.Props.NewestMore

/-! # C50, C13, C49: exact conditions -/

namespace Gemlog

/-- **C50, exactly.** Data are analysed, in at least one window, if and only if they are longer than a window (by a millionth of the step). Data that are as long as a window, or shorter, are not. -/
theorem C50_exact (st : List WTrace) (t1 t2 win overlap : Rat) (hst : Spans st t1 t2) (hw : 0 < win) (ho : overlap < 1) :
    (∃ starts, windowStarts st win overlap = .ok starts ∧ starts ≠ []) ↔ win + win * (1 - overlap) / 1000000 < t2 - t1 := by
  constructor
  · rintro ⟨starts, hs, hne⟩
    by_contra hc
    push Not at hc
    by_cases hlo : win - win * (1 - overlap) * (1 - 1 / 1000000) < t2 - t1
    · have h1 := C50_violated_one (fun _ => .ok [(bytes "t_mid", ())]) st t1 t2 win overlap hst hw ho hlo hc
      obtain ⟨r, col, h2, -⟩ := C51_violated_t_mid (fun _ => .ok [(bytes "t_mid", ())]) st win overlap (fun _ => ()) (fun _ => rfl) starts hs
      rw [h1] at h2
      cases h2
    · push Not at hlo
      have h1 := C50_violated_short (V := Unit) (fun _ => .error .other) st t1 t2 win overlap hst hw ho hlo
      unfold applyWindows at h1
      rw [hs] at h1
      cases starts with
      | nil => exact hne rfl
      | cons s l => simp [windowLoop] at h1
  · intro hl
    obtain ⟨starts, h1, h2, -⟩ := C50_windows_partial st t1 t2 win overlap hst hw ho hl
    refine ⟨starts, h1, ?_⟩
    intro hc
    rw [hc] at h2
    simp at h2

example : Spans demoWave 0 12 ∧ (5 : Rat) + 5 * (1 - 1 / 2) / 1000000 < 12 - 0 ∧ ¬ (12 : Rat) + 12 * (1 - 1 / 2) / 1000000 < 12 - 0 ∧
    windowStarts demoWave 12 (1 / 2) = .error .other ∧ windowStarts demoWave 30 (1 / 2) = .ok [] := by
  refine ⟨demoWave_spans, by norm_num, by norm_num, by decide +kernel, by decide +kernel⟩

/-- **C13, exactly.** A file whose readers yield a table of numbers with samples and metadata (and, if GPS is required, at least one plausible fix) is accepted by the single-file reader
if and only if its version is one of five: of the documented ones, 0.91 is missing. -/
theorem C13_exact (e : Bool) (t : Table) (ht : CleanTable t) (offset : Rat) (version : String) (rg : Bool)
    (hg : rg = true → ∃ r ∈ t.rows, PlausibleRow r) (other : Except Exc Table) :
    (∃ out, readSingle e ⟨.ok t, other, .ok t⟩ offset rg version = .ok out) ↔ version ∈ ["0.8", "0.85", "0.85C", "0.9", "1.10"] := by
  constructor
  · rintro ⟨out, h⟩
    by_contra hc
    exact C13_unknown_version_rejected e _ offset rg version hc out h
  · intro h
    exact C13_formats_accepted_partial e t ht offset version (by simpa using h) rg hg other

/-- The table with all the hypotheses of C13 (see there) in two of the documented formats. -/
example : (readSingle true ⟨.ok demoTable, .error .corrupt, .ok demoTable⟩ 0 true "0.9").toOption.isSome = true ∧
    (readSingle true ⟨.ok demoTable, .error .corrupt, .ok demoTable⟩ 0 true "0.91").toOption.isSome = false := by
  decide +kernel

/-- **C49, the log just written, exactly.** Take any GPS folder in which everything that begins with the serial number is a log with a number up to 998, for instance one from which logs have
been removed. The fixes read after one more conversion are those of that conversion, whatever they are, if and only if there is no hole in the numbers. Missing: other files, and
higher numbers (`C49_violated_stray`, `C49_violated_thousand`). -/
theorem C49_exact_partial (sn : List Nat) (files : List GpsFile) (h : OnlyLogs sn files) :
    (∀ rows, readGps [.dir (addLog files (sn, rows))] sn = rows) ↔
      ∀ m n, m < n → gpsLogName sn n ∈ files.map GpsFile.name → gpsLogName sn m ∈ files.map GpsFile.name := by
  constructor
  · intro hall m n hmn hn
    by_contra hole
    have hbound : ∀ i, gpsLogName sn i ∈ files.map GpsFile.name → i ≤ 998 := by
      intro i hi
      obtain ⟨f, hf, e⟩ := List.mem_map.mp hi
      obtain ⟨k, hk, e'⟩ := h.2 f hf (e ▸ gpsLogName_prefix sn i)
      have := gpsLogName_inj (e.symm.trans e')
      omega
    classical
    have hspec := Nat.findGreatest_spec (P := fun i => gpsLogName sn i ∈ files.map GpsFile.name) (hbound n hn) hn
    have hle : n ≤ Nat.findGreatest (fun i => gpsLogName sn i ∈ files.map GpsFile.name) 998 := Nat.le_findGreatest (hbound n hn) hn
    have hmax : ∀ i, gpsLogName sn i ∈ files.map GpsFile.name →
        i ≤ Nat.findGreatest (fun i => gpsLogName sn i ∈ files.map GpsFile.name) 998 :=
      fun i hi => Nat.le_findGreatest (hbound i hi) hi
    generalize Nat.findGreatest (fun i => gpsLogName sn i ∈ files.map GpsFile.name) 998 = N at hspec hle hmax
    obtain ⟨f, hf, e⟩ := List.mem_map.mp hspec
    have hf' : (⟨gpsLogName sn N, f.rows⟩ : GpsFile) ∈ files := by rw [← e]; exact hf
    have key := fun rows => (hall rows).symm.trans (C49_violated_removed sn files rows f.rows N m h hf' hmax (by omega) hole)
    have h1 := key []
    have h2 := key [⟨0, 0, 0⟩]
    rw [← h1] at h2
    cases h2
  · intro hole rows
    exact C49_no_hole_partial sn files rows h hole

/-- A folder with the logs 0 and 2: number 1 is missing. -/
example : OnlyLogs (bytes "077") [⟨gpsLogName (bytes "077") 0, [⟨1, 1, 1⟩]⟩, ⟨gpsLogName (bytes "077") 2, [⟨2, 2, 2⟩]⟩] ∧
    readGps [.dir (addLog [⟨gpsLogName (bytes "077") 0, [⟨1, 1, 1⟩]⟩, ⟨gpsLogName (bytes "077") 2, [⟨2, 2, 2⟩]⟩] (bytes "077", [⟨3, 3, 3⟩]))] (bytes "077") =
      [⟨2, 2, 2⟩] := by
  refine ⟨⟨by decide +kernel, ?_⟩, by decide +kernel⟩
  intro f hf _
  simp only [List.mem_cons, List.not_mem_nil, or_false] at hf
  rcases hf with rfl | rfl
  · exact ⟨0, by decide, rfl⟩
  · exact ⟨2, by decide, rfl⟩

end Gemlog
