import Verif.Props.Network

/-!
# C49, folders from which logs have been removed

A conversion takes the smallest unused number for its log, but the summary reads the log with the highest number. If
the user has removed logs from the folder, the next conversion fills the hole, and what is read is not the newest log.
-/

namespace Gemlog

/-- What a conversion does to a folder: it adds one log, under the smallest unused number. -/
theorem addLog_smallest (files : List GpsFile) (sn : List Nat) (rows : List GpsRow) :
    ∃ k, addLog files (sn, rows) = files ++ [⟨gpsLogName sn k, rows⟩] ∧ gpsLogName sn k ∉ files.map GpsFile.name ∧
      ∀ m < k, gpsLogName sn m ∈ files.map GpsFile.name := by
  have hb : bytes "gps" ++ bytes "/" = bytes "gps/" := by decide +kernel
  have hb' : bytes "gps" ++ bytes "_" = bytes "gps_" := by decide +kernel
  have hname : ∀ k, bytes "gps" ++ bytes "/" ++ sn ++ bytes "gps" ++ bytes "_" ++ padNum 3 k ++ bytes ".txt" =
      bytes "gps/" ++ gpsLogName sn k := by
    intro k
    unfold gpsLogName
    rw [hb, ← hb']
    simp only [List.append_assoc]
  obtain ⟨k, hk1, hk2, hk3⟩ := C35_fresh_smallest (files.map fun f => bytes "gps/" ++ f.name) (bytes "gps") sn (bytes "gps")
  have hin : ∀ m, bytes "gps/" ++ gpsLogName sn m ∈ (files.map fun f => bytes "gps/" ++ f.name) ↔
      gpsLogName sn m ∈ files.map GpsFile.name := by
    intro m
    simp only [List.mem_map, List.append_cancel_left_eq]
  refine ⟨k, ?_, ?_, ?_⟩
  · unfold addLog
    rw [hk1, hname]
    rfl
  · rw [← hin, ← hname]
    exact hk2
  · intro m hm
    rw [← hin, ← hname]
    exact hk3 m hm

/-- A folder in which everything that begins with the serial number is a log with a number up to 998. -/
def OnlyLogs (sn : List Nat) (files : List GpsFile) : Prop :=
  (files.map GpsFile.name).Nodup ∧ ∀ f ∈ files, sn <+: f.name → ∃ n, n ≤ 998 ∧ f.name = gpsLogName sn n

theorem addLog_reads {sn : List Nat} {files : List GpsFile} {rows : List GpsRow} (h : OnlyLogs sn files) :
    ∃ k, k ≤ 999 ∧ gpsLogName sn k ∉ files.map GpsFile.name ∧ (∀ m < k, gpsLogName sn m ∈ files.map GpsFile.name) ∧
      addLog files (sn, rows) = files ++ [⟨gpsLogName sn k, rows⟩] := by
  obtain ⟨k, h1, h2, h3⟩ := addLog_smallest files sn rows
  refine ⟨k, ?_, h2, h3, h1⟩
  by_contra hk
  obtain ⟨f, hf, e⟩ := List.mem_map.mp (h3 999 (by omega))
  obtain ⟨n, hn, e'⟩ := h.2 f hf (e ▸ gpsLogName_prefix sn 999)
  have := gpsLogName_inj (e.symm.trans e')
  omega

/-- **C49, the log just written, exact condition (together with `C49_violated_removed`).** Take any GPS folder in which everything that begins
with the serial number is a log with a number up to 998, for instance one from which logs have been removed. If there is no
hole in the numbers, what is read after one more conversion are the fixes of that conversion. Missing: holes in the numbers
(`C49_violated_removed`), and numbers from 1000 on (`C49_violated_thousand`). -/
theorem C49_no_hole_partial (sn : List Nat) (files : List GpsFile) (rows : List GpsRow) (h : OnlyLogs sn files)
    (hole : ∀ m n, m < n → gpsLogName sn n ∈ files.map GpsFile.name → gpsLogName sn m ∈ files.map GpsFile.name) :
    readGps [.dir (addLog files (sn, rows))] sn = rows := by
  obtain ⟨k, hk, h2, h3, e⟩ := addLog_reads (rows := rows) h
  rw [e]
  have := gpsRowsOf_newest (sn := sn) (files := files ++ [⟨gpsLogName sn k, rows⟩]) (rows := rows)
    (by
      rw [List.map_append, List.nodup_append]
      refine ⟨h.1, by simp, ?_⟩
      intro a ha b hb
      simp only [List.map_cons, List.map_nil, List.mem_singleton] at hb
      rintro rfl
      exact h2 (hb ▸ ha))
    ⟨by
      intro f hf hp
      rcases List.mem_append.mp hf with hf | hf
      · obtain ⟨n, hn, e⟩ := h.2 f hf hp
        exact ⟨n, by omega, e⟩
      · rw [List.mem_singleton.mp hf]
        exact ⟨k, hk, rfl⟩, .inr ⟨k, by simp, by
      intro n hn
      rw [List.map_append, List.mem_append] at hn
      rcases hn with hn | hn
      · by_contra hlt
        exact h2 (hole k n (by omega) hn)
      · simp only [List.map_cons, List.map_nil, List.mem_singleton] at hn
        exact (gpsLogName_inj hn).le⟩⟩
  show gpsRowsOf sn _ ++ [] = rows
  rw [this, List.append_nil]

/-- **C49 is false for a folder from which logs have been removed.** If any number below the highest one is unused, the next
conversion takes such a number for its log, and what is read after it is the old log with the highest number, not the
log just written. -/
theorem C49_violated_removed (sn : List Nat) (files : List GpsFile) (rows old : List GpsRow) (n m : Nat) (h : OnlyLogs sn files)
    (hn : ⟨gpsLogName sn n, old⟩ ∈ files) (hmax : ∀ i, gpsLogName sn i ∈ files.map GpsFile.name → i ≤ n)
    (hm : m < n) (hole : gpsLogName sn m ∉ files.map GpsFile.name) :
    readGps [.dir (addLog files (sn, rows))] sn = old := by
  obtain ⟨k, hk, h2, h3, e⟩ := addLog_reads (rows := rows) h
  have hkm : k ≤ m := by
    by_contra hlt
    exact hole (h3 m (by omega))
  rw [e]
  have := gpsRowsOf_newest (sn := sn) (files := files ++ [⟨gpsLogName sn k, rows⟩]) (rows := old)
    (by
      rw [List.map_append, List.nodup_append]
      refine ⟨h.1, by simp, ?_⟩
      intro a ha b hb
      simp only [List.map_cons, List.map_nil, List.mem_singleton] at hb
      rintro rfl
      exact h2 (hb ▸ ha))
    ⟨by
      intro f hf hp
      rcases List.mem_append.mp hf with hf | hf
      · obtain ⟨n, hn, e⟩ := h.2 f hf hp
        exact ⟨n, by omega, e⟩
      · rw [List.mem_singleton.mp hf]
        exact ⟨k, hk, rfl⟩, .inr ⟨n, by simp [hn], by
      intro i hi
      rw [List.map_append, List.mem_append] at hi
      rcases hi with hi | hi
      · exact hmax i hi
      · simp only [List.map_cons, List.map_nil, List.mem_singleton] at hi
        have := gpsLogName_inj hi
        omega⟩⟩
  show gpsRowsOf sn _ ++ [] = old
  rw [this, List.append_nil]

/-- Two conversions, the first log is removed, a third conversion: the fixes of the second are read. -/
example : readGps [.dir (addLog ((gpsFolderAfter [(bytes "077", [⟨1, 1, 1⟩]), (bytes "077", [⟨2, 2, 2⟩])]).drop 1)
    (bytes "077", [⟨3, 3, 3⟩]))] (bytes "077") = [⟨2, 2, 2⟩] := by
  have e : (gpsFolderAfter [(bytes "077", [⟨1, 1, 1⟩]), (bytes "077", [⟨2, 2, 2⟩])]).drop 1 =
      [⟨gpsLogName (bytes "077") 1, [⟨2, 2, 2⟩]⟩] := by decide +kernel
  rw [e]
  apply C49_violated_removed (bytes "077") _ [⟨3, 3, 3⟩] [⟨2, 2, 2⟩] 1 0
  · refine ⟨by simp, ?_⟩
    intro f hf _
    rw [List.mem_singleton.mp hf]
    exact ⟨1, by decide, rfl⟩
  · simp
  · intro i hi
    simp only [List.map_cons, List.map_nil, List.mem_singleton] at hi
    exact (gpsLogName_inj hi).le
  · decide
  · intro hm
    simp only [List.map_cons, List.map_nil, List.mem_singleton] at hm
    exact absurd (gpsLogName_inj hm) (by decide)

/-- The second log is removed: the fixes of the third conversion are read. -/
example : readGps [.dir (addLog ((gpsFolderAfter [(bytes "077", [⟨1, 1, 1⟩]), (bytes "077", [⟨2, 2, 2⟩])]).take 1)
    (bytes "077", [⟨3, 3, 3⟩]))] (bytes "077") = [⟨3, 3, 3⟩] := by
  have e : (gpsFolderAfter [(bytes "077", [⟨1, 1, 1⟩]), (bytes "077", [⟨2, 2, 2⟩])]).take 1 =
      [⟨gpsLogName (bytes "077") 0, [⟨1, 1, 1⟩]⟩] := by decide +kernel
  rw [e]
  apply C49_no_hole_partial
  · refine ⟨by simp, ?_⟩
    intro f hf _
    rw [List.mem_singleton.mp hf]
    exact ⟨0, by decide, rfl⟩
  · intro m n hmn hn
    simp only [List.map_cons, List.map_nil, List.mem_singleton] at hn
    have := gpsLogName_inj hn
    omega

end Gemlog
