import Verif.Props.Gaps

/-!
# C87: exactly when nothing is printed
-/

namespace Gemlog

theorem recordedBy_one {id : List Nat} {l : List (List Nat × Trace)} (h : ∀ q ∈ l, q.1 = id) : recordedBy id l = l.map Prod.snd := by
  unfold recordedBy
  rw [List.filter_eq_self.mpr (by simpa using h)]

/-- **C87, exactly.** Nothing is printed if and only if all the files are of one channel and no sample is missing between the first and the last. -/
theorem C87_exact {read : List Nat → Option (List (List Nat × Trace))} {files : List (List Nat)} {l : List (List (List Nat × Trace))}
    (hl : files.mapM read = some l) (hne : ∀ q ∈ l.flatten, q.2.data ≠ [])
    (hc : ∀ id, Consistent (samples (recordedBy id l.flatten))) :
    ∃ out, checkDiscontinuity read files = some out ∧
      (out = [] ↔ (∀ q ∈ l.flatten, ∀ q' ∈ l.flatten, q.1 = q'.1) ∧ Gapless (samples (l.flatten.map Prod.snd))) := by
  by_cases hid : ∀ q ∈ l.flatten, ∀ q' ∈ l.flatten, q.1 = q'.1
  · obtain ⟨id, hid'⟩ : ∃ id, ∀ q ∈ l.flatten, q.1 = id := by
      cases hf : l.flatten with
      | nil => exact ⟨[], by simp⟩
      | cons q rest => exact ⟨q.1, fun q' hq' => hid q' (by rw [hf]; exact hq') q (by rw [hf]; exact List.mem_cons_self)⟩
    obtain ⟨out, h1, h2⟩ := C87_single hl hne hid' (by rw [← recordedBy_one hid']; exact hc id)
    exact ⟨out, h1, by rw [h2]; exact ⟨fun h => ⟨hid, h⟩, fun h => h.2⟩⟩
  · have hid' := hid
    push Not at hid'
    obtain ⟨q, hq, q', hq', hd⟩ := hid'
    obtain ⟨out, h1, h2⟩ := C87_violated_channels hl hne hc hq hq' hd
    exact ⟨out, h1, ⟨fun h => absurd h h2, fun h => absurd h.1 hid⟩⟩

/-- **C87, unreadable files.** A report is printed, be it empty, exactly if every file can be read: a file that cannot be read is never taken for a gap or for
the absence of one. -/
theorem C87_unreadable (read : List Nat → Option (List (List Nat × Trace))) (files : List (List Nat)) :
    checkDiscontinuity read files = none ↔ ∃ f ∈ files, read f = none := by
  have key : files.mapM read = none ↔ ∃ f ∈ files, read f = none := by
    induction files with
    | nil => simp
    | cons f files ih =>
      rw [List.mapM_cons]
      cases hf : read f with
      | none => simp [hf]
      | some x =>
        cases hr : files.mapM read with
        | none =>
          obtain ⟨g, hg, hg'⟩ := ih.mp hr
          simp only [Option.pure_def, Option.bind_eq_bind, Option.bind_some, Option.bind_none, true_iff]
          exact ⟨g, List.mem_cons_of_mem _ hg, hg'⟩
        | some l =>
          rw [hr] at ih
          simp only [reduceCtorEq, false_iff, not_exists, not_and] at ih
          simp only [Option.pure_def, Option.bind_eq_bind, Option.bind_some, reduceCtorEq, false_iff]
          rintro ⟨g, hg, hg'⟩
          rcases List.mem_cons.mp hg with rfl | h
          · rw [hf] at hg'; simp at hg'
          · exact ih g h hg'
  unfold checkDiscontinuity
  cases hm : files.mapM read with
  | none => simpa using key.mp hm
  | some l =>
    simp only [reduceCtorEq, false_iff]
    intro h
    rw [key.mpr h] at hm
    simp at hm

/-- One of two files cannot be read. -/
example : checkDiscontinuity (fun f => if f = [1] then some [(bytes "A", ⟨5, [1, 2]⟩)] else none) [[1], [2]] = none := by decide +kernel

/-- Two complete files of one channel, and the second of another one. -/
example : checkDiscontinuity (fun f => some [(bytes "A", if f = [1] then ⟨5, [1, 2]⟩ else ⟨7, [3, 4]⟩)]) [[1], [2]] = some [] ∧
    checkDiscontinuity (fun f => some [if f = [1] then (bytes "A", ⟨5, [1, 2]⟩) else (bytes "B", ⟨7, [3, 4]⟩)]) [[1], [2]] ≠ some [] := by decide +kernel

end Gemlog
