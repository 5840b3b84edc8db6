import Verif.Props.ReadSingle

/-!
# C11 and C14, cells that are not numbers

The readers based on text tables (the fallback, and the only reader of formats 0.8 and 0.85) can deliver cells with
text in them where a number is expected.
-/

namespace Gemlog

/-- The column of the table that holds the count of a sample. -/
def countColumn (t : Table) (version : String) : Nat :=
  if version = "0.8" ∨ version = "0.85" ∨ t.isBytes = true then 2 else 1

/-- A sample or a status line of the table has text where a number should be: in the column of the counts, or in one of
the nine (format 0.8) or eleven columns of status values. -/
def NotNumbers (t : Table) (version : String) : Prop :=
  (∃ r ∈ t.rows, r.kind = .D ∧ r.col (countColumn t version) = .text) ∨
  (∃ r ∈ t.rows, r.kind = .M ∧ ∃ j, 2 ≤ j ∧ j ≤ (if version = "0.8" then 10 else 12) ∧ r.col j = .text)

theorem mapM_option_none {α β : Type} {f : α → Option β} {l : List α} {x : α} (hx : x ∈ l) (h : f x = none) : l.mapM f = none := by
  induction l with
  | nil => cases hx
  | cons y l ih =>
    rw [List.mapM_cons]
    rcases List.mem_cons.mp hx with rfl | hx
    · rw [h]; rfl
    · rw [ih hx]
      cases f y <;> rfl

theorem zip_mem_of_length {α β : Type} {xs : List α} {ys : List β} (h : xs.length = ys.length) {y : β} (hy : y ∈ ys) :
    ∃ x, (x, y) ∈ xs.zip ys := by
  obtain ⟨i, hi, rfl⟩ := List.mem_iff_getElem.mp hy
  exact ⟨xs[i]'(by omega), List.mem_iff_getElem.mpr ⟨i, by simp [h, hi], by simp⟩⟩

theorem toNumeric_text {c : Cell} (h : c = .text) : c.toNumeric = none := by rw [h]; rfl

theorem processData_text (e : Bool) (t : Table) (offset : Rat) (version : String) (rg : Bool) (h : NotNumbers t version) :
    processData e t offset version rg = .error .corrupt ∨ processData e t offset version rg = .error .other := by
  unfold processData
  cases hR : rolloverOf version with
  | none => exact .inl rfl
  | some R =>
    dsimp only
    cases hms : correctedMillis R offset (t.rows.map TRow.saw) with
    | none => exact .inr rfl
    | some ms =>
      dsimp only
      have hlen : ms.length = t.rows.length := by
        rw [correctedMillis_length hms, List.length_map]
      split
      · exact .inr rfl
      · rcases h with ⟨r, hr, hk, hc⟩ | ⟨r, hr, hk, j, h1, h2, hc⟩
        · obtain ⟨x, hx⟩ := zip_mem_of_length hlen hr
          rw [mapM_option_none (x := (x, r)) (by simp [hx, hk]) (toNumeric_text (by
            rw [← hc]
            unfold countColumn
            simp only [List.mem_cons, List.not_mem_nil, or_false]
            congr 1
            split_ifs <;> first | rfl | simp_all))]
          exact .inr rfl
        · obtain ⟨x, hx⟩ := zip_mem_of_length hlen hr
          have hM : ((ms.zip t.rows).filter fun p => p.2.kind == .M).mapM (fun p => (List.range (numMCols version - 1)).mapM
              fun j => (p.2.col (j + 2)).toNumeric) = none := by
            apply mapM_option_none (x := (x, r)) (by simp [hx, hk])
            apply mapM_option_none (x := j - 2)
            · rw [List.mem_range]
              unfold numMCols
              split_ifs at h2 ⊢ <;> omega
            · apply toNumeric_text
              rw [← hc]
              show r.col (j - 2 + 2) = r.col j
              congr 1
              omega
          rw [hM]
          split
          · simp_all
          · exact .inr rfl

/-- **C14, text instead of numbers.** If all readers of the version deliver tables in which the count of a sample or a status value
is not a number, then the file is reported as corrupt; never are the remaining samples returned. -/
theorem C14_not_numbers (e : Bool) (rd : Readers) (offset : Rat) (rg : Bool) (version : String)
    (h : ∀ r ∈ readersFor rd version, ∃ t, r = .ok t ∧ NotNumbers t version) :
    readSingle e rd offset rg version = .error .corrupt := by
  rw [C14_first_decisive_reader]
  have : ((readersFor rd version).map (outcomeOf e offset rg version)).find? decisive = none := by
    rw [List.find?_eq_none]
    intro x hx
    obtain ⟨r, hr, rfl⟩ := List.mem_map.mp hx
    obtain ⟨t, rfl, ht⟩ := h r hr
    have e1 : outcomeOf e offset rg version (.ok t) = processData e t offset version rg := rfl
    rw [e1]
    rcases processData_text e t offset version rg ht with h | h <;> rw [h] <;> decide
  rw [this]

/-- **C11 is violated: one GPS line with text in it costs all fixes of the file.** If a GPS line of the table has text where a number should
be, none of the fixes of the file is kept, no matter how many plausible ones there are: if GPS is required the file is given up
as one without GPS, and otherwise it is read without fixes. -/
theorem C11_violated_text (e : Bool) (t : Table) (offset : Rat) (version : String) (r : TRow) (hr : r ∈ t.rows) (hk : r.kind = .G)
    (j : Nat) (h1 : 2 ≤ j) (h2 : j ≤ 10) (hc : r.col j = .text) :
    (∀ out, processData e t offset version true ≠ .ok out) ∧
    (∀ out, processData e t offset version false = .ok out → out.gps = []) := by
  have hg : ∀ x : Rat, gRow x r = none := by
    intro x
    have hn := toNumeric_text hc
    unfold gRow
    obtain rfl | rfl | rfl | rfl | rfl | rfl | rfl | rfl | rfl :
        j = 2 ∨ j = 3 ∨ j = 4 ∨ j = 5 ∨ j = 6 ∨ j = 7 ∨ j = 8 ∨ j = 9 ∨ j = 10 := by omega
    all_goals simp [hn]
  have key : ∀ ms : List Rat, ms.length = t.rows.length → gpsTable e ((ms.zip t.rows).filter fun p => p.2.kind == .G) = none := by
    intro ms hlen
    obtain ⟨x, hx⟩ := zip_mem_of_length hlen hr
    unfold gpsTable
    split
    · rfl
    · rw [mapM_option_none (x := (x, r)) (by simp [hx, hk]) (hg x)]
  constructor <;> intro out ho <;> unfold processData at ho <;>
    (cases hR : rolloverOf version with
    | none => rw [hR] at ho; simp at ho
    | some R =>
      rw [hR] at ho
      dsimp only at ho
      cases hms : correctedMillis R offset (t.rows.map TRow.saw) with
      | none => rw [hms] at ho; simp at ho
      | some ms =>
        rw [hms] at ho
        dsimp only at ho
        rw [key ms (by rw [correctedMillis_length hms, List.length_map])] at ho
        dsimp only at ho
        split at ho
        · cases ho
        · split at ho
          · first
            | (cases ho; done)
            | (simp only [Bool.false_eq_true, if_false, Except.ok.injEq] at ho; rw [← ho])
          · cases ho)

/-- A table of the old reader with a sample, a status line and two fixes, the second with the text `x` for its latitude. -/
def tornTable : Table := ⟨false,
  [⟨.G, 5, [.num 5, .num 7, .num 2020, .num 5, .num 1, .num 12, .num 0, .num 0, .num 44, .num (-116)]⟩,
   ⟨.D, 10, [.num 10, .num 3]⟩,
   ⟨.M, 12, (List.replicate 12 (.num 1))⟩,
   ⟨.G, 1005, [.num 1005, .num 7, .num 2020, .num 5, .num 1, .num 12, .num 0, .num 1, .text, .num (-116)]⟩]⟩

example : (∀ out, processData true tornTable 0 "0.85" true ≠ .ok out) ∧ (∀ out, processData true tornTable 0 "0.85" false = .ok out → out.gps = []) :=
  C11_violated_text true tornTable 0 "0.85" _ (List.mem_of_getElem? (show tornTable.rows[3]? = some _ from rfl)) rfl 9 (by decide) (by decide) rfl

/-- Without the second fix the file is read, with one fix. -/
example : (match processData true ⟨false, tornTable.rows.take 3⟩ 0 "0.85" true with
    | .ok out => some out.gps.length
    | .error _ => none) = some 1 := by
  decide +kernel

/-- A sample whose count is cut off after a minus sign. -/
example : readSingle true ⟨.error .corrupt, .error .corrupt, .ok ⟨false, tornTable.rows.take 3 ++ [⟨.D, 20, [.num 20, .text]⟩]⟩⟩ 0 true "0.85" = .error .corrupt := by
  apply C14_not_numbers
  intro r hr
  rw [show readersFor _ "0.85" = [_] from rfl, List.mem_singleton] at hr
  exact ⟨_, hr, .inl ⟨⟨.D, 20, [.num 20, .text]⟩, by simp, rfl, rfl⟩⟩

end Gemlog
