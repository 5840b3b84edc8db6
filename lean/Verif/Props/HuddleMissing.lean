import Verif.Props.HuddleTemp

/-!
# C79: a logger whose times are missing ends the test of all loggers
-/

namespace Gemlog

theorem diffCol_none : ∀ (l : List (Option Rat)), (∀ i x y, l[i]? = some (some x) → l[i + 1]? = some (some y) → False) →
    (diffCol l).filterMap id = []
  | [], _ => by simp [diffCol]
  | [a], _ => by simp [diffCol]
  | a :: b :: l, h => by
    have ih := diffCol_none (b :: l) fun i x y h1 h2 => h (i + 1) x y (by simpa using h1) (by simpa using h2)
    unfold diffCol
    cases a with
    | none => simpa using ih
    | some x =>
      cases b with
      | none => simpa using ih
      | some y => exact (h 0 x y rfl rfl).elim

theorem tempTable_no_interval {S E : Rat} {columns : Nat} {p : List Nat × List HuddleRow} (hstep : meanInterval p.2 = none)
    (loggers : List (List Nat × List HuddleRow)) (hp : p ∈ loggers) : ∃ e, tempTable S E columns loggers = .error e := by
  induction loggers with
  | nil => cases hp
  | cons q rest ih =>
    obtain ⟨sn, rows⟩ := q
    rw [tempTable]
    cases h1 : perMinute (meanInterval rows) with
    | error e' => exact ⟨e', rfl⟩
    | ok st =>
      simp only
      cases h2 : tempRow rows S E columns st with
      | error e' => exact ⟨e', rfl⟩
      | ok cells =>
        simp only
        rcases List.mem_cons.mp hp with rfl | hp
        · rw [hstep] at h1; cases h1
        · obtain ⟨e', he⟩ := ih hp
          rw [he]; exact ⟨e', rfl⟩

/-- **C79 violated: missing times.** If no two consecutive rows of one of the loggers have times, the test of all loggers ends with an exception,
whatever the rows of the others hold. -/
theorem C79_violated_no_interval (loggers : List (List Nat × List HuddleRow)) (only : Bool) (p : List Nat × List HuddleRow) (hp : p ∈ loggers)
    (hno : ∀ i r s, p.2[i]? = some r → p.2[i + 1]? = some s → r.t = none ∨ s.t = none) :
    ∃ e, verifyHuddle loggers only = .error e := by
  have hmean : meanInterval p.2 = none := by
    unfold meanInterval
    simp only
    rw [if_pos]
    apply diffCol_none
    intro i x y h1 h2
    rw [List.getElem?_map] at h1 h2
    obtain ⟨r, hr, hr'⟩ := Option.map_eq_some_iff.mp h1
    obtain ⟨s, hs, hs'⟩ := Option.map_eq_some_iff.mp h2
    rcases hno i r s hr hs with h | h
    · rw [h] at hr'; cases hr'
    · rw [h] at hs'; cases hs'
  have htemp : ∃ e, temperatureTest loggers = .error e := by
    unfold temperatureTest
    split
    · exact ⟨_, rfl⟩
    · split
      · simp only
        split_ifs with hc
        · exact ⟨_, rfl⟩
        · rename_i width _ _ _ first last _ _
          obtain ⟨e, he⟩ := tempTable_no_interval (S := first - pyMod first width) (E := last - pyMod last width - 600)
            (columns := (pyTrunc (((last - pyMod last width - 600) - (first - pyMod first width)) / width)).toNat) hmean loggers hp
          rw [he]
          exact ⟨e, rfl⟩
      · exact ⟨_, rfl⟩
  obtain ⟨e, he⟩ := htemp
  unfold verifyHuddle
  rw [if_neg (List.ne_nil_of_mem hp)]
  split
  · exact ⟨_, rfl⟩
  · unfold groupTests
    rw [he]
    exact ⟨e, rfl⟩

/-- Three rows, of which only the second has a time. -/
example : let row : Option Rat → HuddleRow := fun t => ⟨t, some 3, some 20, some 1, some 1, some 1, some 0, some 0, some 100, some 100⟩
    (∀ i r s, [row none, row (some 5), row none][i]? = some r → [row none, row (some 5), row none][i + 1]? = some s → r.t = none ∨ s.t = none) ∧
    verifyHuddle [(bytes "076", [row none, row (some 5), row none])] true = .error .valueError := by
  refine ⟨?_, by decide +kernel⟩
  intro i r s h1 h2
  match i with
  | 0 => simp at h1; left; rw [← h1]
  | 1 => simp at h2; right; rw [← h2]
  | i + 2 => simp at h2

end Gemlog
