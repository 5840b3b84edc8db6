import Verif.Props.Summary

/-!
# C61: exactly which instruments a list on the command line names
-/

namespace Gemlog

theorem infix_comma {sn a b : List Nat} (hc : 44 ∉ sn) : sn <:+: a ++ 44 :: b ↔ sn <:+: a ∨ sn <:+: b := by
  constructor
  · rintro ⟨s, t, h⟩
    rcases List.append_eq_append_iff.mp h with ⟨x, h1, -⟩ | ⟨x, h1, h2⟩
    · exact .inl ⟨s, x, h1.symm⟩
    · cases x with
      | nil => exact .inl ⟨s, [], by simpa using h1⟩
      | cons y x =>
        simp only [List.cons_append, List.cons.injEq] at h2
        obtain ⟨rfl, rfl⟩ := h2
        rcases List.append_eq_append_iff.mp h1 with ⟨z, -, h4⟩ | ⟨z, -, h4⟩
        · exact absurd (by rw [h4]; simp) hc
        · cases z with
          | nil => exact absurd (by simp only [List.nil_append] at h4; rw [← h4]; simp) hc
          | cons w z =>
            simp only [List.cons_append, List.cons.injEq] at h4
            exact .inr ⟨z, t, by rw [h4.2]⟩
  · rintro (h | h)
    · exact h.trans ⟨[], 44 :: b, by simp⟩
    · exact h.trans ⟨a ++ [44], [], by simp⟩

theorem infix_joinCommas {sn : List Nat} (hne : sn ≠ []) (hc : 44 ∉ sn) : ∀ ws : List (List Nat), sn <:+: joinCommas ws ↔ ∃ w ∈ ws, sn <:+: w
  | [] => by simp [joinCommas, hne]
  | [w] => by simp [joinCommas]
  | w :: v :: vs => by
    rw [joinCommas, infix_comma hc, infix_joinCommas hne hc (v :: vs)]
    · simp
    · simp

/-- **C61, command line, exactly.** A list on the command line names exactly the instruments whose serial number is part of one of its entries. So it has the effect of the list if and only if
no instrument that is not listed has a number that is part of a listed one. -/
theorem C61_command_line_exact (ws : List (List Nat)) (found : List (List Nat)) (hf : ∀ sn ∈ found, sn ≠ [] ∧ 44 ∉ sn) :
    (∀ sn ∈ found, (SNFilter.text (joinCommas ws)).has sn = true ↔ ∃ w ∈ ws, sn <:+: w) ∧
    ((∀ sn ∈ found, (SNFilter.text (joinCommas ws)).has sn = (SNFilter.list ws).has sn) ↔ ∀ sn ∈ found, ∀ w ∈ ws, sn <:+: w → sn ∈ ws) := by
  have h1 : ∀ sn ∈ found, (SNFilter.text (joinCommas ws)).has sn = true ↔ ∃ w ∈ ws, sn <:+: w := by
    intro sn hs
    unfold SNFilter.has
    rw [isInfix_iff, infix_joinCommas (hf sn hs).1 (hf sn hs).2]
  refine ⟨h1, ⟨fun h sn hs w hw hi => ?_, fun h sn hs => ?_⟩⟩
  · have := (h1 sn hs).mpr ⟨w, hw, hi⟩
    rw [h sn hs] at this
    simpa [SNFilter.has] using this
  · rw [Bool.eq_iff_iff, h1 sn hs]
    simp only [SNFilter.has, decide_eq_true_eq]
    exact ⟨fun ⟨w, hw, hi⟩ => h sn hs w hw hi, fun hm => ⟨sn, hm, List.infix_refl _⟩⟩

/-- Instruments 077 and 088, list `1077,088`: 077 is named although it is not listed; with the list `077` there is no such instrument. -/
example : (SNFilter.text (joinCommas [bytes "1077", bytes "088"])).has (bytes "077") = true ∧
    ∀ sn ∈ [bytes "077", bytes "088"], isInfix sn (bytes "077") = true → sn ∈ [bytes "077"] := by decide +kernel

end Gemlog
