import Verif.Props.XcorrOptions

/-!
# C74: which options are accepted and which combinations have their defaults, exactly
-/

namespace Gemlog

/-- **C74, acceptance, exactly.** Options of any kind are accepted if and only if overlap and upsampling ratio are numbers in their ranges, and each of the others is either a number in
its range or NaN (the limits of the band being compared only if both are numbers). -/
theorem C74_exact (fl fh win overlap upsample : OptVal) :
    validateInputs fl fh win overlap upsample = true ↔
      (fl ≠ .other ∧ fh ≠ .other ∧ win ≠ .other) ∧
      (∀ x, fl = .num x → 0 ≤ x) ∧ (∀ x, fh = .num x → 0 ≤ x) ∧ (∀ x y, fl = .num x → fh = .num y → x < y) ∧ (∀ x, win = .num x → 0 < x) ∧
      (∃ x, overlap = .num x ∧ 0 ≤ x ∧ x < 1) ∧ ∃ x, upsample = .num x ∧ 1 ≤ x := by
  cases fl <;> cases fh <;> cases win <;> cases overlap <;> cases upsample <;>
    simp [validateInputs, OptVal.lt, OptVal.ge, orElseRaise, and_assoc] <;> grind

/-- No limits of the band (NaN), and a window of NaN seconds. -/
example : validateInputs .nan .nan .nan (.num 0) (.num 1) = true ∧ validateInputs (.num 5) (.num 40) (.num 5) .nan (.num 1) = false := by decide +kernel

/-- **C74, defaults, exactly.** Suppose the values in effect, each given or the default, are acceptable. They are used in the analysis of a day if and only if the overlap and the upsampling
ratio are both given or both omitted, or the upsampling ratio alone is given, as 1. -/
theorem C74_defaults_exact (a : DayArgs) (fl fh win overlap upsample : OptVal)
    (h1 : InEffect a.fl 5 fl) (h2 : InEffect a.fh 40 fh) (h3 : InEffect a.win 5 win) (h4 : InEffect a.overlap 0 overlap)
    (h5 : InEffect a.upsample 1 upsample) (hv : validateInputs fl fh win overlap upsample = true) :
    dayOptions a = some (fl, fh, win, overlap, upsample) ↔
      a.overlap.isSome = a.upsample.isSome ∨ a.overlap = none ∧ a.upsample = some (.num 1) := by
  constructor
  · intro h
    cases ho : a.overlap with
    | some v =>
      cases hu : a.upsample with
      | some w => exact .inl rfl
      | none =>
        rw [(C74_violated_defaults a).2 (by rw [ho]; rfl) hu] at h
        cases h
    | none =>
      cases hu : a.upsample with
      | none => exact .inl rfl
      | some w =>
        have h6 : upsample = .num 1 := (C74_violated_defaults a).1 ho _ h
        refine .inr ⟨rfl, ?_⟩
        rcases h5 with h5 | ⟨h5, -⟩
        · rw [← hu, h5, h6]
        · rw [h5] at hu; cases hu
  · rintro (h | ⟨ho, hu⟩)
    · exact (C74_defaults_partial a h fl fh win overlap upsample h1 h2 h3 h4 h5).1 hv
    · have e : ∀ {o x v}, InEffect o x v → o.getD (.num x) = v := by
        rintro o x v (h | ⟨h, h'⟩) <;> rw [h]
        · rfl
        · exact h'.symm
      have h6 : upsample = .num 1 := by
        rcases h5 with h5 | ⟨h5, h6⟩
        · rw [hu] at h5
          exact (Option.some.inj h5).symm
        · exact h6
      unfold dayOptions
      dsimp only
      rw [e h1, e h2, e h3, e h4, ho]
      dsimp only
      rw [← h6, if_pos hv]

/-- A ratio of 4 alone is not used, a ratio of 4 with an overlap is. -/
example : dayOptions ⟨none, none, none, none, some (.num 4)⟩ ≠ some (.num 5, .num 40, .num 5, .num 0, .num 4) ∧
    dayOptions ⟨none, none, none, some (.num 0), some (.num 4)⟩ = some (.num 5, .num 40, .num 5, .num 0, .num 4) := by decide +kernel

end Gemlog
