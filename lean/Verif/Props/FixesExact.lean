import Verif.Props.ReadSingle

/-!
# C11: which GPS rows with missing values are kept
-/

namespace Gemlog

/-- **C11, missing values, exactly.** A GPS row in which values may be missing (and whose calendar fields are whole numbers where present) is kept if and only if it would be plausible with
some latitude, longitude and lag in the places of those that are missing; so the time must be complete, but the rest need not. -/
theorem C11_exact (g : GRaw) (hint : ∀ c ∈ [g.year, g.month, g.day, g.hour, g.minute], ∀ x, c = some x → ∃ z : Int, x = (z : Rat)) :
    (gpsInBounds g = true ∧ (withTime g).isSome) ↔
      ∃ lat lon lag : Rat, (g.lat = none ∨ g.lat = some lat) ∧ (g.lon = none ∨ g.lon = some lon) ∧ (g.msLag = none ∨ g.msLag = some lag) ∧
        Plausible { g with lat := some lat, lon := some lon, msLag := some lag } := by
  have hmono : ∀ lat lon lag : Rat, (g.lat = none ∨ g.lat = some lat) → (g.lon = none ∨ g.lon = some lon) → (g.msLag = none ∨ g.msLag = some lag) →
      gpsInBounds { g with lat := some lat, lon := some lon, msLag := some lag } = true → gpsInBounds g = true := by
    intro lat lon lag h1 h2 h3 h
    unfold gpsInBounds at h ⊢
    simp only [Bool.not_eq_true', Bool.or_eq_false_iff] at h ⊢
    obtain ⟨⟨⟨⟨⟨⟨⟨⟨⟨a, b⟩, c⟩, d⟩, e⟩, f⟩, k⟩, l⟩, m⟩, ⟨n, o⟩, p⟩ := h
    refine ⟨⟨⟨⟨⟨⟨⟨⟨⟨?_, ?_⟩, ?_⟩, d⟩, e⟩, f⟩, k⟩, l⟩, m⟩, ⟨?_, ?_⟩, p⟩
    · rcases h1 with h | h <;> rw [h]; exacts [rfl, a]
    · rcases h2 with h | h <;> rw [h]; exacts [rfl, b]
    · rcases h3 with h | h <;> rw [h]; exacts [rfl, c]
    · rcases h1 with h | h <;> rw [h]; exacts [rfl, n]
    · rcases h2 with h | h <;> rw [h]; exacts [rfl, o]
  have htime : ∀ lat lon lag : Option Rat, (withTime { g with lat := lat, lon := lon, msLag := lag }).isSome = (withTime g).isSome := by
    intro lat lon lag
    simp [withTime, makeGpsTime]
  constructor
  · rintro ⟨hb, ht⟩
    refine ⟨g.lat.getD 1, g.lon.getD 1, g.msLag.getD 0, ?_, ?_, ?_, ?_⟩
    · cases g.lat <;> simp
    · cases g.lon <;> simp
    · cases g.msLag <;> simp
    · refine (C11_kept_iff_plausible _ ?_).mp ⟨?_, by rw [htime]; exact ht⟩
      · have hs : ∃ s, g.second = some s := by
          cases hs : g.second with
          | some s => exact ⟨s, rfl⟩
          | none => simp [gpsInBounds, hs, notWhole] at hb
        obtain ⟨s, hs⟩ := hs
        refine ⟨⟨_, _, _, s, rfl, rfl, rfl, hs⟩, ?_⟩
        simp only [List.forall_mem_cons, List.not_mem_nil, false_imp_iff, implies_true, and_true] at hint
        obtain ⟨i1, i2, i3, i4, i5⟩ := hint
        unfold withTime makeGpsTime at ht
        cases e1 : g.year with
        | none => simp [e1] at ht
        | some y =>
          cases e2 : g.month with
          | none => simp [e1, e2] at ht
          | some mo =>
            cases e3 : g.day with
            | none => simp [e1, e2, e3] at ht
            | some d =>
              cases e4 : g.hour with
              | none => simp [e1, e2, e3, e4] at ht
              | some h =>
                cases e5 : g.minute with
                | none => simp [e1, e2, e3, e4, e5] at ht
                | some mi =>
                  obtain ⟨z1, rfl⟩ := i1 _ e1
                  obtain ⟨z2, rfl⟩ := i2 _ e2
                  obtain ⟨z3, rfl⟩ := i3 _ e3
                  obtain ⟨z4, rfl⟩ := i4 _ e4
                  obtain ⟨z5, rfl⟩ := i5 _ e5
                  exact ⟨z1, z2, z3, z4, z5, rfl, rfl, rfl, rfl, rfl⟩
      · unfold gpsInBounds at hb ⊢
        simp only [Bool.not_eq_true', Bool.or_eq_false_iff] at hb ⊢
        obtain ⟨⟨⟨⟨⟨⟨⟨⟨⟨a, b⟩, c⟩, d⟩, e⟩, f⟩, k⟩, l⟩, m⟩, ⟨n, o⟩, p⟩ := hb
        refine ⟨⟨⟨⟨⟨⟨⟨⟨⟨?_, ?_⟩, ?_⟩, d⟩, e⟩, f⟩, k⟩, l⟩, m⟩, ⟨?_, ?_⟩, p⟩
        · cases h : g.lat with
          | none => decide +kernel
          | some x => rw [h] at a; exact a
        · cases h : g.lon with
          | none => decide +kernel
          | some x => rw [h] at b; exact b
        · cases h : g.msLag with
          | none => decide +kernel
          | some x => rw [h] at c; exact c
        · cases h : g.lat with
          | none => decide +kernel
          | some x => rw [h] at n; exact n
        · cases h : g.lon with
          | none => decide +kernel
          | some x => rw [h] at o; exact o
  · rintro ⟨lat, lon, lag, h1, h2, h3, hp⟩
    obtain ⟨hb, ht⟩ := (C11_kept_iff_plausible _ (plausible_complete hp)).mpr hp
    rw [htime] at ht
    exact ⟨hmono _ _ _ h1 h2 h3 hb, ht⟩

/-- A row cut off behind the seconds is kept, one cut off before them is not. -/
example : (gpsInBounds ⟨5, some 70, some 2020, some 6, some 20, some 5, some 21, some 22, none, none⟩ = true ∧
      (withTime ⟨5, some 70, some 2020, some 6, some 20, some 5, some 21, some 22, none, none⟩).isSome) ∧
    ¬ (gpsInBounds ⟨5, some 70, some 2020, some 6, some 20, some 5, some 21, none, none, none⟩ = true) := by decide +kernel

end Gemlog
