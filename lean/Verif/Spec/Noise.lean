import Verif.Model.Noise

/-!
# Specification: spectra
-/

namespace Gemlog

/-- The curve goes through its points. -/
def Numerics.Through (num : Numerics) (table : List (ℝ × ℝ)) : Prop := ∀ p ∈ table, num.curve table p.1 = p.2

/-- A value as power, as amplitude and as decibels: the amplitude is the nonnegative number whose square is the power, the decibels ten times the exponent of ten
that is the power. All three missing also agree. -/
def SameLevel (power amp db : Option ℝ) : Prop :=
  (power = none ∧ amp = none ∧ db = none) ∨
    ∃ p a d, power = some p ∧ amp = some a ∧ db = some d ∧ 0 ≤ a ∧ a ^ 2 = p ∧ (10 : ℝ) ^ (d / 10) = p

/-- Not negative and not zero, where there is a value. -/
def PositiveOrMissing (x : Option ℝ) : Prop := ∀ v, x = some v → 0 < v

/-- A frequency within the range of the frequencies of a table. -/
def Covered (table : List ℝ) (f : ℝ) : Prop := (∃ x ∈ table, x ≤ f) ∧ ∃ x ∈ table, f ≤ x

/-- `call` gives the spectrum of a kind at the frequencies `freqs`. The three kinds (in any capitalisation; all that begin with amp are the same) succeed, agree frequency by frequency and in
the noise level, where the power is positive; there are values exactly at the frequencies within the table. -/
def KindsAgree (call : List Nat → Except Exc NoiseInfo) (table freqs : List ℝ) : Prop :=
  ∀ power amp db : List Nat, lower power = bytes "power" → (lower amp).take 3 = bytes "amp" → lower db = bytes "db" →
    ∃ p a d, call power = .ok p ∧ call amp = .ok a ∧ call db = .ok d ∧
      p.freqs = freqs ∧ a.freqs = freqs ∧ d.freqs = freqs ∧
      p.spectrum.length = freqs.length ∧ a.spectrum.length = freqs.length ∧ d.spectrum.length = freqs.length ∧
      (∀ (i : Nat) f x y z, freqs[i]? = some f → p.spectrum[i]? = some x → a.spectrum[i]? = some y → d.spectrum[i]? = some z →
        (x.isSome ↔ Covered table f) ∧ (PositiveOrMissing x → SameLevel x y z)) ∧
      (PositiveOrMissing p.noise → SameLevel p.noise a.noise d.noise)

end Gemlog
