import Verif.Props.Specs

/-!
# C42: exactly which units `convert` knows
-/

namespace Gemlog

/-- **C42, exactly.** Whenever `get_bitweight_info` accepts a unit, `convert` (without a bitweight of the user) writes the bitweight it returns if and only if the unit is spelled `Pa`, `V`,
`counts` or `Counts`; it writes NaN for all other spellings in upper and lower case that `get_bitweight_info` accepts. -/
theorem C42_convert_exact (SN : List Nat) (adc : Int) (units : List Nat) (s : Specs) (b : Rat) (h : bitweightInfo SN adc units = .ok (s, b)) :
    (convertBitweight none s units = some b ↔ units ∈ [bytes "Pa", bytes "V", bytes "counts", bytes "Counts"]) ∧
    (convertBitweight none s units = none ↔ units ∉ [bytes "Pa", bytes "V", bytes "counts", bytes "Counts"]) := by
  have u1 : upper (bytes "Pa") = bytes "PA" := by decide +kernel
  have u2 : upper (bytes "V") = bytes "V" := by decide +kernel
  have u3 : upper (bytes "counts") ≠ bytes "PA" ∧ upper (bytes "counts") ≠ bytes "V" ∧ lower (bytes "counts") = bytes "counts" := by decide +kernel
  have u4 : upper (bytes "Counts") ≠ bytes "PA" ∧ upper (bytes "Counts") ≠ bytes "V" ∧ lower (bytes "Counts") = bytes "counts" := by decide +kernel
  have u5 : bytes "V" ≠ bytes "PA" ∧ bytes "V" ≠ bytes "Pa" ∧ bytes "counts" ≠ bytes "Pa" ∧ bytes "counts" ≠ bytes "V" ∧ bytes "Counts" ≠ bytes "Pa" ∧
    bytes "Counts" ≠ bytes "V" := by decide +kernel
  have key : units ∈ [bytes "Pa", bytes "V", bytes "counts", bytes "Counts"] → convertBitweight none s units = some b := by
    intro hu
    unfold bitweightInfo at h
    by_cases ha : adc ≠ 0 ∧ adc ≠ 1
    · rw [if_pos ha] at h
      cases h
    rw [if_neg ha] at h
    dsimp only at h
    split at h
    · cases h
    · split at h
      · cases h
      · simp only [List.mem_cons, List.not_mem_nil, or_false] at hu
        rcases hu with rfl | rfl | rfl | rfl
        · rw [if_pos u1] at h
          cases h
          simp [convertBitweight]
        · rw [if_neg (by rw [u2]; exact u5.1), if_pos u2] at h
          cases h
          simp [convertBitweight, u5.2.1]
        · rw [if_neg u3.1, if_neg u3.2.1, if_pos u3.2.2] at h
          cases h
          simp [convertBitweight, u5.2.2.1, u5.2.2.2.1]
        · rw [if_neg u4.1, if_neg u4.2.1, if_pos u4.2.2] at h
          cases h
          simp [convertBitweight, u5.2.2.2.2.1, u5.2.2.2.2.2]
  have key2 : units ∉ [bytes "Pa", bytes "V", bytes "counts", bytes "Counts"] → convertBitweight none s units = none := by
    intro hu
    simp only [List.mem_cons, List.not_mem_nil, or_false, not_or] at hu
    exact C42_violated_convert s units hu.1 hu.2.1 hu.2.2.2 hu.2.2.1
  refine ⟨⟨fun hc => ?_, key⟩, ⟨fun hc hu => ?_, key2⟩⟩
  · by_contra hu
    rw [key2 hu] at hc
    cases hc
  · rw [key hu] at hc
    cases hc

/-- The unit `pa` for a logger with low gain: accepted by the one, not by the other. -/
example : (bitweightInfo (bytes "077") 1 (bytes "pa")).toBool = true ∧ bytes "pa" ∉ [bytes "Pa", bytes "V", bytes "counts", bytes "Counts"] ∧
    (bitweightInfo (bytes "077") 1 (bytes "Pa")).toBool = true := by decide +kernel

end Gemlog
