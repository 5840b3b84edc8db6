import Verif.Model.Specs
import Mathlib.Tactic.Linarith
import Mathlib.Tactic.NormNum
import Mathlib.Tactic.Ring
import Mathlib.Tactic.FieldSimp

/-!
# C41, C42: instrument specifications and bitweights
-/

namespace Gemlog

/-- The hardware versions and their serial numbers. -/
def VersionOf (n : Int) (v : Rat) : Prop :=
  (3 ≤ n ∧ n ≤ 7 ∧ v = 0.5) ∨ (8 ≤ n ∧ n ≤ 14 ∧ v = 0.7) ∨ (15 ≤ n ∧ n ≤ 19 ∧ v = 0.8) ∨ (20 ≤ n ∧ n ≤ 37 ∧ v = 0.82) ∨
  (38 ≤ n ∧ n ≤ 40 ∧ v = 0.9) ∨ (41 ≤ n ∧ n ≤ 43 ∧ v = 0.91) ∨ (44 ≤ n ∧ n ≤ 46 ∧ v = 0.92) ∨ (47 ≤ n ∧ n ≤ 49 ∧ v = 0.98) ∨
  (50 ≤ n ∧ n ≤ 51 ∧ v = 0.99) ∨ (52 ≤ n ∧ n ≤ 54 ∧ v = 0.991) ∨ (55 ≤ n ∧ n ≤ 57 ∧ v = 0.992) ∨ (58 ≤ n ∧ n ≤ 107 ∧ v = 1) ∨
  (108 ≤ n ∧ v = 1.01)

/-- The rows that contain a number. -/
theorem rows_of (n : Int) : (∃ v, VersionOf n v ∧ (versionTable.filter (inRow n)).map Prod.fst = [v]) ∨
    (n < 3 ∧ versionTable.filter (inRow n) = []) := by
  by_cases h0 : n < 3
  · right
    refine ⟨h0, ?_⟩
    simp only [versionTable, inRow, List.filter_cons, List.filter_nil]
    simp only [Bool.and_eq_true, decide_eq_true_eq, and_true]
    rw [if_neg (by omega), if_neg (by omega), if_neg (by omega), if_neg (by omega), if_neg (by omega), if_neg (by omega),
      if_neg (by omega), if_neg (by omega), if_neg (by omega), if_neg (by omega), if_neg (by omega), if_neg (by omega),
      if_neg (by omega)]
  · left
    have hv : ∃ v, VersionOf n v := by
      unfold VersionOf
      by_cases h1 : n ≤ 7
      · exact ⟨_, .inl ⟨by omega, h1, rfl⟩⟩
      by_cases h2 : n ≤ 14
      · exact ⟨_, .inr (.inl ⟨by omega, h2, rfl⟩)⟩
      by_cases h3 : n ≤ 19
      · exact ⟨_, .inr (.inr (.inl ⟨by omega, h3, rfl⟩))⟩
      by_cases h4 : n ≤ 37
      · exact ⟨_, .inr (.inr (.inr (.inl ⟨by omega, h4, rfl⟩)))⟩
      by_cases h5 : n ≤ 40
      · exact ⟨_, .inr (.inr (.inr (.inr (.inl ⟨by omega, h5, rfl⟩))))⟩
      by_cases h6 : n ≤ 43
      · exact ⟨_, .inr (.inr (.inr (.inr (.inr (.inl ⟨by omega, h6, rfl⟩)))))⟩
      by_cases h7 : n ≤ 46
      · exact ⟨_, .inr (.inr (.inr (.inr (.inr (.inr (.inl ⟨by omega, h7, rfl⟩))))))⟩
      by_cases h8 : n ≤ 49
      · exact ⟨_, .inr (.inr (.inr (.inr (.inr (.inr (.inr (.inl ⟨by omega, h8, rfl⟩)))))))⟩
      by_cases h9 : n ≤ 51
      · exact ⟨_, .inr (.inr (.inr (.inr (.inr (.inr (.inr (.inr (.inl ⟨by omega, h9, rfl⟩))))))))⟩
      by_cases h10 : n ≤ 54
      · exact ⟨_, .inr (.inr (.inr (.inr (.inr (.inr (.inr (.inr (.inr (.inl ⟨by omega, h10, rfl⟩)))))))))⟩
      by_cases h11 : n ≤ 57
      · exact ⟨_, .inr (.inr (.inr (.inr (.inr (.inr (.inr (.inr (.inr (.inr (.inl ⟨by omega, h11, rfl⟩))))))))))⟩
      by_cases h12 : n ≤ 107
      · exact ⟨_, .inr (.inr (.inr (.inr (.inr (.inr (.inr (.inr (.inr (.inr (.inr (.inl ⟨by omega, h12, rfl⟩)))))))))))⟩
      · exact ⟨_, .inr (.inr (.inr (.inr (.inr (.inr (.inr (.inr (.inr (.inr (.inr (.inr ⟨by omega, rfl⟩)))))))))))⟩
    obtain ⟨v, hv⟩ := hv
    refine ⟨v, hv, ?_⟩
    unfold VersionOf at hv
    simp only [versionTable, inRow, List.filter_cons, List.filter_nil, Bool.and_eq_true, decide_eq_true_eq, and_true]
    rcases hv with ⟨h1, h2, rfl⟩ | ⟨h1, h2, rfl⟩ | ⟨h1, h2, rfl⟩ | ⟨h1, h2, rfl⟩ | ⟨h1, h2, rfl⟩ | ⟨h1, h2, rfl⟩ | ⟨h1, h2, rfl⟩ |
      ⟨h1, h2, rfl⟩ | ⟨h1, h2, rfl⟩ | ⟨h1, h2, rfl⟩ | ⟨h1, h2, rfl⟩ | ⟨h1, h2, rfl⟩ | ⟨h1, rfl⟩ <;>
    (repeat (first | rw [if_neg (by omega)] | rw [if_pos (by omega)])) <;>
    norm_num

theorem VersionOf.unique {n : Int} {v w : Rat} (h1 : VersionOf n v) (h2 : VersionOf n w) : v = w := by
  rcases rows_of n with ⟨u, hu, he⟩ | ⟨hn, _⟩
  · have key : ∀ x, VersionOf n x → x = u := by
      intro x hx
      unfold VersionOf at hx hu
      rcases hx with ⟨a, b, c⟩ | ⟨a, b, c⟩ | ⟨a, b, c⟩ | ⟨a, b, c⟩ | ⟨a, b, c⟩ | ⟨a, b, c⟩ | ⟨a, b, c⟩ | ⟨a, b, c⟩ | ⟨a, b, c⟩ | ⟨a, b, c⟩ |
        ⟨a, b, c⟩ | ⟨a, b, c⟩ | ⟨a, c⟩ <;>
      rcases hu with ⟨d, e, f⟩ | ⟨d, e, f⟩ | ⟨d, e, f⟩ | ⟨d, e, f⟩ | ⟨d, e, f⟩ | ⟨d, e, f⟩ | ⟨d, e, f⟩ | ⟨d, e, f⟩ | ⟨d, e, f⟩ | ⟨d, e, f⟩ |
        ⟨d, e, f⟩ | ⟨d, e, f⟩ | ⟨d, f⟩ <;>
      first | omega | rw [c, f]
    rw [key v h1, key w h2]
  · exfalso
    unfold VersionOf at h1
    omega

/-- **C41, hardware versions.** A serial number below 3 is rejected; every other belongs to exactly one version: the row
used is the only one of the table that contains it. -/
theorem C41_one_version (n : Int) :
    (n < 3 → gemSpecs n = .error .other) ∧
    (3 ≤ n → (∃! v, VersionOf n v) ∧ (∃! row, row ∈ versionTable ∧ inRow n row = true) ∧
      ∃ s, gemSpecs n = .ok s ∧ VersionOf n s.version) := by
  rcases rows_of n with ⟨v, hv, he⟩ | ⟨hn, he⟩
  · have h3 : 3 ≤ n := by unfold VersionOf at hv; omega
    refine ⟨fun h => by omega, fun _ => ⟨⟨v, hv, fun w hw => hw.unique hv⟩, ?_⟩⟩
    obtain ⟨row, hrow, hr⟩ : ∃ row, versionTable.filter (inRow n) = [row] ∧ row.1 = v := by
      cases hf : versionTable.filter (inRow n) with
      | nil => rw [hf] at he; simp at he
      | cons a l =>
        rw [hf] at he
        simp only [List.map_cons, List.cons.injEq, List.map_eq_nil_iff] at he
        exact ⟨a, by rw [he.2], he.1⟩
    refine ⟨⟨row, ?_, ?_⟩, ?_⟩
    · have : row ∈ versionTable.filter (inRow n) := by rw [hrow]; simp
      exact List.mem_filter.mp this
    · rintro r ⟨h1, h2⟩
      have : r ∈ versionTable.filter (inRow n) := List.mem_filter.mpr ⟨h1, h2⟩
      rw [hrow] at this
      exact List.mem_singleton.mp this
    · refine ⟨specsOf v, ?_, hv⟩
      unfold gemSpecs
      rw [hrow]
      simp only [List.head?_cons, hr]
  · refine ⟨fun _ => ?_, fun h => by omega⟩
    unfold gemSpecs
    rw [he]
    rfl

theorem gemSpecs_version {n : Int} {s : Specs} (h : gemSpecs n = .ok s) : VersionOf n s.version ∧ s = specsOf s.version := by
  have h3 : 3 ≤ n := by
    by_contra hc
    rw [(C41_one_version n).1 (by omega)] at h
    exact absurd h (by simp)
  obtain ⟨_, _, s', h1, h2⟩ := (C41_one_version n).2 h3
  rw [h] at h1
  rw [Except.ok.injEq] at h1
  subst h1
  refine ⟨h2, ?_⟩
  unfold gemSpecs at h
  split at h
  · exact absurd h (by simp)
  · rw [Except.ok.injEq] at h
    rw [← h]
    rfl

/-- **C41, order.** Newer instruments never have an older version. -/
theorem C41_versions_never_decrease (m n : Int) (s t : Specs) (hm : gemSpecs m = .ok s) (hn : gemSpecs n = .ok t)
    (h : m ≤ n) : s.version ≤ t.version := by
  have h1 := (gemSpecs_version hm).1
  have h2 := (gemSpecs_version hn).1
  unfold VersionOf at h1 h2
  rcases h1 with ⟨a, b, c⟩ | ⟨a, b, c⟩ | ⟨a, b, c⟩ | ⟨a, b, c⟩ | ⟨a, b, c⟩ | ⟨a, b, c⟩ | ⟨a, b, c⟩ | ⟨a, b, c⟩ | ⟨a, b, c⟩ | ⟨a, b, c⟩ |
    ⟨a, b, c⟩ | ⟨a, b, c⟩ | ⟨a, c⟩ <;>
  rcases h2 with ⟨d, e, f⟩ | ⟨d, e, f⟩ | ⟨d, e, f⟩ | ⟨d, e, f⟩ | ⟨d, e, f⟩ | ⟨d, e, f⟩ | ⟨d, e, f⟩ | ⟨d, e, f⟩ | ⟨d, e, f⟩ | ⟨d, e, f⟩ |
    ⟨d, e, f⟩ | ⟨d, e, f⟩ | ⟨d, f⟩ <;>
  first | omega | (rw [c, f]; done) | (rw [c, f]; norm_num; done)

/-- **C41, bitweights.** The voltage bitweight is 0.256 V / 2^15 divided by the gain, 1 + 50/0.47 from serial number 47 on and
1 + 49.4/0.47 before; the pressure bitweight is the voltage bitweight divided by the sensitivity 45.13 µV/Pa at 7 V, scaled
to the supply voltage, 3.1 V from serial number 38 on and 3.373 V before. -/
theorem C41_bitweights (n : Int) (s : Specs) (h : gemSpecs n = .ok s) :
    s.bitweightV * (32768 * (1 + (if n ≥ 47 then 50 else 49.4) / 0.47)) = 0.256 ∧
    s.bitweightPa * ((if n ≥ 38 then 3.1 else 3.373) / 7 * 0.00004513) = s.bitweightV ∧ 0 < s.bitweightV ∧ 0 < s.bitweightPa := by
  obtain ⟨hv, hs⟩ := gemSpecs_version h
  have hg : adcGain s.version = 1 + (if n ≥ 47 then 50 else 49.4) / 0.47 := by
    unfold adcGain
    unfold VersionOf at hv
    rcases hv with ⟨a, b, c⟩ | ⟨a, b, c⟩ | ⟨a, b, c⟩ | ⟨a, b, c⟩ | ⟨a, b, c⟩ | ⟨a, b, c⟩ | ⟨a, b, c⟩ | ⟨a, b, c⟩ | ⟨a, b, c⟩ | ⟨a, b, c⟩ |
      ⟨a, b, c⟩ | ⟨a, b, c⟩ | ⟨a, c⟩ <;> rw [c] <;>
    first
      | (rw [if_pos (by norm_num), if_pos (by omega)]; norm_num)
      | (rw [if_neg (by norm_num), if_neg (by omega)]; norm_num)
  have ha : avcc s.version = if n ≥ 38 then 3.1 else 3.373 := by
    unfold avcc
    unfold VersionOf at hv
    rcases hv with ⟨a, b, c⟩ | ⟨a, b, c⟩ | ⟨a, b, c⟩ | ⟨a, b, c⟩ | ⟨a, b, c⟩ | ⟨a, b, c⟩ | ⟨a, b, c⟩ | ⟨a, b, c⟩ | ⟨a, b, c⟩ | ⟨a, b, c⟩ |
      ⟨a, b, c⟩ | ⟨a, b, c⟩ | ⟨a, c⟩ <;> rw [c] <;>
    first
      | (rw [if_pos (by norm_num), if_pos (by omega)]; norm_num)
      | (rw [if_neg (by norm_num), if_neg (by omega)]; norm_num)
  rw [hs]
  unfold specsOf
  simp only
  rw [hg, ha]
  refine ⟨?_, ?_, ?_, ?_⟩
  · split_ifs <;> norm_num
  · split_ifs <;> norm_num
  · split_ifs <;> norm_num
  · split_ifs <;> norm_num

example : gemSpecs 77 = .ok ⟨1, 256 / 1000 / 32768 / (1 + 50 / (47 / 100)), 256 / 1000 / 32768 / (1 + 50 / (47 / 100)) / (31 / 10 / 7 * (4513 / 100000000))⟩ ∧
    gemSpecs 2 = .error .other ∧ (gemSpecs 3).toOption.map Specs.version = some (1 / 2) := by
  decide +kernel

/-! ## C42 -/

/-- Two letters are the same up to case. -/
def sameLetter (a b : Nat) : Prop := a = b ∨ (97 ≤ a ∧ a ≤ 122 ∧ b = a - 32) ∨ (65 ≤ a ∧ a ≤ 90 ∧ b = a + 32)

/-- Two texts are the same up to the case of letters. -/
def sameText (a b : List Nat) : Prop := List.Forall₂ sameLetter a b

theorem upper_eq_iff (u w : List Nat) (hw : ∀ c ∈ w, 65 ≤ c ∧ c ≤ 90) : upper u = w ↔ sameText u w := by
  unfold sameText
  induction u generalizing w with
  | nil => cases w <;> simp [upper]
  | cons a u ih =>
    cases w with
    | nil => simp [upper]
    | cons b w =>
      have hb := hw b (by simp)
      have ih := ih w (fun c hc => hw c (by simp [hc]))
      rw [List.forall₂_cons, ← ih]
      show ((if 97 ≤ a ∧ a ≤ 122 then a - 32 else a) :: upper u) = b :: w ↔ _
      rw [List.cons.injEq]
      refine and_congr ?_ Iff.rfl
      unfold sameLetter
      split_ifs <;> omega

theorem lower_eq_iff (u w : List Nat) (hw : ∀ c ∈ w, 97 ≤ c ∧ c ≤ 122) : lower u = w ↔ sameText u w := by
  unfold sameText
  induction u generalizing w with
  | nil => cases w <;> simp [lower]
  | cons a u ih =>
    cases w with
    | nil => simp [lower]
    | cons b w =>
      have hb := hw b (by simp)
      have ih := ih w (fun c hc => hw c (by simp [hc]))
      rw [List.forall₂_cons, ← ih]
      show ((if 65 ≤ a ∧ a ≤ 90 then a + 32 else a) :: lower u) = b :: w ↔ _
      rw [List.cons.injEq]
      refine and_congr ?_ Iff.rfl
      unfold sameLetter
      split_ifs <;> omega

/-- **C42.** For every serial number and every spelling of the units in upper or lower case: with high gain (0) the bitweights
are those of the instrument, with low gain (1) exactly twice as large; the unit selects among them; any other gain code or
unit raises. -/
theorem C42_gain_and_units (SN : List Nat) (n : Int) (adc : Int) (units : List Nat) (s : Specs)
    (hn : pyInt SN = some n) (hs : gemSpecs n = .ok s) :
    let k : Rat := if adc = 0 then 1 else 2
    let scaled : Specs := ⟨s.version, k * s.bitweightV, k * s.bitweightPa⟩
    ((adc ≠ 0 ∧ adc ≠ 1) → bitweightInfo SN adc units = .error .baseOther) ∧
    ((adc = 0 ∨ adc = 1) →
      (sameText units (bytes "PA") → bitweightInfo SN adc units = .ok (scaled, k * s.bitweightPa)) ∧
      (sameText units (bytes "V") → bitweightInfo SN adc units = .ok (scaled, k * s.bitweightV)) ∧
      (sameText units (bytes "counts") → bitweightInfo SN adc units = .ok (scaled, 1)) ∧
      (¬sameText units (bytes "PA") → ¬sameText units (bytes "V") → ¬sameText units (bytes "counts") →
        bitweightInfo SN adc units = .error .baseOther)) := by
  intro k scaled
  have hP := upper_eq_iff units (bytes "PA") (by decide +kernel)
  have hV := upper_eq_iff units (bytes "V") (by decide +kernel)
  have hC := lower_eq_iff units (bytes "counts") (by decide +kernel)
  constructor
  · intro h
    unfold bitweightInfo
    rw [if_pos h]
  intro h
  have hlen : ∀ a b : List Nat, sameText a b → a.length = b.length := fun a b h => h.length_eq
  have hres : bitweightInfo SN adc units = if upper units = bytes "PA" then .ok (scaled, k * s.bitweightPa)
      else if upper units = bytes "V" then .ok (scaled, k * s.bitweightV)
      else if lower units = bytes "counts" then .ok (scaled, 1) else .error .baseOther := by
    unfold bitweightInfo
    rw [if_neg (by omega)]
    simp only [hn, hs]
    have e1 : s.bitweightPa * (if adc = 0 then 1 else 2) = k * s.bitweightPa := mul_comm _ _
    have e2 : s.bitweightV * (if adc = 0 then 1 else 2) = k * s.bitweightV := mul_comm _ _
    rw [e1, e2]
  rw [hres]
  refine ⟨?_, ?_, ?_, ?_⟩
  · intro hu
    rw [if_pos (hP.mpr hu)]
  · intro hu
    rw [if_neg, if_pos (hV.mpr hu)]
    intro hp
    have := (hlen _ _ (hP.mp hp)).symm.trans (hlen _ _ hu)
    exact absurd this (by decide +kernel)
  · intro hu
    rw [if_neg, if_neg, if_pos (hC.mpr hu)]
    · intro hp
      have := (hlen _ _ (hV.mp hp)).symm.trans (hlen _ _ hu)
      exact absurd this (by decide +kernel)
    · intro hp
      have := (hlen _ _ (hP.mp hp)).symm.trans (hlen _ _ hu)
      exact absurd this (by decide +kernel)
  · intro h1 h2 h3
    rw [if_neg (by rw [hP]; exact h1), if_neg (by rw [hV]; exact h2), if_neg (by rw [hC]; exact h3)]

/-- **C42, invalid serial numbers** raise, whatever the other arguments. -/
theorem C42_invalid_serial (SN : List Nat) (adc : Int) (units : List Nat)
    (h : pyInt SN = none ∨ ∃ n, pyInt SN = some n ∧ n < 3) : ∃ x, bitweightInfo SN adc units = .error x := by
  unfold bitweightInfo
  by_cases c : adc ≠ 0 ∧ adc ≠ 1
  · rw [if_pos c]; exact ⟨_, rfl⟩
  · rw [if_neg c]
    rcases h with h | ⟨n, h, hn⟩
    · rw [h]; exact ⟨_, rfl⟩
    · rw [h]
      simp only [(C41_one_version n).1 hn]
      exact ⟨_, rfl⟩

example : bitweightInfo (bytes "077") 1 (bytes "pA") = .ok (⟨1, 2 * (256 / 1000 / 32768 / (1 + 50 / (47 / 100))),
    2 * (256 / 1000 / 32768 / (1 + 50 / (47 / 100)) / (31 / 10 / 7 * (4513 / 100000000)))⟩,
    2 * (256 / 1000 / 32768 / (1 + 50 / (47 / 100)) / (31 / 10 / 7 * (4513 / 100000000)))) := by
  decide +kernel

/-- **C42, violated by `convert`.** `get_bitweight_info` accepts `pa` as pascals and rejects an unknown unit, but `convert` knows only
the spellings `Pa`, `V`, `Counts` and `counts`: for any other text, however wrong, it raises nothing and writes NaN as bitweight. -/
theorem C42_violated_convert (s : Specs) (units : List Nat) (h1 : units ≠ bytes "Pa") (h2 : units ≠ bytes "V")
    (h3 : units ≠ bytes "Counts") (h4 : units ≠ bytes "counts") : convertBitweight none s units = none := by
  unfold convertBitweight
  simp only
  rw [if_neg h1, if_neg h2, if_neg (by tauto)]

example : bytes "pa" ≠ bytes "Pa" ∧ sameText (bytes "pa") (bytes "PA") :=
  ⟨by decide +kernel, (upper_eq_iff _ _ (by decide +kernel)).mp (by decide +kernel)⟩

/-- **C42, convert with a known unit.** A bitweight given by the user is used unchanged; otherwise the four known spellings
select the bitweight of the header. -/
theorem C42_convert_units (s : Specs) :
    (∀ b units, convertBitweight (some b) s units = some b) ∧ convertBitweight none s (bytes "Pa") = some s.bitweightPa ∧
    convertBitweight none s (bytes "V") = some s.bitweightV ∧ convertBitweight none s (bytes "counts") = some 1 ∧
    convertBitweight none s (bytes "Counts") = some 1 := by
  refine ⟨fun _ _ => rfl, rfl, ?_, ?_, ?_⟩
  · unfold convertBitweight
    simp only
    rw [if_neg (by decide +kernel), if_pos trivial]
  · unfold convertBitweight
    simp only
    rw [if_neg (by decide +kernel), if_neg (by decide +kernel), if_pos (by decide +kernel)]
  · unfold convertBitweight
    simp only
    rw [if_neg (by decide +kernel), if_neg (by decide +kernel), if_pos (by decide +kernel)]

end Gemlog
