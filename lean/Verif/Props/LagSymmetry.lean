import Verif.Props.Xcorr
import Mathlib.Algebra.BigOperators.Finprod

/-!
# C119: the lags depend on the wave forms only
-/

namespace Gemlog

/-! ## Gain and offset -/

theorem sum_affine (c d : Rat) : ∀ l : List Rat, (l.map fun x => c * x + d).sum = c * l.sum + l.length * d
  | [] => by simp
  | x :: l => by
    rw [List.map_cons, List.sum_cons, sum_affine c d l, List.sum_cons, List.length_cons]
    push_cast
    ring

theorem demean_affine (c d : Rat) (l : List Rat) : demean (l.map fun x => c * x + d) = (demean l).map fun x => c * x := by
  unfold demean
  rw [sum_affine, List.length_map, List.map_map, List.map_map]
  apply List.map_congr_left
  intro x hx
  have hlen : (l.length : Rat) ≠ 0 := by
    have := List.length_pos_of_mem hx
    exact_mod_cast (by omega : l.length ≠ 0)
  simp only [Function.comp_apply]
  field_simp
  ring

theorem padded_scaled (c : Rat) (l : List Rat) (n : Int) : padded (l.map fun x => c * x) n = c * padded l n := by
  unfold padded
  split_ifs
  · rw [List.getD_eq_getElem?_getD, List.getD_eq_getElem?_getD, List.getElem?_map]
    cases l[n.toNat]? <;> simp
  · simp

theorem crossCorr_scaled (c e : Rat) (a b : List Rat) (s : Int) :
    crossCorr (a.map fun x => c * x) (b.map fun x => e * x) s = c * e * crossCorr a b s := by
  unfold crossCorr
  rw [List.length_map, sum_range_list, sum_range_list, Finset.mul_sum]
  apply Finset.sum_congr rfl
  intro n _
  rw [padded_scaled, padded_scaled]
  ring

/-- The properties of C72 determine the shift. -/
theorem maxShift_unique (a b : List Rat) (m : Nat) (s : Int) (h1 : -(m : Int) ≤ s) (h2 : s ≤ m)
    (h : ∀ t : Int, -(m : Int) ≤ t → t ≤ m → crossCorr (demean a) (demean b) t ≤ crossCorr (demean a) (demean b) s ∧
      (t < s → crossCorr (demean a) (demean b) t < crossCorr (demean a) (demean b) s)) : maxShift (correlate a b m) = s := by
  obtain ⟨g1, g2, g⟩ := C72_maximum a b m _ rfl
  generalize maxShift (correlate a b m) = r at g1 g2 g
  rcases lt_trichotomy r s with hlt | he | hgt
  · have := (h r g1 g2).2 hlt
    have := (g s h1 h2).1
    linarith
  · exact he
  · have := (g s h1 h2).2 hgt
    have := (h r g1 g2).1
    linarith

/-- C119, gain and offset. Each channel may be multiplied by any positive factor and have any constant added: the shift remains the same. -/
theorem C119_gain_offset (a b : List Rat) (m : Nat) (c d e f : Rat) (hc : 0 < c) (he : 0 < e) :
    maxShift (correlate (a.map fun x => c * x + d) (b.map fun x => e * x + f) m) = maxShift (correlate a b m) := by
  obtain ⟨g1, g2, g⟩ := C72_maximum a b m _ rfl
  refine maxShift_unique _ _ m _ g1 g2 fun t ht1 ht2 => ?_
  rw [demean_affine, demean_affine, crossCorr_scaled, crossCorr_scaled]
  have hpos : 0 < c * e := mul_pos hc he
  exact ⟨mul_le_mul_of_nonneg_left (g t ht1 ht2).1 hpos.le, fun h => mul_lt_mul_of_pos_left ((g t ht1 ht2).2 h) hpos⟩

/-! ## Exchanging the channels -/

/-- The sum over all samples, as the traces are zero outside. -/
theorem crossCorr_finsum (a b : List Rat) (s : Int) : crossCorr a b s = ∑ᶠ n : Int, padded a (n + s) * padded b n := by
  unfold crossCorr
  rw [sum_range_list]
  rw [finsum_eq_sum_of_support_subset (s := (Finset.range b.length).image (fun n : Nat => (n : Int)))]
  · rw [Finset.sum_image]
    intro x _ y _ h
    simpa using h
  · intro n hn
    rw [Function.mem_support] at hn
    by_contra hc
    apply hn
    rw [padded_outside (l := b) (n := n), mul_zero]
    by_contra h
    push Not at h
    exact hc (Finset.mem_coe.mpr (Finset.mem_image.mpr ⟨n.toNat, Finset.mem_range.mpr (by omega), by omega⟩))

theorem crossCorr_swap (a b : List Rat) (s : Int) : crossCorr b a (-s) = crossCorr a b s := by
  rw [crossCorr_finsum, crossCorr_finsum]
  rw [← finsum_comp_equiv (Equiv.addRight s)]
  apply finsum_congr
  intro n
  simp only [Equiv.coe_addRight]
  rw [mul_comm]
  congr 2
  ring

/-- C119, exchange. If the correlation has one maximum only, exchanging the channels changes the sign of the shift. Missing: several equal
maxima, see `C119_violated_ties`. -/
theorem C119_exchange_partial (a b : List Rat) (m : Nat) (s : Int) (h1 : -(m : Int) ≤ s) (h2 : s ≤ m)
    (h : ∀ t : Int, -(m : Int) ≤ t → t ≤ m → t ≠ s → crossCorr (demean a) (demean b) t < crossCorr (demean a) (demean b) s) :
    maxShift (correlate a b m) = s ∧ maxShift (correlate b a m) = -s := by
  constructor
  · refine maxShift_unique _ _ m s h1 h2 fun t ht1 ht2 => ?_
    by_cases hts : t = s
    · subst hts
      exact ⟨le_refl _, fun h => absurd h (lt_irrefl _)⟩
    · exact ⟨(h t ht1 ht2 hts).le, fun _ => h t ht1 ht2 hts⟩
  · refine maxShift_unique _ _ m (-s) (by omega) (by omega) fun t ht1 ht2 => ?_
    rw [crossCorr_swap, show t = -(-t) by ring, crossCorr_swap]
    by_cases hts : -t = s
    · rw [hts]
      exact ⟨le_refl _, fun h => by omega⟩
    · exact ⟨(h (-t) (by omega) (by omega) hts).le, fun _ => h (-t) (by omega) (by omega) hts⟩

/-- Where the property fails: if there are several maxima, the two shifts are those of the first in one order and of the last in the other. -/
theorem C119_violated_ties (a b : List Rat) (m : Nat) (s t : Int) (hs : -(m : Int) ≤ s) (hst : s < t) (ht : t ≤ m)
    (heq : crossCorr (demean a) (demean b) s = crossCorr (demean a) (demean b) t)
    (hmax : ∀ r : Int, -(m : Int) ≤ r → r ≤ m → crossCorr (demean a) (demean b) r ≤ crossCorr (demean a) (demean b) s) :
    maxShift (correlate b a m) ≠ -maxShift (correlate a b m) := by
  obtain ⟨g1, g2, g⟩ := C72_maximum a b m _ rfl
  obtain ⟨k1, k2, k⟩ := C72_maximum b a m _ rfl
  generalize maxShift (correlate a b m) = r at g1 g2 g
  generalize maxShift (correlate b a m) = q at k1 k2 k
  have hr : r ≤ s := by
    by_contra hc
    have := (g s hs (by omega)).2 (by omega)
    have := hmax r g1 g2
    linarith
  have hq : q ≤ -t := by
    by_contra hc
    have h1 := (k (-t) (by omega) (by omega)).2 (by omega)
    rw [crossCorr_swap, show q = -(-q) by ring, crossCorr_swap] at h1
    have := hmax (-q) (by omega) (by omega)
    linarith
  omega

/-- Where the property fails: a channel of opposite polarity. The shift reported for a pulse and the same pulse with the opposite sign is never the difference of the arrival
times. -/
theorem C119_violated_polarity (a b : List Rat) (m : Nat) (p : Int → Rat) (ta tb : Int) (hp : ∃ n, p n ≠ 0) (ha : ShowsPulse p ta (demean a))
    (hb : ShowsPulse (fun n => -p n) tb (demean b)) (hm : 0 < m) : maxShift (correlate a b m) ≠ ta - tb := by
  intro hs
  obtain ⟨g1, g2, g⟩ := C72_maximum a b m _ hs
  have hb' : ShowsPulse p tb ((demean b).map fun x => -1 * x) := by
    intro n
    rw [padded_scaled, hb n]
    ring
  have hcorr : ∀ t : Int, crossCorr (demean a) (demean b) t =
      - ∑ n ∈ Finset.range (demean b).length, padded (demean b) ((n : Int) + (t - (ta - tb))) * padded (demean b) n := by
    intro t
    unfold crossCorr
    rw [sum_range_list, ← Finset.sum_neg_distrib]
    apply Finset.sum_congr rfl
    intro n _
    rw [ha, hb ((n : Int) + (t - (ta - tb)))]
    have : (n : Int) + t - ta = (n : Int) + (t - (ta - tb)) - tb := by ring
    rw [this]
    ring
  obtain ⟨d, hd0, hd1, hd2⟩ : ∃ d : Int, d ≠ 0 ∧ -(m : Int) ≤ ta - tb + d ∧ ta - tb + d ≤ m := by
    by_cases h : ta - tb = m
    · exact ⟨-1, by decide, by omega, by omega⟩
    · exact ⟨1, by decide, by omega, by omega⟩
  have h1 := (g _ hd1 hd2).1
  rw [hcorr, hcorr] at h1
  have := autocorr_lt (padded (demean b)) (demean b).length (fun n h => padded_outside h)
    (by obtain ⟨n, hn⟩ := hp; exact ⟨n + tb, by rw [hb]; simpa using hn⟩) d hd0
  simp only [sub_self, add_zero, add_sub_cancel_left] at h1
  linarith

/-! ### Examples: a pulse with gain and offset, exchanged, with two maxima, and with the opposite sign -/

example : maxShift (correlate [0, 0, 0, 2, -3, 1, 0] [0, 2, -3, 1, 0, 0, 0] 4) = 2 ∧
    maxShift (correlate ([0, 0, 0, 2, -3, 1, 0].map fun x => 5 * x + 7) ([0, 2, -3, 1, 0, 0, 0].map fun x => 1 / 3 * x + -1) 4) = 2 ∧
    maxShift (correlate [0, 2, -3, 1, 0, 0, 0] [0, 0, 0, 2, -3, 1, 0] 4) = -2 := by decide +kernel

/-- The only maximum of the correlation of the two pulses. -/
example : ∀ t : Int, -(4 : Nat) ≤ t → t ≤ (4 : Nat) → t ≠ 2 →
    crossCorr (demean [0, 0, 0, 2, -3, 1, 0]) (demean [0, 2, -3, 1, 0, 0, 0]) t < crossCorr (demean [0, 0, 0, 2, -3, 1, 0]) (demean [0, 2, -3, 1, 0, 0, 0]) 2 := by
  intro t h1 h2
  obtain ⟨k, hk, rfl⟩ : ∃ k : Nat, k < 9 ∧ t = (k : Int) - 4 := ⟨(t + 4).toNat, by omega, by omega⟩
  clear h1 h2
  revert k
  decide +kernel

/-- A signal with a period of two samples, correlated with a click. -/
example : maxShift (correlate [0, 0, 1, -1, 1, -1, 0, 0] [0, 0, 0, 1, -1, 0, 0, 0] 2) = -1 ∧
    maxShift (correlate [0, 0, 0, 1, -1, 0, 0, 0] [0, 0, 1, -1, 1, -1, 0, 0] 2) = -1 := by decide +kernel

/-- The opposite sign. -/
example : maxShift (correlate [0, 0, 0, 2, -3, 1, 0] [0, -2, 3, -1, 0, 0, 0] 4) = 1 := by decide +kernel

end Gemlog
