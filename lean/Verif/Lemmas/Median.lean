import Verif.Model.Drift
import Mathlib.Data.List.Sort
import Mathlib.Data.List.GetD
import Mathlib.Tactic.Linarith

/-! # The median lies in the middle -/

namespace Gemlog

theorem sortRat_perm (v : List Rat) : (sortRat v).Perm v := List.perm_insertionSort _ _

theorem sortRat_sorted (v : List Rat) : (sortRat v).Pairwise (· ≤ ·) := List.pairwise_insertionSort _ _

theorem sorted_getD {s : List Rat} (h : s.Pairwise (· ≤ ·)) {i j : Nat} (hij : i ≤ j) (hj : j < s.length) :
    s.getD i 0 ≤ s.getD j 0 := by
  have hi : i < s.length := by omega
  rw [List.getD_eq_getElem _ _ hi, List.getD_eq_getElem _ _ hj]
  rcases Nat.lt_or_ge i j with h1 | h1
  · exact List.pairwise_iff_getElem.mp h i j hi hj h1
  · have : i = j := by omega
    subst this
    exact le_refl _

/-- From position `k` on, all entries of a sorted list reach a bound below entry `k`. -/
theorem count_ge {s : List Rat} (h : s.Pairwise (· ≤ ·)) (k : Nat) (m : Rat) (hk : k < s.length → m ≤ s.getD k 0) :
    s.length - k ≤ s.countP fun x => decide (m ≤ x) := by
  have h1 : (s.drop k).countP (fun x => decide (m ≤ x)) = (s.drop k).length := by
    rw [List.countP_eq_length]
    intro x hx
    obtain ⟨i, hi, rfl⟩ := List.getElem_of_mem hx
    rw [List.length_drop] at hi
    rw [List.getElem_drop]
    have hs := sorted_getD h (Nat.le_add_right k i) (by omega)
    rw [List.getD_eq_getElem _ _ (show k + i < s.length by omega)] at hs
    simp only [decide_eq_true_eq]
    exact le_trans (hk (by omega)) hs
  have h2 := List.Sublist.countP_le (p := fun x => decide (m ≤ x)) (List.drop_sublist k s)
  rw [h1, List.length_drop] at h2
  exact h2

/-- Up to position `k`, all entries of a sorted list stay below a bound above entry `k`. -/
theorem count_le {s : List Rat} (h : s.Pairwise (· ≤ ·)) (k : Nat) (hks : k < s.length) (m : Rat) (hk : s.getD k 0 ≤ m) :
    k + 1 ≤ s.countP fun x => decide (x ≤ m) := by
  have h1 : (s.take (k + 1)).countP (fun x => decide (x ≤ m)) = (s.take (k + 1)).length := by
    rw [List.countP_eq_length]
    intro x hx
    obtain ⟨i, hi, rfl⟩ := List.getElem_of_mem hx
    rw [List.length_take] at hi
    rw [List.getElem_take]
    have hs := sorted_getD h (show i ≤ k by omega) hks
    rw [List.getD_eq_getElem _ _ (show i < s.length by omega)] at hs
    simp only [decide_eq_true_eq]
    exact le_trans hs hk
  have h2 := List.Sublist.countP_le (p := fun x => decide (x ≤ m)) (List.take_sublist (k + 1) s)
  rw [h1, List.length_take] at h2
  omega

/-- At least half of the values are at or above the median, and at least half are at or below. -/
theorem median_half (v : List Rat) (hv : v ≠ []) :
    v.length ≤ 2 * (v.countP fun x => decide (medianRat v ≤ x)) ∧ v.length ≤ 2 * v.countP fun x => decide (x ≤ medianRat v) := by
  have hp := sortRat_perm v
  have hs := sortRat_sorted v
  have hlen := hp.length_eq
  have hpos : 0 < v.length := List.length_pos_iff.mpr hv
  rw [← hp.countP_eq, ← hp.countP_eq]
  unfold medianRat
  simp only
  by_cases hodd : (sortRat v).length % 2 = 1
  · rw [if_pos hodd]
    have h1 := count_ge hs ((sortRat v).length / 2) _ (fun _ => le_refl _)
    have h2 := count_le hs ((sortRat v).length / 2) (by omega) _ (le_refl _)
    omega
  · rw [if_neg hodd]
    have hle := sorted_getD hs (show (sortRat v).length / 2 - 1 ≤ (sortRat v).length / 2 by omega) (by omega)
    have h1 := count_ge hs ((sortRat v).length / 2)
      (((sortRat v).getD ((sortRat v).length / 2 - 1) 0 + (sortRat v).getD ((sortRat v).length / 2) 0) / 2)
      (fun _ => by linarith)
    have h2 := count_le hs ((sortRat v).length / 2 - 1) (by omega)
      (((sortRat v).getD ((sortRat v).length / 2 - 1) 0 + (sortRat v).getD ((sortRat v).length / 2) 0) / 2) (by linarith)
    omega

end Gemlog
