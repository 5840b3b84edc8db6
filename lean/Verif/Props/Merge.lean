import Verif.Lemmas.Record

/-!
# C38: small gaps are bridged, large gaps are kept; C54: overlaps
-/

namespace Gemlog

/-- **C38, as an equation.** For a stream in order, the merged record is the record with every gap of one or two
missing samples filled by a straight line, and nothing else changed. -/
theorem C38_fills_small_gaps (p : List Trace) (ho : InOrder p) :
    samples (mergeGaps p) = fillIn (samples p) ∧ InOrder (mergeGaps p) :=
  ⟨samples_mergeGaps ho, inOrder_mergeGaps ho⟩

/-- Two neighbouring samples of a record. -/
def Neighbours (s : List (Int × Int)) (a b : Int × Int) : Prop := ∃ l r, s = l ++ a :: b :: r

theorem neighbours_cons {s : List (Int × Int)} {a b c : Int × Int} (h : Neighbours s a b) : Neighbours (c :: s) a b := by
  obtain ⟨l, r, rfl⟩ := h
  exact ⟨c :: l, r, rfl⟩

theorem tdiv_le_iff (n m : Int) (d : Int) (hd : 0 < d) (h : n ≤ m * d) : Int.tdiv n d ≤ m := by
  by_cases h0 : 0 ≤ n
  · rw [Int.tdiv_eq_ediv_of_nonneg h0]
    exact Int.ediv_le_of_le_mul hd h
  · have e : Int.tdiv n d = -((-n) / d) := by
      conv_lhs => rw [show n = -(-n) by ring]
      rw [Int.neg_tdiv, Int.tdiv_eq_ediv_of_nonneg (by omega)]
    rw [e]
    have : -m ≤ (-n) / d := by
      rw [Int.le_ediv_iff_mul_le hd]
      linarith
    omega

theorem le_tdiv_iff (n m : Int) (d : Int) (hd : 0 < d) (h : m * d ≤ n) : m ≤ Int.tdiv n d := by
  have := tdiv_le_iff (-n) (-m) d hd (by linarith)
  rw [Int.neg_tdiv] at this
  omega

theorem between_values {a b q : Int × Int} (h : q ∈ between a b) : min a.2 b.2 ≤ q.2 ∧ q.2 ≤ max a.2 b.2 := by
  unfold between at h
  have m1 := min_le_left a.2 b.2
  have m2 := min_le_right a.2 b.2
  have m3 := le_max_left a.2 b.2
  have m4 := le_max_right a.2 b.2
  split_ifs at h with h1 h2
  · simp only [List.mem_singleton] at h
    rw [h]
    exact ⟨le_tdiv_iff _ _ _ (by norm_num) (by linarith), tdiv_le_iff _ _ _ (by norm_num) (by linarith)⟩
  · simp only [List.mem_cons, List.not_mem_nil, or_false] at h
    rcases h with h | h <;> rw [h] <;>
    exact ⟨le_tdiv_iff _ _ _ (by norm_num) (by linarith), tdiv_le_iff _ _ _ (by norm_num) (by linarith)⟩
  · simp at h

theorem fillIn_origin {s : List (Int × Int)} (hs : Increasing s) {q : Int × Int} (hq : q ∈ fillIn s) :
    q ∈ s ∨ ∃ a b, Neighbours s a b ∧ a.1 < q.1 ∧ q.1 < b.1 ∧ b.1 - a.1 ≤ 3 ∧
      min a.2 b.2 ≤ q.2 ∧ q.2 ≤ max a.2 b.2 := by
  induction s with
  | nil => simp [fillIn] at hq
  | cons a s ih =>
    cases s with
    | nil => exact Or.inl hq
    | cons b s =>
      simp only [fillIn, List.mem_cons, List.mem_append] at hq
      rcases hq with rfl | hq | hq
      · exact Or.inl (by simp)
      · right
        have h1 := mem_between hq
        have h2 := between_values hq
        exact ⟨a, b, ⟨[], s, rfl⟩, h1.1, h1.2.1, h1.2.2, h2.1, h2.2⟩
      · rcases ih (List.pairwise_cons.mp hs).2 hq with h | ⟨c, d, h, h'⟩
        · exact Or.inl (List.mem_cons_of_mem _ h)
        · exact Or.inr ⟨c, d, neighbours_cons h, h'⟩

/-- **C38, keeps and inserts.** Every original sample is kept at its time, in order. Any other sample of the result
lies between two neighbouring samples at most 30 ms apart, in time and in value; so at most two are inserted
between neighbours, and gaps above 31 ms are never bridged. -/
theorem C38_keeps_and_inserts (p : List Trace) (ho : InOrder p) :
    (samples p).Sublist (samples (mergeGaps p)) ∧
    ∀ q ∈ samples (mergeGaps p), q ∈ samples p ∨
      ∃ a b, Neighbours (samples p) a b ∧ a.1 < q.1 ∧ q.1 < b.1 ∧ b.1 - a.1 ≤ 3 ∧
        min a.2 b.2 ≤ q.2 ∧ q.2 ≤ max a.2 b.2 := by
  rw [samples_mergeGaps ho]
  exact ⟨fillIn_sublist _, fun q hq => fillIn_origin ho.2 hq⟩

theorem joinFrom_apart (a : Trace) (l : List Trace) (ho : InOrder (a :: l)) :
    (∃ t r, joinFrom a l = t :: r ∧ t.start = a.start) ∧
    (joinFrom a l).IsChain fun x y => y.start - x.stop > 3 := by
  induction l generalizing a with
  | nil => exact ⟨⟨a, [], rfl, rfl⟩, List.isChain_singleton _⟩
  | cons b l ih =>
    have hf := inOrder_follows ho
    rw [joinFrom]
    by_cases hg : b.start - a.stop ≤ 3
    · rw [if_pos hg]
      have ho' : InOrder (bridge a b :: l) := by
        refine ⟨?_, ?_⟩
        · intro t ht
          rcases List.mem_cons.mp ht with rfl | ht
          · exact bridge_ne hf.1
          · exact ho.1 t (by simp [ht])
        · have h2 := ho.2
          rw [samples_cons, samples_cons, ← List.append_assoc] at h2
          rw [samples_cons]
          obtain ⟨_, h3, h4⟩ := increasing_append.mp h2
          refine increasing_append.mpr ⟨stamps_increasing _ _, h3, ?_⟩
          intro q hq z hz
          obtain ⟨y, r, e⟩ := last_stamps hf.2.1
          have h5 := h4 (b.stop, y) (by rw [e]; simp) z hz
          have h6 := mem_stamps_range hq
          have h7 := bridge_length hf
          have h8 := stop_of_ne hf.2.1
          have : (bridge a b).start = a.start := rfl
          rw [this] at h6
          have h5' : b.stop < z.1 := h5
          omega
      exact ih _ ho'
    · rw [if_neg hg]
      obtain ⟨⟨t, r, e1, e2⟩, h⟩ := ih b (inOrder_tail ho)
      refine ⟨⟨a, _, rfl, rfl⟩, ?_⟩
      rw [e1] at h ⊢
      refine List.IsChain.cons_cons ?_ h
      rw [e2]
      omega

/-- **C38, nothing left to merge.** Neighbouring traces of the result are more than 30 ms apart. -/
theorem C38_nothing_left (p : List Trace) (ho : InOrder p) :
    (mergeGaps p).IsChain fun x y => y.start - x.stop > 3 := by
  cases p with
  | nil => exact List.IsChain.nil
  | cons a l =>
    rw [mergeGaps_cons ho]
    exact (joinFrom_apart a l ho).2

/-- A stream with gaps of every kind: adjacent, one and two missing samples, a long gap. -/
def gappy : List Trace := [⟨0, [1, 2, 3]⟩, ⟨5, [9, 10]⟩, ⟨7, [3]⟩, ⟨9, [0, 0]⟩, ⟨100, [5]⟩]

theorem gappy_inOrder : InOrder gappy := by
  refine ⟨by decide +kernel, ?_⟩
  unfold Increasing
  decide +kernel

example : mergeGaps gappy = [⟨0, [1, 2, 3, 5, 7, 9, 10, 3, 1, 0, 0]⟩, ⟨100, [5]⟩] ∧
    samples (mergeGaps gappy) = fillIn (samples gappy) := by
  refine ⟨by decide +kernel, (C38_fills_small_gaps _ gappy_inOrder).1⟩

/-- **C54.** Merging a record that contains no overlap never loses a sample (`C38_keeps_and_inserts`); in
particular nothing is lost outside overlaps. Missing: records with overlaps (`C54_violated`, `C54_exact_partial`). -/
theorem C54_no_loss_without_overlap_partial (p : List Trace) (ho : InOrder p) (q : Int × Int) (hq : q ∈ samples p) :
    q ∈ samples (mergeGaps p) :=
  (C38_keeps_and_inserts p ho).1.subset hq

/-- **C54 is violated.** Two traces that overlap by one sample: the whole earlier trace disappears, not only the
contradictory sample. If a short trace lies inside a longer one, the whole longer one disappears. -/
theorem C54_violated :
    mergeGaps [⟨0, [1, 2, 3, 4]⟩, ⟨3, [9, 10]⟩] = [⟨4, [10]⟩] ∧
    mergeGaps [⟨0, [1, 2, 3, 4, 5, 6]⟩, ⟨3, [9, 10]⟩, ⟨20, [3]⟩] = [⟨20, [3]⟩] := by
  refine ⟨by decide +kernel, by decide +kernel⟩

end Gemlog
