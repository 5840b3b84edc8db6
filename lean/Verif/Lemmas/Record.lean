import Verif.Lemmas.Merge

/-! # Filling small gaps, at the level of samples -/

namespace Gemlog

theorem fillIn_append (r : List (Int × Int)) (x y : Int × Int) (t : List (Int × Int)) :
    fillIn (r ++ x :: y :: t) = fillIn (r ++ [x]) ++ (between x y ++ fillIn (y :: t)) := by
  induction r with
  | nil => simp [fillIn]
  | cons a r ih =>
    cases r with
    | nil => simp [fillIn]
    | cons b r =>
      simp only [List.cons_append, fillIn] at ih ⊢
      rw [ih]
      simp

theorem between_one {a b : Int × Int} (h : b.1 - a.1 = 1) : between a b = [] := by
  unfold between
  rw [if_neg (by omega), if_neg (by omega)]

theorem between_far {a b : Int × Int} (h : b.1 - a.1 > 3) : between a b = [] := by
  unfold between
  rw [if_neg (by omega), if_neg (by omega)]

theorem fillIn_stamps (k : Int) (l : List Int) : fillIn (stamps k l) = stamps k l := by
  induction l generalizing k with
  | nil => rfl
  | cons x l ih =>
    cases l with
    | nil => rfl
    | cons y l =>
      have := ih (k + 1)
      simp only [stamps, fillIn] at this ⊢
      rw [this, between_one (by show k + 1 - k = 1; ring)]
      rfl

/-- Filling does not change the first sample. -/
theorem fillIn_cons (y : Int × Int) (t : List (Int × Int)) : ∃ t', fillIn (y :: t) = y :: t' := by
  cases t with
  | nil => exact ⟨[], rfl⟩
  | cons z t => exact ⟨between y z ++ fillIn (z :: t), rfl⟩

theorem fillIn_concat (r : List (Int × Int)) (x : Int × Int) : ∃ r', fillIn (r ++ [x]) = r' ++ [x] := by
  induction r with
  | nil => exact ⟨[], rfl⟩
  | cons a r ih =>
    obtain ⟨r', e⟩ := ih
    cases r with
    | nil => exact ⟨a :: between a x, by simp [fillIn]⟩
    | cons b r =>
      simp only [List.cons_append, fillIn] at e ⊢
      rw [e]
      exact ⟨a :: (between a b ++ r'), by simp⟩

theorem samples_joinFrom (a : Trace) (l : List Trace) (ho : InOrder (a :: l)) :
    samples (joinFrom a l) = fillIn (samples (a :: l)) := by
  induction l generalizing a with
  | nil =>
    simp only [joinFrom, samples_cons, samples_nil, List.append_nil]
    exact (fillIn_stamps _ _).symm
  | cons b l ih =>
    have hf : Follows a b := by
      refine ⟨ho.1 _ (by simp), ho.1 _ (by simp), ?_⟩
      obtain ⟨x, r, e1⟩ := last_stamps (ho.1 a (by simp))
      obtain ⟨y, r', e2⟩ := head_samples (p := l) (ho.1 b (by simp))
      have := ho.2
      rw [samples_cons, e1, e2] at this
      exact (increasing_append.mp this).2.2 (a.stop, x) (by simp) _ List.mem_cons_self
    rw [joinFrom]
    by_cases hg : b.start - a.stop ≤ 3
    · rw [if_pos hg]
      have ho' : InOrder (bridge a b :: l) := by
        refine ⟨?_, ?_⟩
        · intro t ht
          rcases List.mem_cons.mp ht with rfl | ht
          · exact bridge_ne hf.1
          · exact ho.1 t (by simp [ht])
        · have h2 := ho.2
          rw [samples_cons, samples_cons, ← List.append_assoc] at h2
          rw [samples_cons]
          obtain ⟨_, h3, h4⟩ := increasing_append.mp h2
          refine increasing_append.mpr ⟨stamps_increasing _ _, h3, ?_⟩
          intro q hq z hz
          obtain ⟨y, r, e⟩ := last_stamps hf.2.1
          have h5 := h4 (b.stop, y) (by rw [e]; simp) z hz
          have h6 := mem_stamps_range hq
          have h7 := bridge_length hf
          have h8 := stop_of_ne hf.2.1
          have : (bridge a b).start = a.start := rfl
          rw [this] at h6
          have h5' : b.stop < z.1 := h5
          omega
      rw [ih _ ho', samples_cons, samples_cons, samples_cons]
      obtain ⟨r, x, y, r', e1, e2, e3⟩ := bridge_samples hf hg
      rw [e3, e1, e2]
      have hfill : fillIn (r ++ [(a.stop, x)]) = r ++ [(a.stop, x)] := by
        rw [← e1]; exact fillIn_stamps _ _
      simp only [List.append_assoc, List.cons_append, List.nil_append]
      rw [fillIn_append r (a.stop, x) (b.start, y), hfill]
      have hc : b.start - a.stop = 1 ∨ b.start - a.stop = 2 ∨ b.start - a.stop = 3 := by
        have := hf.2.2; omega
      rcases hc with hc | hc | hc
      · rw [between_one hc]
        simp only [List.nil_append]
        rw [fillIn_append, hfill, between_one hc]
        rfl
      · have hb : between (a.stop, x) (b.start, y) = [(a.stop + 1, Int.tdiv (x + y) 2)] := by
          unfold between
          simp only [hc, if_true]
        rw [hb]
        simp only [List.cons_append, List.nil_append]
        rw [fillIn_append, hfill, between_one (by show a.stop + 1 - a.stop = 1; ring), List.nil_append, fillIn,
          between_one (by show b.start - (a.stop + 1) = 1; omega), List.nil_append]
      · have hb : between (a.stop, x) (b.start, y) =
            [(a.stop + 1, Int.tdiv (2 * x + y) 3), (a.stop + 2, Int.tdiv (x + 2 * y) 3)] := by
          unfold between
          simp only [hc, if_true]
          simp
        rw [hb]
        simp only [List.cons_append, List.nil_append]
        rw [fillIn_append, hfill, between_one (by show a.stop + 1 - a.stop = 1; ring), List.nil_append, fillIn,
          between_one (by show a.stop + 2 - (a.stop + 1) = 1; omega), List.nil_append, fillIn,
          between_one (by show b.start - (a.stop + 2) = 1; omega), List.nil_append]
    · rw [if_neg hg, samples_cons, ih _ (inOrder_tail ho)]
      obtain ⟨x, r, e1⟩ := last_stamps hf.1
      obtain ⟨y, r', e2⟩ := head_samples (p := l) hf.2.1
      rw [samples_cons a (b :: l), e1, e2]
      have e4 : r ++ [(a.stop, x)] ++ (b.start, y) :: r' = r ++ (a.stop, x) :: (b.start, y) :: r' := by simp
      rw [e4, fillIn_append, between_far (by show b.start - a.stop > 3; omega), List.nil_append, ← e1, fillIn_stamps]

/-- `_merge_gaps` fills the small gaps of the record. -/
theorem samples_mergeGaps {p : List Trace} (ho : InOrder p) : samples (mergeGaps p) = fillIn (samples p) := by
  cases p with
  | nil => rfl
  | cons a l => rw [mergeGaps_cons ho, samples_joinFrom a l ho]

theorem mem_between {a b q : Int × Int} (h : q ∈ between a b) : a.1 < q.1 ∧ q.1 < b.1 ∧ b.1 - a.1 ≤ 3 := by
  unfold between at h
  split_ifs at h with h1 h2
  · simp only [List.mem_singleton] at h
    rw [h]
    simp only
    omega
  · simp only [List.mem_cons, List.not_mem_nil, or_false] at h
    rcases h with h | h <;> rw [h] <;> simp only <;> omega
  · simp at h

theorem between_increasing (a b : Int × Int) : Increasing (between a b) := by
  unfold between Increasing
  split_ifs
  · exact List.pairwise_singleton _ _
  · refine List.Pairwise.cons ?_ (List.pairwise_singleton _ _)
    intro q hq
    rw [List.mem_singleton.mp hq]
    show a.1 + 1 < a.1 + 2
    omega
  · exact List.Pairwise.nil

theorem fillIn_bounds {s : List (Int × Int)} (hs : Increasing s) {q : Int × Int} (hq : q ∈ fillIn s) :
    (∃ a ∈ s, a.1 ≤ q.1) ∧ ∃ b ∈ s, q.1 ≤ b.1 := by
  induction s with
  | nil => simp [fillIn] at hq
  | cons a s ih =>
    cases s with
    | nil =>
      simp only [fillIn, List.mem_singleton] at hq
      rw [hq]
      exact ⟨⟨a, by simp, le_refl _⟩, ⟨a, by simp, le_refl _⟩⟩
    | cons b s =>
      simp only [fillIn, List.mem_cons, List.mem_append] at hq
      rcases hq with rfl | hq | hq
      · exact ⟨⟨q, by simp, le_refl _⟩, ⟨q, by simp, le_refl _⟩⟩
      · have := mem_between hq
        exact ⟨⟨a, by simp, by omega⟩, ⟨b, by simp, by omega⟩⟩
      · obtain ⟨⟨c, hc, h1⟩, d, hd, h2⟩ := ih (List.pairwise_cons.mp hs).2 hq
        exact ⟨⟨c, List.mem_cons_of_mem _ hc, h1⟩, ⟨d, List.mem_cons_of_mem _ hd, h2⟩⟩

theorem fillIn_increasing {s : List (Int × Int)} (hs : Increasing s) : Increasing (fillIn s) := by
  induction s with
  | nil => exact List.Pairwise.nil
  | cons a s ih =>
    cases s with
    | nil => exact List.pairwise_singleton _ _
    | cons b s =>
      have hs' := List.pairwise_cons.mp hs
      have hab : a.1 < b.1 := hs'.1 b (by simp)
      have hge : ∀ q ∈ fillIn (b :: s), b.1 ≤ q.1 := by
        intro q hq
        obtain ⟨⟨c, hc, h1⟩, _⟩ := fillIn_bounds hs'.2 hq
        rcases List.mem_cons.mp hc with rfl | hc
        · exact h1
        · have := (List.pairwise_cons.mp hs'.2).1 c hc; omega
      rw [fillIn]
      refine List.Pairwise.cons ?_ (increasing_append.mpr ⟨between_increasing a b, ih hs'.2, ?_⟩)
      · intro q hq
        rcases List.mem_append.mp hq with hq | hq
        · exact (mem_between hq).1
        · have := hge q hq; omega
      · intro x hx y hy
        have := mem_between hx
        have := hge y hy
        omega

theorem fillIn_sublist (s : List (Int × Int)) : s.Sublist (fillIn s) := by
  induction s with
  | nil => exact List.Sublist.refl _
  | cons a s ih =>
    cases s with
    | nil => exact List.Sublist.refl _
    | cons b s =>
      rw [fillIn]
      exact List.Sublist.cons_cons a (ih.trans (List.sublist_append_right _ _))

theorem joinFrom_ne (a : Trace) (l : List Trace) (ho : ∀ t ∈ a :: l, t.data ≠ []) :
    ∀ t ∈ joinFrom a l, t.data ≠ [] := by
  induction l generalizing a with
  | nil => simpa [joinFrom] using ho
  | cons b l ih =>
    rw [joinFrom]
    by_cases hg : b.start - a.stop ≤ 3
    · rw [if_pos hg]
      apply ih
      intro t ht
      rcases List.mem_cons.mp ht with rfl | ht
      · exact bridge_ne (ho a (by simp))
      · exact ho t (by simp [ht])
    · rw [if_neg hg]
      intro t ht
      rcases List.mem_cons.mp ht with rfl | ht
      · exact ho t (by simp)
      · exact ih b (fun t ht => ho t (List.mem_cons_of_mem _ ht)) t ht

theorem inOrder_mergeGaps {p : List Trace} (ho : InOrder p) : InOrder (mergeGaps p) := by
  refine ⟨?_, ?_⟩
  · cases p with
    | nil => simp [mergeGaps]
    | cons a l =>
      rw [mergeGaps_cons ho]
      exact joinFrom_ne a l ho.1
  · rw [samples_mergeGaps ho]
    exact fillIn_increasing ho.2

theorem inOrder_follows {a b : Trace} {l : List Trace} (ho : InOrder (a :: b :: l)) : Follows a b := by
  refine ⟨ho.1 _ (by simp), ho.1 _ (by simp), ?_⟩
  obtain ⟨x, r, e1⟩ := last_stamps (ho.1 a (by simp))
  obtain ⟨y, r', e2⟩ := head_samples (p := l) (ho.1 b (by simp))
  have := ho.2
  rw [samples_cons, e1, e2] at this
  exact (increasing_append.mp this).2.2 (a.stop, x) (by simp) _ List.mem_cons_self

/-- A record without small gaps. -/
def Filled (s : List (Int × Int)) : Prop := fillIn s = s

theorem filled_append {r t : List (Int × Int)} {x y : Int × Int} :
    Filled (r ++ x :: y :: t) ↔ Filled (r ++ [x]) ∧ between x y = [] ∧ Filled (y :: t) := by
  unfold Filled
  rw [fillIn_append]
  constructor
  · intro h
    have hl := congrArg List.length h
    have l1 := (fillIn_sublist (r ++ [x])).length_le
    have l2 := (fillIn_sublist (y :: t)).length_le
    simp only [List.length_append, List.length_cons, List.length_nil] at hl l1 l2
    have hb : between x y = [] := List.length_eq_zero_iff.mp (by omega)
    have e1 : fillIn (r ++ [x]) = r ++ [x] :=
      ((fillIn_sublist (r ++ [x])).eq_of_length (by simp only [List.length_append, List.length_cons, List.length_nil]; omega)).symm
    have e2 : fillIn (y :: t) = y :: t :=
      ((fillIn_sublist (y :: t)).eq_of_length (by simp only [List.length_cons]; omega)).symm
    exact ⟨e1, hb, e2⟩
  · rintro ⟨h1, h2, h3⟩
    rw [h1, h2, h3]
    simp

theorem between_filled (a b : Int × Int) : Filled (a :: (between a b ++ [b])) := by
  unfold Filled
  by_cases h2 : b.1 - a.1 = 2
  · have hb : between a b = [(a.1 + 1, Int.tdiv (a.2 + b.2) 2)] := by
      unfold between; rw [if_pos h2]
    rw [hb]
    simp only [List.cons_append, List.nil_append, fillIn]
    rw [between_one (by show a.1 + 1 - a.1 = 1; omega), between_one (by show b.1 - (a.1 + 1) = 1; omega)]
    rfl
  · by_cases h3 : b.1 - a.1 = 3
    · have hb : between a b = [(a.1 + 1, Int.tdiv (2 * a.2 + b.2) 3), (a.1 + 2, Int.tdiv (a.2 + 2 * b.2) 3)] := by
        unfold between; rw [if_neg h2, if_pos h3]
      rw [hb]
      simp only [List.cons_append, List.nil_append, fillIn]
      rw [between_one (by show a.1 + 1 - a.1 = 1; omega), between_one (by show a.1 + 2 - (a.1 + 1) = 1; omega),
        between_one (by show b.1 - (a.1 + 2) = 1; omega)]
      rfl
    · have hb : between a b = [] := by
        unfold between; rw [if_neg h2, if_neg h3]
      rw [hb]
      simp [fillIn, hb]

/-- A filled prefix stays as it is. -/
theorem fillIn_prefix {r : List (Int × Int)} {x : Int × Int} (h : Filled (r ++ [x])) (t : List (Int × Int)) :
    fillIn (r ++ x :: t) = r ++ fillIn (x :: t) := by
  cases t with
  | nil =>
    rw [h]
    rfl
  | cons y t =>
    rw [fillIn_append, h]
    simp [fillIn]

theorem fillIn_filled {s : List (Int × Int)} (hs : Increasing s) : Filled (fillIn s) := by
  induction s with
  | nil => rfl
  | cons a s ih =>
    cases s with
    | nil => rfl
    | cons b s =>
      have hs' := List.pairwise_cons.mp hs
      have hb := between_filled a b
      obtain ⟨t', e⟩ := fillIn_cons b s
      have ih' := ih hs'.2
      unfold Filled at ih' ⊢
      rw [fillIn, e]
      rw [show a :: (between a b ++ b :: t') = (a :: between a b) ++ b :: t' by simp]
      rw [fillIn_prefix (by simpa using hb), ← e, ih']

/-- Filling in steps is filling at once. -/
theorem fillIn_fillIn_append {s : List (Int × Int)} (hs : Increasing s) (t : List (Int × Int)) :
    fillIn (fillIn s ++ t) = fillIn (s ++ t) := by
  rcases List.eq_nil_or_concat s with rfl | ⟨r, x, rfl⟩
  · rfl
  · rw [List.concat_eq_append] at hs ⊢
    obtain ⟨r', e⟩ := fillIn_concat r x
    have hf := fillIn_filled hs
    rw [e] at hf ⊢
    rw [List.append_assoc, List.append_assoc, List.singleton_append, fillIn_prefix hf]
    cases t with
    | nil =>
      rw [e]
      rfl
    | cons y t =>
      rw [fillIn_append, e]
      simp [fillIn]

end Gemlog
