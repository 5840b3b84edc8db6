import Verif.Lemmas.Runs
import Verif.Spec.Gaps

/-! # Merging traces that agree gives the union of their samples -/

namespace Gemlog

/-- The sample at a time, if there is one and it is not masked. -/
def MTrace.at (m : MTrace) (t : Int) : Option Int := if t < m.start then none else (m.data[(t - m.start).toNat]?).join

theorem at_append (s : Int) (A B : List (Option Int)) (t : Int) :
    (⟨s, A ++ B⟩ : MTrace).at t = if t < s + A.length then (⟨s, A⟩ : MTrace).at t else (⟨s + A.length, B⟩ : MTrace).at t := by
  unfold MTrace.at
  simp only
  by_cases h1 : t < s
  · rw [if_pos h1, if_pos (by omega), if_pos h1]
  · rw [if_neg h1]
    by_cases h2 : t < s + A.length
    · rw [if_pos h2, if_neg h1, List.getElem?_append_left (by omega)]
    · rw [if_neg h2, if_neg h2, List.getElem?_append_right (by omega)]
      congr 2
      omega

theorem at_take (s : Int) (A : List (Option Int)) (n : Nat) (t : Int) :
    (⟨s, A.take n⟩ : MTrace).at t = if t < s + n then (⟨s, A⟩ : MTrace).at t else none := by
  unfold MTrace.at
  simp only
  by_cases h1 : t < s
  · rw [if_pos h1, if_pos h1]; simp
  · rw [if_neg h1, if_neg h1]
    by_cases h2 : t < s + n
    · rw [if_pos h2, List.getElem?_take_of_lt (by omega)]
    · rw [if_neg h2, List.getElem?_eq_none (by rw [List.length_take]; omega)]
      rfl

theorem at_replicate (s : Int) (n : Nat) (t : Int) : (⟨s, List.replicate n none⟩ : MTrace).at t = none := by
  unfold MTrace.at
  simp only
  split_ifs
  · rfl
  · rw [List.getElem?_replicate]
    split_ifs <;> rfl

theorem at_some_range {m : MTrace} {t x : Int} (h : m.at t = some x) : m.start ≤ t ∧ t ≤ m.stop := by
  unfold MTrace.at at h
  split_ifs at h with h1
  refine ⟨by omega, ?_⟩
  unfold MTrace.stop
  by_contra h2
  rw [List.getElem?_eq_none (by omega)] at h
  simp at h

theorem at_none_of {m : MTrace} {t : Int} (h : t < m.start ∨ m.stop < t) : m.at t = none := by
  cases h' : m.at t with
  | none => rfl
  | some x =>
    have := at_some_range h'
    omega

theorem mem_stamps_iff (k : Int) (l : List Int) (t x : Int) : (t, x) ∈ stamps k l ↔ k ≤ t ∧ l[(t - k).toNat]? = some x := by
  induction l generalizing k with
  | nil => simp [stamps]
  | cons y l ih =>
    rw [stamps, List.mem_cons, ih, Prod.mk.injEq]
    constructor
    · rintro (⟨rfl, rfl⟩ | ⟨h1, h2⟩)
      · simp
      · refine ⟨by omega, ?_⟩
        rw [show (t - k).toNat = (t - (k + 1)).toNat + 1 by omega, List.getElem?_cons_succ]
        exact h2
    · rintro ⟨h1, h2⟩
      by_cases h3 : t = k
      · left
        rw [show (t - k).toNat = 0 by omega, List.getElem?_cons_zero, Option.some.injEq] at h2
        exact ⟨h3, h2.symm⟩
      · right
        rw [show (t - k).toNat = (t - (k + 1)).toNat + 1 by omega, List.getElem?_cons_succ] at h2
        exact ⟨by omega, h2⟩

theorem toM_at (tr : Trace) (t x : Int) : tr.toM.at t = some x ↔ (t, x) ∈ stamps tr.start tr.data := by
  rw [mem_stamps_iff]
  unfold MTrace.at Trace.toM
  simp only
  by_cases h : t < tr.start
  · rw [if_pos h]
    simp only [reduceCtorEq, false_iff, not_and]
    omega
  · rw [if_neg h, List.getElem?_map]
    have : tr.start ≤ t := by omega
    cases tr.data[(t - tr.start).toNat]? <;> simp [this]

/-- A trace without masked samples has a sample at every time in its range. -/
theorem toM_full {tr : Trace} {t : Int} (h : tr.data ≠ []) (h1 : tr.start ≤ t) (h2 : t ≤ tr.stop) : ∃ x, tr.toM.at t = some x := by
  rw [stop_of_ne h] at h2
  have hl : (t - tr.start).toNat < tr.data.length := by omega
  refine ⟨tr.data[(t - tr.start).toNat], ?_⟩
  rw [toM_at, mem_stamps_iff]
  exact ⟨h1, List.getElem?_eq_getElem hl⟩

theorem agree_of {x y : List (Option Int)} (h : ∀ (i : Nat) (a b : Int), x[i]? = some (some a) → y[i]? = some (some b) → a = b) :
    agree x y = true := by
  unfold agree
  rw [List.all_eq_true]
  intro q hq
  obtain ⟨i, hi⟩ := List.mem_iff_getElem?.mp hq
  obtain ⟨h1, h2⟩ := List.getElem?_zip_eq_some.mp hi
  cases hx : q.1 with
  | none => simp
  | some a =>
    cases hy : q.2 with
    | none => simp
    | some b =>
      rw [hx] at h1
      rw [hy] at h2
      simp [h i a b h1 h2]

/-- `at` by index. -/
theorem at_index {m : MTrace} {i : Nat} {a : Int} (h : m.data[i]? = some (some a)) : m.at (m.start + i) = some a := by
  unfold MTrace.at
  rw [if_neg (by omega), show (m.start + (i : Int) - m.start).toNat = i by omega, h]
  rfl

/-- Adding a trace that agrees with what is there. -/
theorem add_union {cur : MTrace} {rt : Trace} (hne : cur.data ≠ []) (hr : rt.data ≠ []) (hs : cur.start ≤ rt.start)
    (hfull : ∀ t, rt.start ≤ t → t ≤ cur.stop → ∃ x, cur.at t = some x)
    (hcons : ∀ t x y, cur.at t = some x → rt.toM.at t = some y → x = y) :
    (addTraces false cur rt.toM).start = cur.start ∧ (addTraces false cur rt.toM).data ≠ [] ∧
      (addTraces false cur rt.toM).stop = max cur.stop rt.stop ∧
      ∀ t, (addTraces false cur rt.toM).at t = (rt.toM.at t).or (cur.at t) := by
  have hstop : rt.toM.stop = rt.stop := toM_stop hr
  have hst : rt.toM.start = rt.start := rfl
  have hlc : 0 < cur.data.length := List.length_pos_iff.mpr hne
  have hlr : 0 < rt.data.length := List.length_pos_iff.mpr hr
  have hrs := stop_of_ne hr
  have hcs : cur.stop = cur.start + cur.data.length - 1 := rfl
  have hml : rt.toM.data.length = rt.data.length := by simp [Trace.toM]
  have hrange : ∀ t, (t < rt.start ∨ rt.stop < t) → rt.toM.at t = none := fun t ht => at_none_of (by rw [hst, hstop]; exact ht)
  unfold addTraces
  rw [if_pos (by rw [hst]; exact hs)]
  unfold addOrdered
  simp only [hst, hstop]
  by_cases c1 : rt.start - cur.stop - 1 < 0 ∧ cur.stop - rt.stop < 0
  · rw [if_pos c1]
    obtain ⟨c1, c2⟩ := c1
    have hd : ((-(rt.start - cur.stop - 1)).toNat : Int) = cur.stop + 1 - rt.start := by omega
    have hd' : (-(rt.start - cur.stop - 1)).toNat ≤ cur.data.length := by omega
    have hag : agree (cur.data.drop (cur.data.length - (-(rt.start - cur.stop - 1)).toNat))
        (rt.toM.data.take (-(rt.start - cur.stop - 1)).toNat) = true := by
      apply agree_of
      intro i a b ha hb
      rw [List.getElem?_drop] at ha
      have hi : i < (-(rt.start - cur.stop - 1)).toNat := by
        by_contra hi
        rw [List.getElem?_eq_none (by rw [List.length_take]; omega)] at hb
        simp at hb
      rw [List.getElem?_take_of_lt hi] at hb
      refine hcons (rt.start + i) a b ?_ (at_index hb)
      have := at_index ha
      rw [← this]
      congr 1
      push_cast
      omega
    rw [if_pos hag]
    have e : (cur.data.take (cur.data.length - (-(rt.start - cur.stop - 1)).toNat)).length =
        cur.data.length - (-(rt.start - cur.stop - 1)).toNat := by
      rw [List.length_take]; omega
    have e' : cur.start + ((cur.data.length - (-(rt.start - cur.stop - 1)).toNat : Nat) : Int) = rt.start := by omega
    refine ⟨rfl, ?_, ?_, ?_⟩
    · simp [Trace.toM, hr]
    · show cur.start + ((cur.data.take _ ++ rt.toM.data).length : Int) - 1 = _
      rw [List.length_append, e, hml]
      push_cast
      omega
    · intro t
      rw [at_append, e, e', at_take, e']
      by_cases ht : t < rt.start
      · rw [if_pos ht, if_pos ht, hrange t (Or.inl ht)]
        rfl
      · rw [if_neg ht]
        show rt.toM.at t = _
        cases hx : rt.toM.at t with
        | some x => rfl
        | none =>
          cases hy : cur.at t with
          | none => rfl
          | some y =>
            have h1 := at_some_range hy
            obtain ⟨z, hz⟩ := toM_full (t := t) hr (by omega) (by omega)
            rw [hz] at hx
            simp at hx
  · rw [if_neg c1]
    by_cases c2 : rt.start - cur.stop - 1 < 0
    · rw [if_pos c2]
      have c3 : rt.stop ≤ cur.stop := by
        by_contra h
        exact c1 ⟨c2, by omega⟩
      have hd' : (-(rt.start - cur.stop - 1)).toNat ≤ cur.data.length := by omega
      have hag : agree ((cur.data.drop (cur.data.length - (-(rt.start - cur.stop - 1)).toNat)).take rt.toM.data.length) rt.toM.data = true := by
        apply agree_of
        intro i a b ha hb
        have hi : i < rt.toM.data.length := by
          by_contra hi
          rw [List.getElem?_eq_none (by omega)] at hb
          simp at hb
        rw [List.getElem?_take_of_lt hi, List.getElem?_drop] at ha
        refine hcons (rt.start + i) a b ?_ (at_index hb)
        have := at_index ha
        rw [← this]
        congr 1
        push_cast
        omega
      rw [if_pos hag]
      refine ⟨rfl, hne, by rw [max_eq_left c3], ?_⟩
      intro t
      cases hx : rt.toM.at t with
      | none => rfl
      | some x =>
        have h1 := at_some_range hx
        rw [hst, hstop] at h1
        obtain ⟨y, hy⟩ := hfull t h1.1 (by omega)
        rw [hy, hcons t y x hy hx]
        rfl
    · rw [if_neg c2]
      refine ⟨rfl, ?_, ?_, ?_⟩
      · simp [Trace.toM, hr]
      · unfold MTrace.stop fillChunk
        simp only [List.length_append, List.length_replicate, hml]
        push_cast
        omega
      · intro t
        have hfill : ∀ n l r, fillChunk false n l r = List.replicate n none := by
          intro n l r
          unfold fillChunk
          cases l <;> cases r <;> rfl
        rw [hfill, List.append_assoc, at_append, at_append, at_replicate, List.length_replicate]
        have e1 : cur.start + (cur.data.length : Int) = cur.stop + 1 := by omega
        have e2 : cur.start + (cur.data.length : Int) + ((rt.start - cur.stop - 1).toNat : Int) = rt.start := by omega
        rw [e2, e1]
        by_cases h1 : t < cur.stop + 1
        · rw [if_pos h1, hrange t (Or.inl (by omega))]
          rfl
        · rw [if_neg h1]
          have hcur : cur.at t = none := at_none_of (Or.inr (by omega))
          rw [hcur]
          by_cases h2 : t < rt.start
          · rw [if_pos h2, hrange t (Or.inl h2)]; rfl
          · rw [if_neg h2]
            show rt.toM.at t = _
            cases rt.toM.at t <;> rfl

theorem fold_union (l : List Trace) : ∀ (cur : MTrace) (s : List (Int × Int)) (low : Int), cur.data ≠ [] →
    (∀ t x, cur.at t = some x ↔ (t, x) ∈ s) → (∀ tr ∈ l, tr.data ≠ []) →
    (∀ tr ∈ l, cur.start ≤ tr.start ∧ low ≤ tr.start) → l.Pairwise (fun a b => a.start ≤ b.start) →
    (∀ t, low ≤ t → t ≤ cur.stop → ∃ x, cur.at t = some x) → Consistent (s ++ samples l) →
    ((l.map Trace.toM).foldl (addTraces false) cur).start = cur.start ∧ ((l.map Trace.toM).foldl (addTraces false) cur).data ≠ [] ∧
    (∀ t x, ((l.map Trace.toM).foldl (addTraces false) cur).at t = some x ↔ (t, x) ∈ s ++ samples l) ∧
    ((l.map Trace.toM).foldl (addTraces false) cur).stop = l.foldl (fun m tr => max m tr.stop) cur.stop := by
  induction l with
  | nil =>
    intro cur s low h1 h2 _ _ _ _ _
    refine ⟨rfl, h1, ?_, rfl⟩
    intro t x
    rw [samples_nil, List.append_nil]
    exact h2 t x
  | cons rt l ih =>
    intro cur s low h1 h2 h3 h4 h5 h6 h7
    have hr := h3 rt (by simp)
    obtain ⟨g1, g2⟩ := h4 rt (by simp)
    have hcons : ∀ t x y, cur.at t = some x → rt.toM.at t = some y → x = y := by
      intro t x y hx hy
      rw [h2] at hx
      rw [toM_at] at hy
      refine h7 t x y (by simp [hx]) ?_
      rw [samples_cons]
      simp [hy]
    obtain ⟨a1, a2, a3, a4⟩ := add_union h1 hr g1 (fun t ht1 ht2 => h6 t (by omega) ht2) hcons
    have h5' := List.pairwise_cons.mp h5
    rw [List.map_cons, List.foldl_cons]
    have hfull : ∀ t, rt.start ≤ t → t ≤ (addTraces false cur rt.toM).stop → ∃ x, (addTraces false cur rt.toM).at t = some x := by
      intro t ht1 ht2
      rw [a4]
      rw [a3] at ht2
      by_cases h : t ≤ rt.stop
      · obtain ⟨x, hx⟩ := toM_full hr ht1 h
        exact ⟨x, by rw [hx]; rfl⟩
      · obtain ⟨x, hx⟩ := h6 t (by omega) (by omega)
        rw [hx]
        cases rt.toM.at t with
        | none => exact ⟨x, rfl⟩
        | some y => exact ⟨y, rfl⟩
    have hat : ∀ t x, (addTraces false cur rt.toM).at t = some x ↔ (t, x) ∈ s ++ stamps rt.start rt.data := by
      intro t x
      rw [a4, List.mem_append, ← h2, ← toM_at]
      cases hy : rt.toM.at t with
      | none => simp
      | some y =>
        simp only [Option.some_or, Option.some.injEq]
        constructor
        · intro h; exact Or.inr h
        · rintro (h | h)
          · exact (hcons t x y h hy).symm
          · exact h
    obtain ⟨b1, b2, b3, b4⟩ := ih (addTraces false cur rt.toM) (s ++ stamps rt.start rt.data) rt.start a2 hat
      (fun tr htr => h3 tr (by simp [htr]))
      (fun tr htr => ⟨by rw [a1]; exact (h4 tr (by simp [htr])).1, h5'.1 tr htr⟩) h5'.2 hfull
      (by rw [List.append_assoc, ← samples_cons]; exact h7)
    refine ⟨b1.trans a1, b2, ?_, ?_⟩
    · intro t x
      rw [b3, List.append_assoc, ← samples_cons]
    · rw [b4, a3]
      rfl

/-! ## Sorting -/

theorem insertTrace_perm (a : MTrace) (l : List MTrace) : (insertTrace a l).Perm (a :: l) := by
  induction l with
  | nil => exact List.Perm.refl _
  | cons b l ih =>
    unfold insertTrace
    split_ifs
    · exact List.Perm.refl _
    · exact (ih.cons b).trans (List.Perm.swap a b l)

theorem sortTraces_perm (l : List MTrace) : (sortTraces l).Perm l := by
  induction l with
  | nil => exact List.Perm.refl _
  | cons a l ih => exact (insertTrace_perm a _).trans (ih.cons a)

theorem insertTrace_sorted (a : MTrace) : ∀ l : List MTrace, l.Pairwise (fun x y => x.start ≤ y.start) →
    (insertTrace a l).Pairwise (fun x y => x.start ≤ y.start)
  | [], _ => List.pairwise_singleton _ _
  | b :: l, h => by
    have h' := List.pairwise_cons.mp h
    unfold insertTrace
    by_cases hc : sortsBefore a b = true
    · rw [if_pos hc]
      have hab : a.start ≤ b.start := by
        unfold sortsBefore at hc
        simp at hc
        omega
      refine List.pairwise_cons.mpr ⟨?_, h⟩
      intro x hx
      rcases List.mem_cons.mp hx with h1 | h1
      · rw [h1]; exact hab
      · exact le_trans hab (h'.1 x h1)
    · rw [if_neg hc]
      have hab : b.start ≤ a.start := by
        unfold sortsBefore at hc
        simp at hc
        omega
      refine List.pairwise_cons.mpr ⟨?_, insertTrace_sorted a l h'.2⟩
      intro x hx
      rcases List.mem_cons.mp ((insertTrace_perm a l).mem_iff.mp hx) with h1 | h1
      · rw [h1]; exact hab
      · exact h'.1 x h1

theorem sortTraces_starts (l : List MTrace) : (sortTraces l).Pairwise fun x y => x.start ≤ y.start := by
  induction l with
  | nil => exact List.Pairwise.nil
  | cons a l ih => exact insertTrace_sorted a _ ih

theorem sortTraces_toM (l : List Trace) : ∃ l' : List Trace, l'.Perm l ∧ sortTraces (l.map Trace.toM) = l'.map Trace.toM ∧
    l'.Pairwise fun x y => x.start ≤ y.start := by
  have h1 : ∀ m ∈ sortTraces (l.map Trace.toM), ∃ tr, Trace.toM tr = m := by
    intro m hm
    obtain ⟨tr, _, h⟩ := List.mem_map.mp ((sortTraces_perm _).mem_iff.mp hm)
    exact ⟨tr, h⟩
  have hinj : Function.Injective Trace.toM := by
    intro a b h
    unfold Trace.toM at h
    simp only [MTrace.mk.injEq] at h
    have := List.map_injective_iff.mpr (Option.some_injective Int) h.2
    cases a; cases b
    simp_all
  have h2 : ∀ s : List MTrace, (∀ m ∈ s, ∃ tr, Trace.toM tr = m) → ∃ l' : List Trace, s = l'.map Trace.toM := by
    intro s
    induction s with
    | nil => intro _; exact ⟨[], rfl⟩
    | cons m s ih =>
      intro h
      obtain ⟨tr, htr⟩ := h m (by simp)
      obtain ⟨l', hl'⟩ := ih fun x hx => h x (by simp [hx])
      exact ⟨tr :: l', by rw [List.map_cons, htr, hl']⟩
  obtain ⟨l', hl'⟩ := h2 _ h1
  refine ⟨l', ?_, hl', ?_⟩
  · have := sortTraces_perm (l.map Trace.toM)
    rw [hl'] at this
    exact (List.map_perm_map_iff hinj).mp this
  · have := sortTraces_starts (l.map Trace.toM)
    rw [hl', List.pairwise_map] at this
    exact this

theorem samples_perm {a b : List Trace} (h : a.Perm b) (q : Int × Int) : q ∈ samples a ↔ q ∈ samples b := by
  unfold samples
  rw [List.mem_flatMap, List.mem_flatMap]
  constructor
  · rintro ⟨x, h1, h2⟩; exact ⟨x, h.mem_iff.mp h1, h2⟩
  · rintro ⟨x, h1, h2⟩; exact ⟨x, h.mem_iff.mpr h1, h2⟩

theorem foldl_max_stop (l : List Trace) : ∀ m : Int, m ≤ l.foldl (fun m tr => max m tr.stop) m ∧
    (∀ tr ∈ l, tr.stop ≤ l.foldl (fun m tr => max m tr.stop) m) ∧
    (l.foldl (fun m tr => max m tr.stop) m = m ∨ ∃ tr ∈ l, l.foldl (fun m tr => max m tr.stop) m = tr.stop) := by
  induction l with
  | nil => intro m; simp
  | cons a l ih =>
    intro m
    obtain ⟨h1, h2, h3⟩ := ih (max m a.stop)
    rw [List.foldl_cons]
    refine ⟨le_trans (le_max_left _ _) h1, ?_, ?_⟩
    · intro tr htr
      rcases List.mem_cons.mp htr with h | h
      · rw [h]; exact le_trans (le_max_right _ _) h1
      · exact h2 tr h
    · rcases h3 with h3 | ⟨tr, h3, h4⟩
      · rcases max_choice m a.stop with h | h
        · left; rw [h3, h]
        · right; exact ⟨a, by simp, by rw [h3, h]⟩
      · right; exact ⟨tr, by simp [h3], h4⟩

/-- Merging traces that agree: the union of their samples, from the first to the last. -/
theorem merge_union {l : List Trace} (hl : l ≠ []) (hne : ∀ tr ∈ l, tr.data ≠ []) (hc : Consistent (samples l)) :
    ∃ m, mergeTraces false (l.map Trace.toM) = some m ∧ m.data ≠ [] ∧ (∀ t x, m.at t = some x ↔ (t, x) ∈ samples l) ∧
      (∃ x, m.at m.start = some x) ∧ ∃ x, m.at m.stop = some x := by
  obtain ⟨l', h1, h2, h3⟩ := sortTraces_toM l
  cases l' with
  | nil => exact absurd h1.symm.eq_nil hl
  | cons a l' =>
    have h3' := List.pairwise_cons.mp h3
    have ha : a.data ≠ [] := hne a (h1.mem_iff.mp (by simp))
    have had : a.toM.data ≠ [] := by simp [Trace.toM, ha]
    have hs : a.toM.start = a.start := rfl
    obtain ⟨b1, b2, b3, b4⟩ := fold_union l' a.toM (stamps a.start a.data) a.start had
      (fun t x => toM_at a t x) (fun tr htr => hne tr (h1.mem_iff.mp (by simp [htr])))
      (fun tr htr => ⟨h3'.1 tr htr, h3'.1 tr htr⟩) h3'.2
      (fun t ht1 ht2 => toM_full ha ht1 (by rw [toM_stop ha] at ht2; exact ht2))
      (by
        rw [← samples_cons]
        intro t x y hx hy
        exact hc t x y ((samples_perm h1 _).mp hx) ((samples_perm h1 _).mp hy))
    refine ⟨_, by unfold mergeTraces; rw [h2, List.map_cons], b2, ?_, ?_, ?_⟩
    · intro t x
      rw [b3, ← samples_cons]
      exact samples_perm h1 _
    · obtain ⟨x, hx⟩ := mem_samples_start (p := a :: l') List.mem_cons_self ha
      refine ⟨x, ?_⟩
      rw [b1, b3, ← samples_cons]
      exact hx
    · have hex : ∃ tr ∈ a :: l', l'.foldl (fun m tr => max m tr.stop) a.toM.stop = tr.stop := by
        rcases (foldl_max_stop l' a.toM.stop).2.2 with h | ⟨tr, h, h'⟩
        · exact ⟨a, by simp, by rw [h, toM_stop ha]⟩
        · exact ⟨tr, by simp [h], h'⟩
      obtain ⟨tr, htr, he⟩ := hex
      obtain ⟨x, hx⟩ := stop_mem htr (hne tr (h1.mem_iff.mp htr))
      refine ⟨x, ?_⟩
      rw [b4, he, b3, ← samples_cons]
      exact hx

/-! ## Splitting -/

/-- The samples of a masked record. -/
def mstamps (k : Int) : List (Option Int) → List (Int × Int)
  | [] => []
  | some x :: l => (k, x) :: mstamps (k + 1) l
  | none :: l => mstamps (k + 1) l

theorem mem_mstamps (l : List (Option Int)) : ∀ (k t x : Int), (t, x) ∈ mstamps k l ↔ (⟨k, l⟩ : MTrace).at t = some x := by
  induction l with
  | nil => intro k t x; simp [mstamps, MTrace.at]
  | cons v l ih =>
    intro k t x
    have hat : (⟨k, v :: l⟩ : MTrace).at t = if t = k then v else (⟨k + 1, l⟩ : MTrace).at t := by
      unfold MTrace.at
      simp only
      by_cases h1 : t = k
      · rw [if_neg (by omega), if_pos h1, show (t - k).toNat = 0 by omega]
        rfl
      · rw [if_neg h1]
        by_cases h2 : t < k
        · rw [if_pos h2, if_pos (by omega)]
        · rw [if_neg h2, if_neg (by omega), show (t - k).toNat = (t - (k + 1)).toNat + 1 by omega, List.getElem?_cons_succ]
    have hlow : ∀ y, (k, y) ∉ mstamps (k + 1) l := by
      intro y hy
      rw [ih] at hy
      have := at_some_range hy
      simp only at this
      omega
    rw [hat]
    cases v with
    | none =>
      rw [mstamps, ih]
      by_cases h : t = k
      · rw [if_pos h, h]
        have := hlow x
        rw [ih] at this
        simp [this]
      · rw [if_neg h]
    | some y =>
      rw [mstamps, List.mem_cons, ih, Prod.mk.injEq]
      by_cases h : t = k
      · rw [if_pos h, h]
        have := hlow x
        rw [ih] at this
        simp [this, eq_comm]
      · rw [if_neg h]
        simp [h]

theorem samples_splitData (l : List (Option Int)) : ∀ (k : Int) (cur : List Int),
    samples (splitData k cur l) = stamps (k - cur.length) cur.reverse ++ mstamps k l := by
  induction l with
  | nil =>
    intro k cur
    unfold splitData
    split_ifs with h
    · rw [h]; rfl
    · rw [samples_cons, samples_nil]
      simp [mstamps]
  | cons v l ih =>
    intro k cur
    cases v with
    | some x =>
      rw [splitData, ih, mstamps, List.length_cons, List.reverse_cons, stamps_append]
      simp only [List.length_reverse, stamps, List.append_assoc, List.singleton_append]
      push_cast
      rw [show k + 1 - ((cur.length : Int) + 1) = k - cur.length by ring, show k - (cur.length : Int) + cur.length = k by ring]
    | none =>
      rw [splitData]
      split_ifs with h
      · rw [ih, h, mstamps]
        simp [stamps]
      · rw [samples_cons, ih, mstamps]
        simp [stamps]

theorem splitData_chain (l : List (Option Int)) : ∀ (k : Int) (cur : List Int),
    (splitData k cur l).IsChain (fun a b => a.stop + 1 < b.start) ∧ ∀ tr ∈ (splitData k cur l).head?, k - cur.length ≤ tr.start := by
  induction l with
  | nil =>
    intro k cur
    unfold splitData
    split_ifs <;> simp
  | cons v l ih =>
    intro k cur
    cases v with
    | some x =>
      rw [splitData]
      obtain ⟨h1, h2⟩ := ih (k + 1) (x :: cur)
      refine ⟨h1, fun tr htr => ?_⟩
      have := h2 tr htr
      simp only [List.length_cons] at this
      push_cast at this
      omega
    | none =>
      rw [splitData]
      obtain ⟨h1, h2⟩ := ih (k + 1) []
      split_ifs with h
      · refine ⟨h1, fun tr htr => ?_⟩
        have := h2 tr htr
        simp [h] at this ⊢
        omega
      · refine ⟨?_, by simp⟩
        cases hs : splitData (k + 1) [] l with
        | nil => exact List.isChain_singleton _
        | cons b r =>
          rw [hs] at h1 h2
          refine List.isChain_cons_cons.mpr ⟨?_, h1⟩
          have := h2 b rfl
          rw [stop_of_ne (by simpa using h)]
          simp at this ⊢
          omega

theorem split_apart (m : MTrace) : Separate m.split := by
  unfold MTrace.split
  refine ⟨fun tr htr => ?_, (splitData_chain m.data m.start []).1⟩
  exact (splitData_above (m.start) m.start [] m.data (by simp) tr htr).1

theorem mem_split (m : MTrace) (t x : Int) : (t, x) ∈ samples m.split ↔ m.at t = some x := by
  unfold MTrace.split
  rw [samples_splitData]
  simp only [List.reverse_nil, stamps, List.nil_append]
  exact mem_mstamps m.data m.start t x

/-- The traces in order of time; `Separate` lists are determined by their samples. -/
theorem apart_pairwise : ∀ {p : List Trace}, Separate p → p.Pairwise fun a b => a.stop + 1 < b.start
  | [], _ => List.Pairwise.nil
  | [a], _ => List.pairwise_singleton _ _
  | a :: b :: p, h => by
    have h1 : Separate (b :: p) := ⟨fun tr htr => h.1 tr (by simp [htr]), (List.isChain_cons_cons.mp h.2).2⟩
    have h2 := apart_pairwise h1
    have h3 := (List.isChain_cons_cons.mp h.2).1
    refine List.pairwise_cons.mpr ⟨?_, h2⟩
    intro c hc
    rcases List.mem_cons.mp hc with h4 | h4
    · rw [h4]; exact h3
    · have h5 := (List.pairwise_cons.mp h2).1 c h4
      have h6 := stop_of_ne (h.1 b (by simp))
      have h7 : 0 < b.data.length := List.length_pos_iff.mpr (h.1 b (by simp))
      omega

theorem apart_increasing {p : List Trace} (h : Separate p) : Increasing (samples p) := by
  induction p with
  | nil => exact List.Pairwise.nil
  | cons a p ih =>
    have hp := List.pairwise_cons.mp (apart_pairwise h)
    have hA : Separate p := ⟨fun tr htr => h.1 tr (by simp [htr]), h.2.tail⟩
    rw [samples_cons]
    refine increasing_append.mpr ⟨stamps_increasing _ _, ih hA, ?_⟩
    intro x hx y hy
    obtain ⟨b, hb, hby⟩ := List.mem_flatMap.mp (show y ∈ p.flatMap fun tr => stamps tr.start tr.data from hy)
    have h1 := sample_le_stop hx
    have h2 := hp.1 b hb
    have h3 := (mem_stamps_range hby).1
    show x.1 < y.1
    omega

theorem increasing_ext {s s' : List (Int × Int)} (h : Increasing s) (h' : Increasing s') (he : ∀ q, q ∈ s ↔ q ∈ s') : s = s' := by
  have nd : ∀ {s : List (Int × Int)}, Increasing s → s.Nodup := by
    intro s h
    refine List.Pairwise.imp ?_ h
    intro a b hab heq
    rw [heq] at hab
    exact lt_irrefl _ hab
  refine List.Perm.eq_of_pairwise ?_ h h' ((List.perm_ext_iff_of_nodup (nd h) (nd h')).mpr he)
  intro a b _ _ h1 h2
  exact absurd h1 (not_lt.mpr (le_of_lt h2))

/-- Separated traces are determined by their samples. -/
theorem apart_unique : ∀ {p p' : List Trace}, Separate p → Separate p' → (∀ q, q ∈ samples p ↔ q ∈ samples p') → p = p' := by
  have key : ∀ {p p' : List Trace}, Separate p → Separate p' → samples p = samples p' → p = p' := by
    intro p
    induction p with
    | nil =>
      intro p' _ h' hs
      rw [samples_nil] at hs
      exact ((samples_eq_nil h'.1).mp hs.symm).symm
    | cons a p ih =>
      intro p' h h' hs
      cases p' with
      | nil =>
        rw [samples_nil] at hs
        exact (samples_eq_nil h.1).mp hs
      | cons b p' =>
        have ha := h.1 a (by simp)
        have hb := h'.1 b (by simp)
        have hA : Separate p := ⟨fun tr htr => h.1 tr (by simp [htr]), h.2.tail⟩
        have hB : Separate p' := ⟨fun tr htr => h'.1 tr (by simp [htr]), h'.2.tail⟩
        have hstart : a.start = b.start := by
          obtain ⟨x, r, e1⟩ := head_samples (p := p) ha
          obtain ⟨y, r', e2⟩ := head_samples (p := p') hb
          rw [e1, e2] at hs
          simp only [List.cons.injEq, Prod.mk.injEq] at hs
          exact hs.1.1
        have hle : ∀ {a b : Trace} {p p' : List Trace}, Separate (a :: p) → b.data ≠ [] → a.data ≠ [] → a.start = b.start →
            samples (a :: p) = samples (b :: p') → b.data.length ≤ a.data.length := by
          intro a b p p' h hb ha hst hs
          by_contra hlt
          have e1 := stop_of_ne ha
          have e2 := stop_of_ne hb
          obtain ⟨x, hx⟩ := toM_full (tr := b) (t := a.stop + 1) hb (by omega) (by omega)
          rw [toM_at] at hx
          have hm : (a.stop + 1, x) ∈ samples (a :: p) := by
            rw [hs, samples_cons]
            exact List.mem_append_left _ hx
          rw [samples_cons, List.mem_append] at hm
          rcases hm with hm | hm
          · have := sample_le_stop hm
            simp only at this
            omega
          · obtain ⟨c, hc, hcm⟩ := List.mem_flatMap.mp (show _ ∈ p.flatMap fun tr => stamps tr.start tr.data from hm)
            have h1 := (List.pairwise_cons.mp (apart_pairwise h)).1 c hc
            have h2 := (mem_stamps_range hcm).1
            simp only at h2
            omega
        have hlen : a.data.length = b.data.length :=
          le_antisymm (hle h' ha hb hstart.symm hs.symm) (hle h hb ha hstart hs)
        rw [samples_cons, samples_cons, hstart] at hs
        obtain ⟨h1, h2⟩ := List.append_inj hs (by rw [length_stamps, length_stamps, hlen])
        have hinj : ∀ (l l' : List Int) (k : Int), stamps k l = stamps k l' → l = l' := by
          intro l
          induction l with
          | nil =>
            intro l' k hk
            cases l' with
            | nil => rfl
            | cons y l' => simp [stamps] at hk
          | cons x l ihl =>
            intro l' k hk
            cases l' with
            | nil => simp [stamps] at hk
            | cons y l' =>
              rw [stamps, stamps] at hk
              simp only [List.cons.injEq, Prod.mk.injEq, true_and] at hk
              rw [hk.1, ihl l' (k + 1) hk.2]
        have hab : a = b := by
          have := hinj _ _ _ h1
          cases a; cases b
          simp_all
        rw [hab, ih hA hB h2]
  intro p p' h h' he
  exact key h h' (increasing_ext (apart_increasing h) (apart_increasing h') he)

theorem mstamps_increasing (l : List (Option Int)) : ∀ k : Int, Increasing (mstamps k l) := by
  induction l with
  | nil => intro k; exact List.Pairwise.nil
  | cons v l ih =>
    intro k
    cases v with
    | none => exact ih (k + 1)
    | some x =>
      refine List.pairwise_cons.mpr ⟨?_, ih (k + 1)⟩
      intro q hq
      have := at_some_range ((mem_mstamps l (k + 1) q.1 q.2).mp hq)
      simp only at this ⊢
      omega

end Gemlog
