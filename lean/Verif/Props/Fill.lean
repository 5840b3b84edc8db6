import Verif.Props.Gaps

/-!
# C88: filling of short gaps
-/

namespace Gemlog

theorem goodPoints_eq (d : Int) (l : List (Option Int)) : ∀ k : Int, goodPoints (k - d) l = (mstamps k l).map fun p => (p.1 - d, p.2) := by
  induction l with
  | nil => intro k; rfl
  | cons v l ih =>
    intro k
    have := ih (k + 1)
    rw [show k + 1 - d = k - d + 1 by ring] at this
    cases v with
    | none => exact this
    | some x => rw [goodPoints, mstamps, this]; rfl

/-- Slicing and merging: exactly the samples in the window, from the first to the last. -/
theorem cut_merge {st : List Trace} {lo hi : Int} (hc : Consistent (samples st)) {t x : Int} (hq : (t, x) ∈ samples st) (h1 : lo ≤ t)
    (h2 : t ≤ hi) :
    ∃ m, mergeTraces false (((st.map (Trace.trim lo hi)).filter fun tr => tr.data.length != 0).map Trace.toM) = some m ∧
      (∀ t x, m.at t = some x ↔ (t, x) ∈ samples st ∧ lo ≤ t ∧ t ≤ hi) ∧ (∃ x, m.at m.start = some x) ∧ ∃ x, m.at m.stop = some x := by
  have hs : ∀ t x, (t, x) ∈ samples ((st.map (Trace.trim lo hi)).filter fun tr => tr.data.length != 0) ↔
      (t, x) ∈ samples st ∧ lo ≤ t ∧ t ≤ hi := by
    intro t x
    rw [samples_filter_nonempty, samples_map_filter _ _ (trim_stamps lo hi), List.mem_filter]
    simp
  obtain ⟨m, e1, _, e3, e4, e5⟩ := merge_union (l := (st.map (Trace.trim lo hi)).filter fun tr => tr.data.length != 0)
    (by
      intro he
      have := (hs t x).mpr ⟨hq, h1, h2⟩
      rw [he] at this
      simp [samples_nil] at this)
    (by
      intro tr htr
      have := (List.mem_filter.mp htr).2
      simpa using this)
    (by
      intro t x y hx hy
      exact hc t x y ((hs t x).mp hx).1 ((hs t y).mp hy).1)
  exact ⟨m, e1, fun t x => (e3 t x).trans (hs t x), e4, e5⟩

theorem at_none_iff_data {m : MTrace} : m.data.all Option.isSome = true ↔ ∀ t, m.start ≤ t → t ≤ m.stop → m.at t ≠ none := by
  rw [List.all_eq_true]
  constructor
  · intro h t h1 h2 h3
    unfold MTrace.at at h3
    rw [if_neg (by omega)] at h3
    unfold MTrace.stop at h2
    have hlt : (t - m.start).toNat < m.data.length := by omega
    rw [List.getElem?_eq_getElem hlt] at h3
    have := h _ (List.getElem_mem hlt)
    rw [show m.data[(t - m.start).toNat] = none from h3] at this
    simp at this
  · intro h v hv
    obtain ⟨i, hi, rfl⟩ := List.mem_iff_getElem.mp hv
    have := h (m.start + i) (by omega) (by unfold MTrace.stop; omega)
    unfold MTrace.at at this
    rw [if_neg (by omega), show (m.start + (i : Int) - m.start).toNat = i by omega, List.getElem?_eq_getElem hi] at this
    cases hd : m.data[i] with
    | none => rw [hd] at this; simp at this
    | some x => rfl

/-- The samples of a filled trace. -/
theorem fillMasked_samples (spline : List (Int × Int) → Int → Rat) (m : MTrace) (t x : Int) :
    (t, x) ∈ stamps (fillMasked spline m).start (fillMasked spline m).data ↔
      m.at t = some x ∨ (m.start ≤ t ∧ t ≤ m.stop ∧ m.at t = none ∧ x = pyTrunc (spline (goodPoints 0 m.data) (t - m.start))) := by
  rw [mem_stamps_iff]
  unfold fillMasked
  dsimp only
  rw [List.getElem?_map]
  unfold MTrace.at MTrace.stop
  by_cases h1 : t < m.start
  · rw [if_pos h1]
    constructor
    · intro h; omega
    · intro h
      rcases h with h | h
      · simp at h
      · omega
  · rw [if_neg h1]
    by_cases h2 : (t - m.start).toNat < m.data.length
    · rw [List.getElem?_range h2, List.getElem?_eq_getElem h2]
      have e : (((t - m.start).toNat : Nat) : Int) = t - m.start := by omega
      simp only [Option.map_some, Option.some.injEq, Option.join_some]
      rw [List.getElem?_eq_getElem h2]
      cases hd : m.data[(t - m.start).toNat] with
      | none =>
        simp only [Option.join_some, Option.getD_none, reduceCtorEq, false_or, true_and]
        rw [e]
        constructor
        · intro h; exact ⟨by omega, by omega, h.2.symm⟩
        · intro h; exact ⟨by omega, h.2.2.symm⟩
      | some y =>
        simp only [Option.join_some, Option.getD_some, Option.some.injEq, reduceCtorEq, false_and, and_false, or_false]
        constructor
        · intro h; exact h.2
        · intro h; exact ⟨by omega, h⟩
    · rw [List.getElem?_eq_none (by simpa using h2), List.getElem?_eq_none (by omega)]
      simp only [Option.map_none, Option.join_none, reduceCtorEq, and_false, false_or, true_and, false_iff]
      intro h
      omega

/-- The samples in a window are ordered. -/
theorem around_spec {segs : List Trace} (hA : Separate segs) {g : Int} {a b : Trace} {m : MTrace}
    (hm : ∀ t x, m.at t = some x ↔ (t, x) ∈ samples segs ∧ a.stop - g ≤ t ∧ t ≤ b.start + g) :
    mstamps m.start m.data = around (samples segs) g a b := by
  refine increasing_ext (mstamps_increasing _ _) ((apart_increasing hA).filter _) ?_
  intro q
  rw [show (q ∈ mstamps m.start m.data) ↔ m.at q.1 = some q.2 from mem_mstamps _ _ _ _, hm]
  unfold around
  rw [List.mem_filter, decide_eq_true_eq]

theorem apart_get_lt {segs : List Trace} (hA : Separate segs) {i j : Nat} {a b : Trace} (hi : segs[i]? = some a) (hj : segs[j]? = some b)
    (hij : i < j) : a.stop + 1 < b.start := by
  obtain ⟨h1, rfl⟩ := List.getElem?_eq_some_iff.mp hi
  obtain ⟨h2, rfl⟩ := List.getElem?_eq_some_iff.mp hj
  exact List.pairwise_iff_getElem.mp (apart_pairwise hA) i j h1 h2 hij

theorem apart_get_le {segs : List Trace} (hA : Separate segs) {i j : Nat} {a b : Trace} (hi : segs[i]? = some a) (hj : segs[j]? = some b)
    (hij : i ≤ j) : a.start ≤ b.start := by
  rcases Nat.lt_or_eq_of_le hij with h | h
  · have := apart_get_lt hA hi hj h
    have := stop_of_ne (hA.1 a (List.mem_of_getElem? hi))
    have : 0 < a.data.length := List.length_pos_iff.mpr (hA.1 a (List.mem_of_getElem? hi))
    omega
  · subst h
    rw [hi] at hj
    rw [Option.some.inj hj]

/-- No recorded sample lies between neighbours. -/
theorem apart_between {segs : List Trace} (hA : Separate segs) {i : Nat} {a b : Trace} (hi : segs[i]? = some a) (hj : segs[i + 1]? = some b)
    {q : Int × Int} (hq : q ∈ samples segs) : q.1 ≤ a.stop ∨ b.start ≤ q.1 := by
  obtain ⟨c, hc, hcq⟩ := List.mem_flatMap.mp (show q ∈ segs.flatMap fun tr => stamps tr.start tr.data from hq)
  obtain ⟨k, hk⟩ := List.mem_iff_getElem?.mp hc
  have h1 := (mem_stamps_range hcq).1
  have h2 := sample_le_stop hcq
  rcases Nat.lt_trichotomy k i with h | h | h
  · have := apart_get_lt hA hk hi h
    have := stop_of_ne (hA.1 a (List.mem_of_getElem? hi))
    left; omega
  · subst h
    rw [hi] at hk
    rw [← Option.some.inj hk] at h2
    exact Or.inl h2
  · have := apart_get_le hA hj hk h
    right; omega

/-- A sample that the interpolation puts into gap number `i`. -/
def FillsGap (spline : List (Int × Int) → Int → Rat) (g : Int) (segs : List Trace) (i : Nat) (q : Int × Int) : Prop :=
  ∃ a b, segs[i]? = some a ∧ segs[i + 1]? = some b ∧ b.start - a.stop < g ∧ FilledAt spline g (samples segs) a b q

theorem fillsGap_unique {spline : List (Int × Int) → Int → Rat} {g : Int} {segs : List Trace} (hA : Separate segs) {i j : Nat} {t x y : Int}
    (h : FillsGap spline g segs i (t, x)) (h' : FillsGap spline g segs j (t, y)) : x = y := by
  obtain ⟨a, b, h1, h2, h3, h4, h5, t0, x0, h6, h7⟩ := h
  obtain ⟨a', b', k1, k2, k3, k4, k5, t0', x0', k6, k7⟩ := h'
  simp only at h4 h5 h7 k4 k5 k7
  have hij : i = j := by
    rcases Nat.lt_trichotomy i j with h | h | h
    · have := apart_get_le hA h2 k1 h
      have := stop_of_ne (hA.1 a' (List.mem_of_getElem? k1))
      have : 0 < a'.data.length := List.length_pos_iff.mpr (hA.1 a' (List.mem_of_getElem? k1))
      omega
    · exact h
    · have := apart_get_le hA k2 h1 h
      have := stop_of_ne (hA.1 a (List.mem_of_getElem? h1))
      have : 0 < a.data.length := List.length_pos_iff.mpr (hA.1 a (List.mem_of_getElem? h1))
      omega
  subst hij
  rw [h1] at k1
  rw [h2] at k2
  have e1 := Option.some.inj k1
  have e2 := Option.some.inj k2
  subst e1
  subst e2
  rw [h6] at k6
  have e3 := (Prod.mk.inj (Option.some.inj k6)).1
  subst e3
  rw [h7, k7]

theorem increasing_consistent {s : List (Int × Int)} (h : Increasing s) : Consistent s := by
  induction s with
  | nil => intro t x y hx; simp at hx
  | cons a s ih =>
    have h' := List.pairwise_cons.mp h
    intro t x y hx hy
    rcases List.mem_cons.mp hx with hx | hx <;> rcases List.mem_cons.mp hy with hy | hy
    · exact (Prod.mk.inj (hx.trans hy.symm)).2
    · have := h'.1 _ hy
      rw [← hx] at this
      exact absurd this (lt_irrefl _)
    · have := h'.1 _ hx
      rw [← hy] at this
      exact absurd this (lt_irrefl _)
    · exact ih h'.2 t x y hx hy

theorem recorded_or_filled_consistent {spline : List (Int × Int) → Int → Rat} {g : Int} {segs : List Trace} (hA : Separate segs) {t x y : Int}
    (h : (t, x) ∈ samples segs ∨ ∃ i, FillsGap spline g segs i (t, x)) (h' : (t, y) ∈ samples segs ∨ ∃ i, FillsGap spline g segs i (t, y)) :
    x = y := by
  have hin := apart_increasing hA
  have hno : ∀ {x y : Int}, (t, x) ∈ samples segs → (∃ i, FillsGap spline g segs i (t, y)) → False := by
    rintro x y hx ⟨i, a, b, h1, h2, h3, h4, h5, _⟩
    rcases apart_between hA h1 h2 hx with h | h
    · simp only at h h4; omega
    · simp only at h h5; omega
  rcases h with h | h
  · rcases h' with h' | h'
    · exact increasing_consistent hin t x y h h'
    · exact absurd h' fun h'' => hno h h''
  · rcases h' with h' | h'
    · exact absurd h fun h'' => hno h' h''
    · obtain ⟨i, hi⟩ := h
      obtain ⟨j, hj⟩ := h'
      exact fillsGap_unique hA hi hj

/-- What the loop has added after `n` passes. -/
structure FillInv (spline : List (Int × Int) → Int → Rat) (g : Int) (segs F : List Trace) (n : Nat) : Prop where
  nonempty : ∀ tr ∈ F, tr.data ≠ []
  sound : ∀ q ∈ samples F, q ∈ samples segs ∨ ∃ i < n, FillsGap spline g segs i q
  complete : ∀ i < n, ∀ q, FillsGap spline g segs i q → q ∈ samples F

theorem interpStep_inv {spline : List (Int × Int) → Int → Rat} {g : Int} {segs F : List Trace} {n : Nat} (hA : Separate segs)
    (hlong : ∀ (i : Nat) (a b c : Trace), segs[i]? = some a → segs[i + 1]? = some b → segs[i + 2]? = some c →
      b.start - a.stop < g ∨ c.start - b.stop < g → g < b.data.length) (hn : n + 1 < segs.length)
    (h : FillInv spline g segs F n) :
    ∃ F', interpStep spline g segs (segs ++ F) n = .ok (segs ++ F') ∧ FillInv spline g segs F' (n + 1) := by
  have ha : segs[n]? = some segs[n] := List.getElem?_eq_getElem (by omega)
  have hb : segs[n + 1]? = some segs[n + 1] := List.getElem?_eq_getElem hn
  generalize segs[n] = a at ha
  generalize segs[n + 1] = b at hb
  have ham := List.mem_of_getElem? ha
  have hbm := List.mem_of_getElem? hb
  have hane := hA.1 a ham
  have hbne := hA.1 b hbm
  have hab := apart_get_lt hA ha hb (Nat.lt_succ_self n)
  have has := stop_of_ne hane
  have hbs := stop_of_ne hbne
  have hal : 0 < a.data.length := List.length_pos_iff.mpr hane
  have hbl : 0 < b.data.length := List.length_pos_iff.mpr hbne
  by_cases hgap : b.start - a.stop < g
  · have hla : 0 < n → g < a.data.length := by
      intro h0
      obtain ⟨k, rfl⟩ : ∃ k, n = k + 1 := ⟨n - 1, by omega⟩
      exact hlong k _ a b (List.getElem?_eq_getElem (by omega)) ha hb (Or.inr hgap)
    have hlb : n + 2 < segs.length → g < b.data.length := fun h0 =>
      hlong n a b _ ha hb (List.getElem?_eq_getElem h0) (Or.inl hgap)
    have hmem : ∀ q ∈ samples (segs ++ F), q ∈ samples segs ∨ ∃ i < n, FillsGap spline g segs i q := by
      intro q hq
      rw [samples_append, List.mem_append] at hq
      rcases hq with hq | hq
      · exact Or.inl hq
      · exact h.sound q hq
    have hc : Consistent (samples (segs ++ F)) := by
      intro t x y hx hy
      have w : ∀ {x}, (t, x) ∈ samples (segs ++ F) → (t, x) ∈ samples segs ∨ ∃ i, FillsGap spline g segs i (t, x) := by
        intro x hx
        rcases hmem _ hx with h | ⟨i, _, h⟩
        · exact Or.inl h
        · exact Or.inr ⟨i, h⟩
      exact recorded_or_filled_consistent hA (w hx) (w hy)
    obtain ⟨xa, hxa⟩ := stop_mem ham hane
    obtain ⟨xb, hxb⟩ := mem_samples_start hbm hbne
    have hxa' : (a.stop, xa) ∈ samples (segs ++ F) := by rw [samples_append]; exact List.mem_append_left _ hxa
    obtain ⟨m, m1, m2, ⟨ms, m3⟩, me, m4⟩ := cut_merge (lo := a.stop - g) (hi := b.start + g) hc hxa' (by omega) (by omega)
    -- in the window there are recorded samples only
    have hwin : ∀ t x, m.at t = some x ↔ (t, x) ∈ samples segs ∧ a.stop - g ≤ t ∧ t ≤ b.start + g := by
      intro t x
      rw [m2]
      constructor
      · rintro ⟨hq, h1, h2⟩
        refine ⟨?_, h1, h2⟩
        rcases hmem _ hq with hq | ⟨i, hi, a', b', k1, k2, _, k4, k5, _⟩
        · exact hq
        · exfalso
          simp only at k4 k5
          have := apart_get_le hA k2 ha hi
          have := hla (by omega)
          omega
      · rintro ⟨hq, h1, h2⟩
        exact ⟨by rw [samples_append]; exact List.mem_append_left _ hq, h1, h2⟩
    have hata : m.at a.stop = some xa := (hwin _ _).mpr ⟨hxa, by omega, by omega⟩
    have hatb : m.at b.start = some xb := (hwin _ _).mpr ⟨hxb, by omega, by omega⟩
    have ra := at_some_range hata
    have rb := at_some_range hatb
    have hnone : ∀ t, a.stop < t → t < b.start → m.at t = none := by
      intro t h1 h2
      cases hv : m.at t with
      | none => rfl
      | some x =>
        exfalso
        rcases apart_between hA ha hb ((hwin _ _).mp hv).1 with h | h <;> simp only at h <;> omega
    -- the gap between the two traces is the only one in the window
    have honly : ∀ t, m.start ≤ t → t ≤ m.stop → m.at t = none → a.stop < t ∧ t < b.start := by
      intro t h1 h2 h3
      have w1 := (hwin _ _).mp m3
      have w2 := (hwin _ _).mp m4
      constructor
      · by_contra hle
        have hst : a.start ≤ m.start := by
          by_cases h0 : n = 0
          · obtain ⟨c, hcm, hcq⟩ := List.mem_flatMap.mp (show _ ∈ segs.flatMap fun tr => stamps tr.start tr.data from w1.1)
            obtain ⟨k, hk⟩ := List.mem_iff_getElem?.mp hcm
            have := apart_get_le hA ha hk (by omega)
            have := (mem_stamps_range hcq).1
            simp only at this
            omega
          · have := hla (by omega)
            omega
        obtain ⟨x, hx⟩ := toM_full hane (t := t) (by omega) (by omega)
        have : m.at t = some x := (hwin _ _).mpr ⟨List.mem_flatMap.mpr ⟨a, ham, (toM_at _ _ _).mp hx⟩, by omega, by omega⟩
        rw [this] at h3
        simp at h3
      · by_contra hle
        have hst : m.stop ≤ b.stop := by
          by_cases h0 : n + 2 < segs.length
          · have := hlb h0
            omega
          · obtain ⟨c, hcm, hcq⟩ := List.mem_flatMap.mp (show _ ∈ segs.flatMap fun tr => stamps tr.start tr.data from w2.1)
            obtain ⟨k, hk⟩ := List.mem_iff_getElem?.mp hcm
            have hkl : k < segs.length := (List.getElem?_eq_some_iff.mp hk).1
            have hq := sample_le_stop hcq
            simp only at hq
            rcases Nat.lt_or_eq_of_le (show k ≤ n + 1 by omega) with hlt | heq
            · have := apart_get_lt hA hk hb hlt
              omega
            · subst heq
              rw [hb] at hk
              rw [← Option.some.inj hk] at hq
              exact hq
        obtain ⟨x, hx⟩ := toM_full hbne (t := t) (by omega) (by omega)
        have : m.at t = some x := (hwin _ _).mpr ⟨List.mem_flatMap.mpr ⟨b, hbm, (toM_at _ _ _).mp hx⟩, by omega, by omega⟩
        rw [this] at h3
        simp at h3
    have hall : m.data.all Option.isSome = false := by
      rw [Bool.eq_false_iff]
      intro h'
      exact at_none_iff_data.mp h' (a.stop + 1) (by omega) (by omega) (hnone _ (by omega) (by omega))
    have hstep : interpStep spline g segs (segs ++ F) n = .ok (segs ++ (F ++ [fillMasked spline m])) := by
      unfold interpStep
      rw [ha, hb]
      dsimp only
      rw [if_pos hgap, m1]
      dsimp only
      rw [hall, List.append_assoc]
      rfl
    have hgood : goodPoints 0 m.data = (around (samples segs) g a b).map fun p => (p.1 - m.start, p.2) := by
      have := goodPoints_eq m.start m.data m.start
      rw [sub_self] at this
      rw [this, around_spec hA hwin]
    have hhead : (around (samples segs) g a b).head? = some (m.start, ms) := by
      rw [← around_spec hA hwin]
      have hd : m.data.head? = some (some ms) := by
        unfold MTrace.at at m3
        rw [if_neg (by omega), sub_self] at m3
        cases hm : m.data with
        | nil => rw [hm] at m3; simp at m3
        | cons v l =>
          rw [hm] at m3
          simpa using m3
      cases hm : m.data with
      | nil => rw [hm] at hd; simp at hd
      | cons v l =>
        rw [hm] at hd
        simp only [List.head?_cons, Option.some.injEq] at hd
        rw [hd]
        rfl
    have hfill : ∀ q, FillsGap spline g segs n q ↔ a.stop < q.1 ∧ q.1 < b.start ∧
        q.2 = pyTrunc (spline (goodPoints 0 m.data) (q.1 - m.start)) := by
      intro q
      constructor
      · rintro ⟨a', b', k1, k2, _, k4, k5, t0, x0, k6, k7⟩
        rw [ha] at k1
        rw [hb] at k2
        have e1 := Option.some.inj k1
        have e2 := Option.some.inj k2
        subst e1
        subst e2
        rw [hhead] at k6
        have e3 := (Prod.mk.inj (Option.some.inj k6)).1
        subst e3
        exact ⟨k4, k5, by rw [hgood]; exact k7⟩
      · rintro ⟨k4, k5, k6⟩
        exact ⟨a, b, ha, hb, hgap, k4, k5, m.start, ms, hhead, by rw [← hgood]; exact k6⟩
    have hsam : ∀ q, q ∈ stamps (fillMasked spline m).start (fillMasked spline m).data ↔
        m.at q.1 = some q.2 ∨ FillsGap spline g segs n q := by
      intro q
      rw [show q = (q.1, q.2) from rfl, fillMasked_samples, hfill]
      constructor
      · rintro (k | ⟨k1, k2, k3, k4⟩)
        · exact Or.inl k
        · exact Or.inr ⟨(honly _ k1 k2 k3).1, (honly _ k1 k2 k3).2, k4⟩
      · rintro (k | ⟨k1, k2, k3⟩)
        · exact Or.inl k
        · exact Or.inr ⟨by omega, by omega, hnone _ k1 k2, k3⟩
    refine ⟨_, hstep, ?_, ?_, ?_⟩
    · intro tr htr
      rw [List.mem_append, List.mem_singleton] at htr
      rcases htr with htr | rfl
      · exact h.nonempty tr htr
      · intro he
        have := (hsam (a.stop, xa)).mpr (Or.inl hata)
        rw [he] at this
        simp [stamps] at this
    · intro q hq
      rw [samples_append, List.mem_append, samples_cons, samples_nil, List.append_nil, hsam] at hq
      rcases hq with hq | hq | hq
      · rcases h.sound q hq with h1 | ⟨i, hi, h1⟩
        · exact Or.inl h1
        · exact Or.inr ⟨i, by omega, h1⟩
      · exact Or.inl ((hwin _ _).mp hq).1
      · exact Or.inr ⟨n, by omega, hq⟩
    · intro i hi q hq
      rw [samples_append, List.mem_append, samples_cons, samples_nil, List.append_nil, hsam]
      rcases Nat.lt_or_eq_of_le (show i ≤ n by omega) with h1 | h1
      · exact Or.inl (h.complete i h1 q hq)
      · subst h1
        exact Or.inr (Or.inr hq)
  · refine ⟨F, ?_, h.nonempty, ?_, ?_⟩
    · unfold interpStep
      rw [ha, hb]
      dsimp only
      rw [if_neg hgap]
    · intro q hq
      rcases h.sound q hq with h1 | ⟨i, hi, h1⟩
      · exact Or.inl h1
      · exact Or.inr ⟨i, by omega, h1⟩
    · intro i hi q hq
      rcases Nat.lt_or_eq_of_le (show i ≤ n by omega) with h1 | h1
      · exact h.complete i h1 q hq
      · subst h1
        obtain ⟨a', b', k1, k2, k3, _⟩ := hq
        rw [ha] at k1
        rw [hb] at k2
        rw [← Option.some.inj k1, ← Option.some.inj k2] at k3
        exact absurd k3 hgap

theorem interp_loop {spline : List (Int × Int) → Int → Rat} {g : Int} {segs : List Trace} (hA : Separate segs)
    (hlong : ∀ (i : Nat) (a b c : Trace), segs[i]? = some a → segs[i + 1]? = some b → segs[i + 2]? = some c →
      b.start - a.stop < g ∨ c.start - b.stop < g → g < b.data.length) :
    ∀ n, n + 1 ≤ segs.length → ∃ F, (List.range n).foldlM (interpStep spline g segs) segs = .ok (segs ++ F) ∧ FillInv spline g segs F n := by
  intro n
  induction n with
  | zero =>
    intro _
    refine ⟨[], by rw [List.append_nil]; rfl, by simp, ?_, by intro i hi; omega⟩
    intro q hq
    simp [samples_nil] at hq
  | succ n ih =>
    intro hn
    obtain ⟨F, h1, h2⟩ := ih (by omega)
    obtain ⟨F', h3, h4⟩ := interpStep_inv hA hlong (by omega) h2
    refine ⟨F', ?_, h4⟩
    rw [List.range_succ, List.foldlM_append, h1]
    show (do let s ← List.foldlM (interpStep spline g segs) (segs ++ F) [n]; pure s) = _
    simp only [List.foldlM_cons, List.foldlM_nil, h3]
    rfl

/-- Short gaps are filled and nothing else changes: let `segs` be the runs of the record. If every run that lies between two gaps, one of
them shorter than `g` hundredths of a second, has more than `g` samples, the result is again a list of runs; they hold all recorded samples, unchanged, and for each gap shorter than `g`
(from the last sample before to the first sample after) the values of the spline through the samples within `g` of the gap. Missing: short
runs between two gaps; `C88_exact_partial` shows when they make the interpolation fail. -/
theorem C88_filled_partial {spline : List (Int × Int) → Int → Rat} {g : Int} {st segs : List Trace} (hne : ∀ tr ∈ st, tr.data ≠ [])
    (hc : Consistent (samples st)) (hA : Separate segs) (hs : ∀ q, q ∈ samples segs ↔ q ∈ samples st)
    (hlong : ∀ (i : Nat) (a b c : Trace), segs[i]? = some a → segs[i + 1]? = some b → segs[i + 2]? = some c →
      b.start - a.stop < g ∨ c.start - b.stop < g → g < b.data.length) :
    ∃ out, interpolateStream spline g st = .ok out ∧ Separate out ∧
      ∀ q, q ∈ samples out ↔ q ∈ samples st ∨ ∃ (i : Nat) (a b : Trace), segs[i]? = some a ∧ segs[i + 1]? = some b ∧
        b.start - a.stop < g ∧ FilledAt spline g (samples segs) a b q := by
  have hr := remerge_spec hne hc
  have e : remerge st = segs := apart_unique hr.1 hA fun q => (hr.2 q).trans (hs q).symm
  by_cases h1 : segs.length = 1
  · refine ⟨segs, by unfold interpolateStream; dsimp only; rw [e, if_pos h1], hA, ?_⟩
    intro q
    rw [hs]
    constructor
    · exact Or.inl
    · rintro (h | ⟨i, a, b, _, h, _⟩)
      · exact h
      · have := (List.getElem?_eq_some_iff.mp h).1
        omega
  · by_cases h0 : segs = []
    · subst h0
      refine ⟨[], by unfold interpolateStream; dsimp only; rw [e]; rfl, hA, ?_⟩
      intro q
      rw [← hs]
      simp
    · have hlen : 0 < segs.length := List.length_pos_iff.mpr h0
      obtain ⟨F, h2, h3⟩ := interp_loop (spline := spline) hA hlong (segs.length - 1) (by omega)
      have hne' : ∀ tr ∈ segs ++ F, tr.data ≠ [] := by
        intro tr htr
        rcases List.mem_append.mp htr with h | h
        · exact hA.1 tr h
        · exact h3.nonempty tr h
      have hmem : ∀ q, q ∈ samples (segs ++ F) ↔ q ∈ samples segs ∨ ∃ i, FillsGap spline g segs i q := by
        intro q
        rw [samples_append, List.mem_append]
        constructor
        · rintro (h | h)
          · exact Or.inl h
          · rcases h3.sound q h with h | ⟨i, _, h⟩
            · exact Or.inl h
            · exact Or.inr ⟨i, h⟩
        · rintro (h | ⟨i, h⟩)
          · exact Or.inl h
          · refine Or.inr (h3.complete i ?_ q h)
            obtain ⟨_, _, _, h', _⟩ := h
            have := (List.getElem?_eq_some_iff.mp h').1
            omega
      have hr' := remerge_spec hne' (by
        intro t x y hx hy
        exact recorded_or_filled_consistent hA ((hmem _).mp hx) ((hmem _).mp hy))
      refine ⟨remerge (segs ++ F), by unfold interpolateStream; dsimp only; rw [e, if_neg h1, h2], hr'.1, ?_⟩
      intro q
      rw [hr'.2, hmem, hs]
      rfl

/-- Violated: two short gaps with at most `g` hundredths between their ends make the interpolation fail. The first pass fills both gaps, and
then the second finds no gap to fill. -/
theorem C88_violated_close {spline : List (Int × Int) → Int → Rat} {g : Int} {st : List Trace} {x y z : Trace}
    (hne : ∀ tr ∈ st, tr.data ≠ []) (hc : Consistent (samples st)) (hA : Separate [x, y, z])
    (hs : ∀ q, q ∈ samples [x, y, z] ↔ q ∈ samples st) (h1 : y.start - x.stop < g) (h2 : z.start - y.stop < g)
    (h3 : z.start ≤ y.start + g) : interpolateStream spline g st = .error .other := by
  have hr := remerge_spec hne hc
  have e : remerge st = [x, y, z] := apart_unique hr.1 hA fun q => (hr.2 q).trans (hs q).symm
  have hx := hA.1 x (by simp)
  have hy := hA.1 y (by simp)
  have hz := hA.1 z (by simp)
  have sx := stop_of_ne hx
  have sy := stop_of_ne hy
  have sz := stop_of_ne hz
  have lx : 0 < x.data.length := List.length_pos_iff.mpr hx
  have ly : 0 < y.data.length := List.length_pos_iff.mpr hy
  have lz : 0 < z.data.length := List.length_pos_iff.mpr hz
  have hxy := apart_get_lt hA (i := 0) (j := 1) (a := x) (b := y) rfl rfl (by omega)
  have hyz := apart_get_lt hA (i := 1) (j := 2) (a := y) (b := z) rfl rfl (by omega)
  have hcs := increasing_consistent (apart_increasing hA)
  obtain ⟨vx, hvx⟩ := stop_mem (p := [x, y, z]) (tr := x) (by simp) hx
  obtain ⟨vz, hvz⟩ := mem_samples_start (p := [x, y, z]) (tr := z) (by simp) hz
  -- first pass
  obtain ⟨m, m1, m2, _⟩ := cut_merge (lo := x.stop - g) (hi := y.start + g) hcs hvx (by omega) (by omega)
  have rx := at_some_range ((m2 _ _).mpr ⟨hvx, by omega, by omega⟩)
  have rz := at_some_range ((m2 _ _).mpr ⟨hvz, by omega, by omega⟩)
  have hgapm : m.at (x.stop + 1) = none := by
    cases hv : m.at (x.stop + 1) with
    | none => rfl
    | some v =>
      exfalso
      rcases apart_between hA (i := 0) (a := x) (b := y) rfl rfl ((m2 _ _).mp hv).1 with h | h <;> simp only at h <;> omega
  have hall : m.data.all Option.isSome = false := by
    rw [Bool.eq_false_iff]
    intro h'
    exact at_none_iff_data.mp h' (x.stop + 1) (by omega) (by omega) hgapm
  have step0 : interpStep spline g [x, y, z] [x, y, z] 0 = .ok ([x, y, z] ++ [fillMasked spline m]) := by
    unfold interpStep
    simp only [List.getElem?_cons_zero, List.getElem?_cons_succ]
    rw [if_pos h1, m1]
    dsimp only
    rw [hall]
    rfl
  -- second pass
  have hfs := fillMasked_samples spline m
  have hmem : ∀ q, q ∈ samples ([x, y, z] ++ [fillMasked spline m]) ↔ q ∈ samples [x, y, z] ∨
      q ∈ stamps (fillMasked spline m).start (fillMasked spline m).data := by
    intro q
    rw [samples_append, List.mem_append, samples_cons (fillMasked spline m), samples_nil, List.append_nil]
  have hcover : ∀ t, x.start ≤ t → t ≤ z.stop → ∃ v, (t, v) ∈ samples ([x, y, z] ++ [fillMasked spline m]) := by
    intro t t1 t2
    have hrec : ∀ tr ∈ [x, y, z], tr.start ≤ t → t ≤ tr.stop → ∃ v, (t, v) ∈ samples ([x, y, z] ++ [fillMasked spline m]) := by
      intro tr htr k1 k2
      obtain ⟨v, hv⟩ := toM_full (hA.1 tr htr) k1 k2
      exact ⟨v, (hmem _).mpr (Or.inl (List.mem_flatMap.mpr ⟨tr, htr, (toM_at _ _ _).mp hv⟩))⟩
    by_cases k1 : t ≤ x.stop
    · exact hrec x (by simp) t1 k1
    · by_cases k2 : z.start ≤ t
      · exact hrec z (by simp) k2 t2
      · cases hv : m.at t with
        | some v => exact ⟨v, (hmem _).mpr (Or.inr ((hfs t v).mpr (Or.inl hv)))⟩
        | none => exact ⟨_, (hmem _).mpr (Or.inr ((hfs t _).mpr (Or.inr ⟨by omega, by omega, hv, rfl⟩)))⟩
  have hrng : ∀ q ∈ samples ([x, y, z] ++ [fillMasked spline m]), x.start ≤ q.1 ∧ q.1 ≤ z.stop := by
    have hrec : ∀ q ∈ samples [x, y, z], x.start ≤ q.1 ∧ q.1 ≤ z.stop := by
      intro q hq
      obtain ⟨tr, htr, hq⟩ := List.mem_flatMap.mp (show q ∈ [x, y, z].flatMap fun tr => stamps tr.start tr.data from hq)
      have k1 := (mem_stamps_range hq).1
      have k2 := sample_le_stop hq
      simp only [List.mem_cons, List.not_mem_nil, or_false] at htr
      rcases htr with rfl | rfl | rfl <;> omega
    intro q hq
    rcases (hmem q).mp hq with hq | hq
    · exact hrec q hq
    · obtain ⟨_, _, _, ⟨v1, hs1⟩, v2, hs2⟩ := cut_merge (lo := x.stop - g) (hi := y.start + g) hcs hvx (by omega) (by omega)
      rename_i m' hm' _
      rw [m1] at hm'
      have em := Option.some.inj hm'
      subst em
      have w1 := (hrec _ ((m2 _ _).mp hs1).1).1
      have w2 := (hrec _ ((m2 _ _).mp hs2).1).2
      simp only at w1 w2
      rcases (hfs q.1 q.2).mp hq with h | ⟨k1, k2, _⟩
      · exact hrec q ((m2 _ _).mp h).1
      · omega
  have hc' : Consistent (samples ([x, y, z] ++ [fillMasked spline m])) := by
    intro t v w hv hw
    rw [hmem, hfs] at hv hw
    rcases hv with hv | hv | hv <;> rcases hw with hw | hw | hw
    · exact hcs t v w hv hw
    · exact hcs t v w hv ((m2 _ _).mp hw).1
    · exfalso
      have hk : x.stop - g ≤ t ∧ t ≤ y.start + g := by
        obtain ⟨m', hm', hm2, ⟨v1, hs1⟩, v2, hs2⟩ := cut_merge (lo := x.stop - g) (hi := y.start + g) hcs hvx (by omega) (by omega)
        rw [m1] at hm'
        have em := Option.some.inj hm'
        subst em
        have w1 := ((m2 _ _).mp hs1).2
        have w2 := ((m2 _ _).mp hs2).2
        omega
      rw [(m2 t v).mpr ⟨hv, hk⟩] at hw
      simp at hw
    · exact hcs t v w ((m2 _ _).mp hv).1 hw
    · rw [hv] at hw
      exact Option.some.inj hw
    · rw [hv] at hw
      simp at hw
    · exfalso
      have hk : x.stop - g ≤ t ∧ t ≤ y.start + g := by
        obtain ⟨m', hm', hm2, ⟨v1, hs1⟩, v2, hs2⟩ := cut_merge (lo := x.stop - g) (hi := y.start + g) hcs hvx (by omega) (by omega)
        rw [m1] at hm'
        have em := Option.some.inj hm'
        subst em
        have w1 := ((m2 _ _).mp hs1).2
        have w2 := ((m2 _ _).mp hs2).2
        omega
      rw [(m2 t w).mpr ⟨hw, hk⟩] at hv
      simp at hv
    · rw [hw] at hv
      simp at hv
    · rw [hv.2.2.2, hw.2.2.2]
  obtain ⟨vy, hvy⟩ := stop_mem (p := [x, y, z]) (tr := y) (by simp) hy
  obtain ⟨m', n1, n2, ⟨v1, n3⟩, v2, n4⟩ := cut_merge (lo := y.stop - g) (hi := z.start + g) hc' ((hmem _).mpr (Or.inl hvy))
    (by omega) (by omega)
  have hall' : m'.data.all Option.isSome = true := by
    rw [at_none_iff_data]
    intro t t1 t2 ht
    have w1 := (n2 _ _).mp n3
    have w2 := (n2 _ _).mp n4
    have r1 := hrng _ w1.1
    have r2 := hrng _ w2.1
    simp only at r1 r2
    obtain ⟨v, hv⟩ := hcover t (by omega) (by omega)
    rw [(n2 t v).mpr ⟨hv, by omega, by omega⟩] at ht
    simp at ht
  have step1 : interpStep spline g [x, y, z] ([x, y, z] ++ [fillMasked spline m]) 1 = .error .other := by
    unfold interpStep
    simp only [List.getElem?_cons_zero, List.getElem?_cons_succ]
    rw [if_pos h2, n1]
    dsimp only
    rw [hall']
    rfl
  unfold interpolateStream
  dsimp only
  rw [e]
  simp only [List.length_cons, List.length_nil]
  rw [if_neg (by omega)]
  have : (List.range (0 + 1 + 1 + 1 - 1)).foldlM (interpStep spline g [x, y, z]) [x, y, z] = .error .other := by
    show (List.foldlM (interpStep spline g [x, y, z]) [x, y, z] [0, 1]) = _
    simp only [List.foldlM_cons, step0]
    show (do let s ← interpStep spline g [x, y, z] ([x, y, z] ++ [fillMasked spline m]) 1; List.foldlM (interpStep spline g [x, y, z]) s []) = _
    rw [step1]
    rfl
  rw [this]

/-- The straight line through the first and last point, as a stand-in for the spline. -/
def demoLine (p : List (Int × Int)) (k : Int) : Rat :=
  match p.head?, p.getLast? with
  | some a, some b => a.2 + (k - a.1) * (b.2 - a.2) / (b.1 - a.1)
  | _, _ => 0

/-- Two samples are missing after the fourth, and one after the eighth; the limit is five hundredths. -/
def demoHoles : List Trace := [⟨6, [60, 70, 80, 90, 100, 110, 120]⟩, ⟨0, [0, 10, 20, 30]⟩, ⟨30, [5]⟩]

example : (interpolateStream demoLine 5 demoHoles).toOption =
    some [⟨0, [0, 10, 20, 30, 40, 50, 60, 70, 80, 90, 100, 110, 120]⟩, ⟨30, [5]⟩] := by decide +kernel

/-- These traces meet the hypotheses of `C88_filled_partial`. -/
example : Separate [⟨0, [0, 10, 20, 30]⟩, ⟨6, [60, 70, 80, 90, 100, 110, 120]⟩, ⟨30, [5]⟩] ∧
    ∀ (i : Nat) (a b c : Trace), ([⟨0, [0, 10, 20, 30]⟩, ⟨6, [60, 70, 80, 90, 100, 110, 120]⟩, ⟨30, [5]⟩] : List Trace)[i]? = some a →
      ([⟨0, [0, 10, 20, 30]⟩, ⟨6, [60, 70, 80, 90, 100, 110, 120]⟩, ⟨30, [5]⟩] : List Trace)[i + 1]? = some b →
      ([⟨0, [0, 10, 20, 30]⟩, ⟨6, [60, 70, 80, 90, 100, 110, 120]⟩, ⟨30, [5]⟩] : List Trace)[i + 2]? = some c →
      b.start - a.stop < 5 ∨ c.start - b.stop < 5 → (5 : Int) < b.data.length := by
  constructor
  · refine ⟨by simp, ?_⟩
    simp [Trace.stop]
  · intro i a b c h1 h2 h3 _
    have : i = 0 := by
      have := (List.getElem?_eq_some_iff.mp h3).1
      simp only [List.length_cons, List.length_nil] at this
      omega
    subst this
    simp at h2
    subst h2
    decide

/-- Three runs with short gaps close together: the interpolation fails. -/
example : (interpolateStream demoLine 10 [⟨0, [1, 2]⟩, ⟨4, [3]⟩, ⟨7, [4, 5]⟩]).toOption = none := by decide +kernel

example : Separate [⟨0, [1, 2]⟩, ⟨4, [3]⟩, ⟨7, [4, 5]⟩] := ⟨by simp, by simp [Trace.stop]⟩

end Gemlog
