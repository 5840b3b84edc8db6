import Verif.Lemmas.Overlap

/-!
# C54: the exact effect of overlapping traces
-/

namespace Gemlog

theorem samples_single (a : Trace) : samples [a] = stamps a.start a.data := by simp [samples]

theorem mem_samples_single {a : Trace} {k x : Int} : (k, x) ∈ samples [a] ↔ a.start ≤ k ∧ a.data[(k - a.start).toNat]? = some x := by
  rw [samples_single, mem_stamps_getElem]

theorem agree_iff {a b : Trace} (ha : a.data ≠ []) (hb : b.data ≠ []) (hs : a.start < b.start) (hov : b.start ≤ a.stop)
    {i n : Nat} (hi : (i : Int) = b.start - a.start) (hn : (n : Int) = min a.stop b.stop - b.start + 1) :
    Agree a b ↔ (a.data.drop i).take n = b.data.take n := by
  have h1 := stop_of_ne ha
  have h2 := stop_of_ne hb
  have la : n ≤ a.data.length - i := by omega
  have lb : n ≤ b.data.length := by omega
  constructor
  · intro h
    apply List.ext_getElem? 
    intro j
    by_cases hj : j < n
    · rw [List.getElem?_take_of_lt hj, List.getElem?_take_of_lt hj, List.getElem?_drop]
      have hja : i + j < a.data.length := by omega
      have hjb : j < b.data.length := by omega
      rw [List.getElem?_eq_getElem hja, List.getElem?_eq_getElem hjb]
      congr 1
      refine h (b.start + j) _ _ (mem_samples_single.mpr ⟨by omega, ?_⟩) (mem_samples_single.mpr ⟨by omega, ?_⟩)
      · rw [show (b.start + j - a.start).toNat = i + j by omega, List.getElem?_eq_getElem hja]
      · rw [show (b.start + j - b.start).toNat = j by omega, List.getElem?_eq_getElem hjb]
    · rw [List.getElem?_eq_none (by simp; omega), List.getElem?_eq_none (by simp; omega)]
  · intro h k x y hx hy
    obtain ⟨hx1, hx2⟩ := mem_samples_single.mp hx
    obtain ⟨hy1, hy2⟩ := mem_samples_single.mp hy
    have lx : (k - a.start).toNat < a.data.length := by
      by_contra hc
      rw [List.getElem?_eq_none (by omega)] at hx2
      simp at hx2
    have ly : (k - b.start).toNat < b.data.length := by
      by_contra hc
      rw [List.getElem?_eq_none (by omega)] at hy2
      simp at hy2
    have hj : (k - b.start).toNat < n := by omega
    have := congrArg (fun l => l[(k - b.start).toNat]?) h
    simp only [List.getElem?_take_of_lt hj, List.getElem?_drop] at this
    rw [show i + (k - b.start).toNat = (k - a.start).toNat by omega, hx2, hy2] at this
    exact Option.some.inj this

theorem onLine_iff {a b : Trace} (ha : a.data ≠ []) (hb : b.data ≠ []) (hs : a.start < b.start) (hov : b.start ≤ a.stop)
    {i n : Nat} (hi : (i : Int) = b.start - a.start) (hn : (n : Int) = min a.stop b.stop - b.start + 1) {x y : Int}
    (hx : a.data.getLast? = some x) (hy : b.data.head? = some y) :
    OnLine a b ↔ (a.data.drop i).take n = lineChunk n x y := by
  have h1 := stop_of_ne ha
  have h2 := stop_of_ne hb
  have la : n ≤ a.data.length - i := by omega
  have l1 : 0 < a.data.length := List.length_pos_iff.mpr ha
  have l2 : 0 < b.data.length := List.length_pos_iff.mpr hb
  have mx : (a.stop, x) ∈ samples [a] := by
    rw [mem_samples_single]
    refine ⟨by omega, ?_⟩
    rw [show (a.stop - a.start).toNat = a.data.length - 1 by omega, ← List.getLast?_eq_getElem?, hx]
  have my : (b.start, y) ∈ samples [b] := by
    rw [mem_samples_single]
    refine ⟨by omega, ?_⟩
    rw [show (b.start - b.start).toNat = 0 by omega, ← List.head?_eq_getElem?, hy]
  have line : ∀ j : Nat, j < n → (lineChunk n x y)[j]? = some (pyTrunc ((x : Rat) + ((b.start + j - b.start : Int) + 1) *
      ((y - x : Int) : Rat) / ((min a.stop b.stop - b.start + 1 : Int) + 1))) := by
    intro j hj
    unfold lineChunk
    rw [List.getElem?_map, List.getElem?_range hj, ← hn]
    simp
  constructor
  · rintro ⟨x', y', hx', hy', h⟩
    have ex : x' = x := by
      have e1 := (mem_samples_single.mp hx').2
      have e2 := (mem_samples_single.mp mx).2
      rw [e1] at e2
      exact Option.some.inj e2
    have ey : y' = y := by
      have e1 := (mem_samples_single.mp hy').2
      have e2 := (mem_samples_single.mp my).2
      rw [e1] at e2
      exact Option.some.inj e2
    subst ex ey
    apply List.ext_getElem?
    intro j
    by_cases hj : j < n
    · rw [List.getElem?_take_of_lt hj, List.getElem?_drop, line j hj]
      have hja : i + j < a.data.length := by omega
      rw [List.getElem?_eq_getElem hja]
      congr 1
      refine h (b.start + j) _ (mem_samples_single.mpr ⟨by omega, ?_⟩) (by omega) (by omega)
      rw [show (b.start + j - a.start).toNat = i + j by omega, List.getElem?_eq_getElem hja]
    · rw [List.getElem?_eq_none (by simp; omega), List.getElem?_eq_none (by rw [length_lineChunk]; omega)]
  · intro h
    refine ⟨x, y, mx, my, ?_⟩
    intro k v hv hk1 hk2
    obtain ⟨hv1, hv2⟩ := mem_samples_single.mp hv
    have lx : (k - a.start).toNat < a.data.length := by
      by_contra hc
      rw [List.getElem?_eq_none (by omega)] at hv2
      simp at hv2
    have hj : (k - b.start).toNat < n := by omega
    have e := congrArg (fun l => l[(k - b.start).toNat]?) h
    simp only [List.getElem?_take_of_lt hj, List.getElem?_drop, line _ hj] at e
    rw [show i + (k - b.start).toNat = (k - a.start).toNat by omega, hv2] at e
    have := Option.some.inj e
    rw [this, show b.start + ((k - b.start).toNat : Int) - b.start = k - b.start by omega]

/-- **C54, the exact effect of an overlap.** Two traces that overlap: what comes after the end of the first one is always
kept. What the first one holds is kept if the two agree (or if, by coincidence, the first one follows the straight line put
in place of contradictory samples); otherwise *all* of it is lost, not only the contradictory samples. Missing: that it is always kept, which is false. -/
theorem C54_exact_partial (a b : Trace) (ha : a.data ≠ []) (hb : b.data ≠ []) (hs : a.start < b.start) (hov : b.start ≤ a.stop) :
    (Agree a b ∨ OnLine a b → samples (mergeGaps [a, b]) = samples [a] ++ laterThan a b) ∧
    (¬ Agree a b → ¬ OnLine a b → samples (mergeGaps [a, b]) = laterThan a b) := by
  have h1 := stop_of_ne ha
  have h2 := stop_of_ne hb
  have l1 : 0 < a.data.length := List.length_pos_iff.mpr ha
  have l2 : 0 < b.data.length := List.length_pos_iff.mpr hb
  obtain ⟨x, hx⟩ := some_last ha
  obtain ⟨y, hy⟩ := some_head hb
  obtain ⟨i, hi⟩ : ∃ i : Nat, (i : Int) = b.start - a.start := ⟨(b.start - a.start).toNat, by omega⟩
  obtain ⟨n, hn⟩ : ∃ n : Nat, (n : Int) = min a.stop b.stop - b.start + 1 := ⟨(min a.stop b.stop - b.start + 1).toNat, by omega⟩
  rw [agree_iff ha hb hs hov hi hn, onLine_iff ha hb hs hov hi hn hx hy]
  have hup : StartsUp [a, b] := ⟨by simp [ha, hb], by simp [hs]⟩
  have hj := joined_overlap ha hb hs hov hi hn hx hy
  have hjl := joined_length ha hb hs.le
  have hjs := joined_stop ha hb hs.le
  have hjst : (joined a b).start = a.start := rfl
  have hlater : laterThan a b = stamps (a.stop + 1) (b.data.drop (a.stop + 1 - b.start).toNat) := by
    unfold laterThan
    rw [samples_single, stamps_after (by omega)]
  rw [mergeGaps_runs hup, runsFrom, if_pos (by omega), runsFrom, hlater]
  have lFa : ((a.data.drop i).take n).length = n := by simp; omega
  -- the data of the joined trace
  set F := if (a.data.drop i).take n = b.data.take n then (a.data.drop i).take n else lineChunk n x y with hF
  have lF : F.length = n := by
    rw [hF]; split_ifs
    · exact lFa
    · exact length_lineChunk n x y
  have hsplit : a.data = a.data.take i ++ (a.data.drop i).take n ++ a.data.drop (i + n) := by
    rw [List.append_assoc, ← List.drop_drop, List.take_append_drop, List.take_append_drop]
  have hia : i ≤ a.data.length := by omega
  -- the first part of it, compared with `a`
  have htake : (joined a b).data.take a.data.length = a.data.take i ++ F ++ a.data.drop (i + n) := by
    rw [hj]
    by_cases c : a.stop < b.stop
    · have e0 : i + n = a.data.length := by omega
      rw [if_pos c, List.take_left' (by simp [lF]; omega), List.drop_eq_nil_of_le (by omega), List.append_nil]
    · rw [if_neg c, List.take_of_length_le]
      simp [lF]; omega
  have hdrop : stamps (a.start + (a.data.length : Nat)) ((joined a b).data.drop a.data.length) =
      stamps (a.stop + 1) (b.data.drop (a.stop + 1 - b.start).toNat) := by
    rw [hj, show a.start + (a.data.length : Int) = a.stop + 1 by omega]
    by_cases c : a.stop < b.stop
    · rw [if_pos c, List.drop_left' (by simp [lF]; omega), show (a.stop + 1 - b.start).toNat = n by omega]
    · rw [if_neg c, List.drop_eq_nil_of_le (by simp [lF]; omega), List.drop_eq_nil_of_le (by omega)]
  have heq : (joined a b).data.take a.data.length = a.data ↔ F = (a.data.drop i).take n := by
    rw [htake]
    constructor
    · intro h
      have h' := h
      rw [hsplit] at h'
      conv at h' => lhs; rw [← hsplit]
      have h3 := List.append_cancel_right (as := a.data.take i ++ F) (bs := a.data.drop (i + n))
        (cs := a.data.take i ++ (a.data.drop i).take n) (by rw [h]; exact hsplit)
      exact List.append_cancel_left h3
    · intro h
      rw [h]; exact hsplit.symm
  constructor
  · intro h
    have hFe : F = (a.data.drop i).take n := by
      rw [hF]
      split_ifs with hc
      · rfl
      · rcases h with h | h
        · exact absurd h hc
        · exact h.symm
    have hl0 : lostStep a (joined a b) 0 = 0 := by
      unfold lostStep
      rw [if_pos (by simpa using heq.mpr hFe)]
      split_ifs <;> rfl
    rw [hl0]
    unfold remains
    rw [if_pos (by omega)]
    rw [samples_single, samples_single, List.drop_zero]
    simp only [Nat.cast_zero, add_zero]
    have e : (joined a b).data = a.data ++ (joined a b).data.drop a.data.length := by
      conv_lhs => rw [← List.take_append_drop a.data.length (joined a b).data, heq.mpr hFe]
    rw [← hdrop]
    conv_lhs => rw [e, stamps_append]
    rfl
  · intro hA hL
    have hFe : F ≠ (a.data.drop i).take n := by
      rw [hF, if_neg hA]
      exact fun h => hL h.symm
    have hl0 : lostStep a (joined a b) 0 = a.data.length := by
      unfold lostStep
      rw [if_neg (by simpa using fun h => hFe (heq.mp h))]
    rw [hl0]
    unfold remains
    split_ifs with hc
    · rw [samples_single]
      exact hdrop
    · rw [← hdrop, List.drop_eq_nil_of_le (by omega)]
      rfl

/-- The hypotheses are met, and each of the three cases occurs: agreement; contradiction; a coincidence with the line. -/
example : samples (mergeGaps [⟨0, [1, 2, 3, 4]⟩, ⟨2, [3, 4, 5]⟩]) = samples [⟨0, [1, 2, 3, 4]⟩] ++ [(4, 5)] ∧
    samples (mergeGaps [⟨0, [1, 2, 3, 4]⟩, ⟨3, [9, 10]⟩]) = [(4, 10)] ∧
    samples (mergeGaps [⟨0, [1, 2, 6, 4]⟩, ⟨2, [10, 5, 7]⟩]) = [(4, 7)] ∧
    samples (mergeGaps [⟨0, [1, 2, 6, 8]⟩, ⟨2, [2, 5, 7]⟩]) = [(4, 7)] ∧
    samples (mergeGaps [⟨0, [1, 2, 8, 8]⟩, ⟨2, [8, 5, 7]⟩]) = samples [⟨0, [1, 2, 8, 8]⟩] ++ [(4, 7)] := by
  refine ⟨by decide +kernel, by decide +kernel, by decide +kernel, by decide +kernel, by decide +kernel⟩

theorem lostStep_bridge {a b : Trace} (h : Follows a b) (k : Nat) : lostStep a (joined a b) k = 0 := by
  have h1 := bridge_stop h
  have h2 := stop_of_ne h.2.1
  have l2 : 0 < b.data.length := List.length_pos_iff.mpr h.2.1
  have h3 := h.2.2
  unfold lostStep
  rw [joined_eq_bridge h, if_pos, if_pos (by omega)]
  unfold bridge
  rw [List.take_left]

theorem remains_zero {a : Trace} (h : a.data ≠ []) : remains a 0 = [a] := by
  unfold remains
  rw [if_pos (List.length_pos_iff.mpr h)]
  simp

theorem follows_start {a b : Trace} (h : Follows a b) : a.start < b.start := by
  have h1 := stop_of_ne h.1
  have l1 : 0 < a.data.length := List.length_pos_iff.mpr h.1
  have := h.2.2
  omega

theorem inOrder_bridge {a b : Trace} {l : List Trace} (ho : InOrder (a :: b :: l)) : InOrder (bridge a b :: l) := by
  have hf := inOrder_follows ho
  refine ⟨?_, ?_⟩
  · intro t ht
    rcases List.mem_cons.mp ht with rfl | ht
    · exact bridge_ne hf.1
    · exact ho.1 t (by simp [ht])
  · have h2 := ho.2
    rw [samples_cons, samples_cons, ← List.append_assoc] at h2
    rw [samples_cons]
    obtain ⟨_, h3, h4⟩ := increasing_append.mp h2
    refine increasing_append.mpr ⟨stamps_increasing _ _, h3, ?_⟩
    intro q hq z hz
    obtain ⟨y, r, e⟩ := last_stamps hf.2.1
    have h5 := h4 (b.stop, y) (by rw [e]; simp) z hz
    have h6 := mem_stamps_range hq
    have h7 := bridge_length hf
    have h8 := stop_of_ne hf.2.1
    have : (bridge a b).start = a.start := rfl
    rw [this] at h6
    have h5' : b.stop < z.1 := h5
    omega

theorem runsFrom_inOrder (a : Trace) (l q : List Trace) (ho : InOrder (a :: l)) :
    ∃ r m, runsFrom a 0 (l ++ q) = r ++ runsFrom m 0 q ∧ joinFrom a l = r ++ [m] ∧ m.data ≠ [] ∧
      m.start ≤ ((a :: l).getLast (by simp)).start := by
  induction l generalizing a with
  | nil => exact ⟨[], a, rfl, rfl, ho.1 a (by simp), le_refl _⟩
  | cons b l ih =>
    have hf := inOrder_follows ho
    rw [List.cons_append, runsFrom, joinFrom]
    by_cases hg : b.start - a.stop ≤ 3
    · rw [if_pos hg, if_pos hg, lostStep_bridge hf, joined_eq_bridge hf]
      obtain ⟨r, m, h1, h2, h3, h4⟩ := ih (bridge a b) (inOrder_bridge ho)
      refine ⟨r, m, h1, h2, h3, ?_⟩
      cases l with
      | nil =>
        simp only [List.getLast_singleton] at h4
        simp only [List.getLast_cons_cons, List.getLast_singleton]
        have : (bridge a b).start = a.start := rfl
        have := follows_start hf
        omega
      | cons c l => simpa using h4
    · rw [if_neg hg, if_neg hg, remains_zero hf.1]
      obtain ⟨r, m, h1, h2, h3, h4⟩ := ih b (inOrder_tail ho)
      exact ⟨a :: r, m, by rw [h1]; rfl, by rw [h2]; rfl, h3, by simpa using h4⟩

/-- **C54, earlier data.** A record in order followed by further traces, which may overlap it: all that was recorded before the
last run of the record (the part with no gap above 30 ms) is not affected by what follows. Missing: the last run itself (`C54_exact_partial`). -/
theorem C54_earlier_partial (p q : List Trace) (hp : p ≠ []) (ho : InOrder p) (hup : StartsUp (p ++ q)) :
    ∃ r m, mergeGaps p = r ++ [m] ∧ mergeGaps (p ++ q) = r ++ mergeGaps (m :: q) := by
  cases p with
  | nil => exact absurd rfl hp
  | cons a l =>
    obtain ⟨r, m, h1, h2, h3, h4⟩ := runsFrom_inOrder a l q ho
    refine ⟨r, m, by rw [mergeGaps_cons ho, h2], ?_⟩
    rw [List.cons_append, mergeGaps_runs (by simpa using hup), h1, mergeGaps_runs]
    refine ⟨?_, ?_⟩
    · intro t ht
      rcases List.mem_cons.mp ht with rfl | ht
      · exact h3
      · exact hup.1 t (by simp [ht])
    · obtain ⟨_, u2, u3⟩ := List.pairwise_append.mp hup.2
      refine List.pairwise_cons.mpr ⟨?_, u2⟩
      intro t ht
      have := u3 _ (List.getLast_mem (by simp : a :: l ≠ [])) t ht
      omega

theorem runsFrom_apart (a : Trace) (k : Nat) (l : List Trace) (c : Trace) (r : List Trace)
    (hup : StartsUp (a :: l)) (hc : ∀ t ∈ a :: l, c.start - t.stop > 3) :
    runsFrom a k (l ++ c :: r) = runsFrom a k l ++ runsFrom c 0 r := by
  induction l generalizing a k with
  | nil =>
    have := hc a (by simp)
    conv_lhs => rw [List.nil_append, runsFrom, if_neg (by omega)]
    conv_rhs => rw [runsFrom]
  | cons b l ih =>
    have ha := hup.1 a (by simp)
    have hb := hup.1 b (by simp)
    have hs : a.start < b.start := (List.pairwise_cons.mp hup.2).1 b (by simp)
    have hup' := (List.pairwise_cons.mp hup.2).2
    rw [List.cons_append, runsFrom, runsFrom]
    by_cases hg : b.start - a.stop ≤ 3
    · rw [if_pos hg, if_pos hg]
      refine ih (joined a b) _ ⟨?_, ?_⟩ ?_
      · intro t ht
        rcases List.mem_cons.mp ht with rfl | ht
        · exact joined_ne ha hb hs.le
        · exact hup.1 t (by simp [ht])
      · refine List.pairwise_cons.mpr ⟨?_, (List.pairwise_cons.mp hup').2⟩
        intro t ht
        have := (List.pairwise_cons.mp hup').1 t ht
        show a.start < t.start
        omega
      · intro t ht
        rcases List.mem_cons.mp ht with rfl | ht
        · rw [joined_stop ha hb hs.le]
          have h1 := hc a (by simp)
          have h2 := hc b (by simp)
          omega
        · exact hc t (by simp [ht])
    · rw [if_neg hg, if_neg hg, ih b 0 ⟨fun t ht => hup.1 t (by simp [List.mem_cons.mp ht]), hup'⟩ (fun t ht => hc t (by
        rcases List.mem_cons.mp ht with rfl | ht <;> simp [*])), List.append_assoc]

/-- **C54, later data.** What is recorded after a gap of more than 30 ms is not affected by overlaps before the gap, and does
not affect what is before it. Missing: what is recorded up to the gap (`C54_exact_partial`). -/
theorem C54_later_partial (p q : List Trace) (hup : StartsUp (p ++ q))
    (hgap : ∀ t ∈ p, ∀ c ∈ q, c.start - t.stop > 3) : mergeGaps (p ++ q) = mergeGaps p ++ mergeGaps q := by
  cases p with
  | nil => rfl
  | cons a l =>
    cases q with
    | nil => simp [mergeGaps]
    | cons c r =>
      obtain ⟨u1, u2, u3⟩ := List.pairwise_append.mp hup.2
      have hp : StartsUp (a :: l) := ⟨fun t ht => hup.1 t (by simp only [List.mem_append]; exact Or.inl ht), u1⟩
      have hq : StartsUp (c :: r) := ⟨fun t ht => hup.1 t (by simp only [List.mem_append]; exact Or.inr ht), u2⟩
      rw [List.cons_append, mergeGaps_runs (by simpa using hup), mergeGaps_runs hp, mergeGaps_runs hq,
        runsFrom_apart a 0 l c r hp fun t ht => hgap t ht c (by simp)]

theorem joined_values {a b : Trace} (ha : a.data ≠ []) (hb : b.data ≠ []) (hs : a.start < b.start) {k v : Int} :
    ((k, v) ∈ samples [a] → ¬ Covers b k → (k, v) ∈ samples [joined a b]) ∧
    ((k, v) ∈ samples [b] → a.stop < k → (k, v) ∈ samples [joined a b]) := by
  have h1 := stop_of_ne ha
  have h2 := stop_of_ne hb
  have l1 : 0 < a.data.length := List.length_pos_iff.mpr ha
  have l2 : 0 < b.data.length := List.length_pos_iff.mpr hb
  by_cases hov : b.start ≤ a.stop
  · obtain ⟨x, hx⟩ := some_last ha
    obtain ⟨y, hy⟩ := some_head hb
    obtain ⟨i, hi⟩ : ∃ i : Nat, (i : Int) = b.start - a.start := ⟨(b.start - a.start).toNat, by omega⟩
    obtain ⟨n, hn⟩ : ∃ n : Nat, (n : Int) = min a.stop b.stop - b.start + 1 := ⟨(min a.stop b.stop - b.start + 1).toNat, by omega⟩
    have hj := joined_overlap ha hb hs hov hi hn hx hy
    set F := if (a.data.drop i).take n = b.data.take n then (a.data.drop i).take n else lineChunk n x y with hF
    have lF : F.length = n := by
      rw [hF]; split_ifs
      · simp; omega
      · exact length_lineChunk n x y
    have lt : (a.data.take i).length = i := by simp; omega
    have hst : (joined a b).start = a.start := rfl
    constructor
    · intro hk hc
      obtain ⟨k1, k2⟩ := mem_samples_single.mp hk
      have lk : (k - a.start).toNat < a.data.length := by
        by_contra hc
        rw [List.getElem?_eq_none (by omega)] at k2
        simp at k2
      rw [mem_samples_single, hst, hj]
      refine ⟨k1, ?_⟩
      unfold Covers at hc
      by_cases hb1 : k < b.start
      · rw [List.append_assoc, List.getElem?_append_left (by omega), List.getElem?_take_of_lt (by omega)]
        exact k2
      · have hb2 : b.stop < k := by omega
        rw [List.getElem?_append_right (by simp [lF]; omega), if_neg (by omega), List.getElem?_drop, List.length_append, lt, lF]
        rw [show i + n + ((k - a.start).toNat - (i + n)) = (k - a.start).toNat by omega]
        exact k2
    · intro hk hc
      obtain ⟨k1, k2⟩ := mem_samples_single.mp hk
      have lk : (k - b.start).toNat < b.data.length := by
        by_contra hc
        rw [List.getElem?_eq_none (by omega)] at k2
        simp at k2
      rw [mem_samples_single, hst, hj]
      refine ⟨by omega, ?_⟩
      rw [List.getElem?_append_right (by simp [lF]; omega), if_pos (by omega), List.getElem?_drop, List.length_append, lt, lF]
      rw [show n + ((k - a.start).toNat - (i + n)) = (k - b.start).toNat by omega]
      exact k2
  · have hf : Follows a b := ⟨ha, hb, by omega⟩
    have hl := bridge_length hf
    rw [joined_eq_bridge hf, samples_single, samples_single, samples_single]
    obtain ⟨x, hx⟩ := some_last ha
    obtain ⟨y, hy⟩ := some_head hb
    have e : stamps (bridge a b).start (bridge a b).data = stamps a.start a.data ++
        (stamps (a.start + a.data.length) ((fillChunk true (b.start - a.stop - 1).toNat a.data.getLast? b.data.head?).filterMap id) ++
          stamps b.start b.data) := by
      show stamps a.start (a.data ++ _) = _
      rw [stamps_append, stamps_append]
      congr 3
      rw [hx, hy, length_fillChunk]
      omega
    rw [e]
    exact ⟨fun h _ => by simp [h], fun h _ => by simp [h]⟩

theorem runsFrom_rejoined (a : Trace) (k : Nat) (l : List Trace) (c : Trace) (hup : StartsUp (a :: l))
    (hcn : c.data ≠ []) (hun : Unbroken a.stop (l ++ [c])) (hc : ∀ t ∈ a :: l, t.stop < c.start) :
    ∃ m, runsFrom a k (l ++ [c]) = [m] ∧ m.start = a.start ∧ m.stop = c.stop ∧
      (∀ q v, (q, v) ∈ samples [a] → (∀ t ∈ l ++ [c], ¬ Covers t q) → (q, v) ∈ samples [m]) ∧
      ∀ t ∈ l ++ [c], ∀ q v, (q, v) ∈ samples [t] → a.stop < q → (∀ t' ∈ l ++ [c], t' ≠ t → ¬ Covers t' q) →
        (q, v) ∈ samples [m] := by
  induction l generalizing a k with
  | nil =>
    have ha := hup.1 a (by simp)
    have hf : Follows a c := ⟨ha, hcn, hc a (by simp)⟩
    have hle : c.start ≤ a.stop + 3 := hun.1
    refine ⟨joined a c, ?_, rfl, ?_, ?_, ?_⟩
    · rw [List.nil_append, runsFrom, if_pos (by omega), runsFrom, lostStep_bridge hf,
        remains_zero (joined_ne ha hcn (follows_start hf).le)]
    · rw [joined_eq_bridge hf, bridge_stop hf]
    · intro q v h1 h2
      exact (joined_values ha hcn (follows_start hf)).1 h1 (h2 c (by simp))
    · intro t ht q v h1 h2 _
      simp only [List.nil_append, List.mem_singleton] at ht
      subst ht
      exact (joined_values ha hcn (follows_start hf)).2 h1 h2
  | cons b l ih =>
    have ha := hup.1 a (by simp)
    have hb := hup.1 b (by simp)
    have hs : a.start < b.start := (List.pairwise_cons.mp hup.2).1 b (by simp)
    have hup' := (List.pairwise_cons.mp hup.2).2
    have hst := joined_stop ha hb hs.le
    have h2 := stop_of_ne hb
    rw [List.cons_append] at hun ⊢
    have hle : b.start ≤ a.stop + 3 := hun.1
    obtain ⟨m, m1, m2, m3, m4, m5⟩ := ih (joined a b) (lostStep a (joined a b) k) (by
        refine ⟨?_, ?_⟩
        · intro t ht
          rcases List.mem_cons.mp ht with rfl | ht
          · exact joined_ne ha hb hs.le
          · exact hup.1 t (by simp [ht])
        · refine List.pairwise_cons.mpr ⟨?_, (List.pairwise_cons.mp hup').2⟩
          intro t ht
          have := (List.pairwise_cons.mp hup').1 t ht
          show a.start < t.start
          omega) (by rw [hst]; exact hun.2) (by
        intro t ht
        rcases List.mem_cons.mp ht with rfl | ht
        · rw [hst]
          have h1 := hc a (by simp)
          have h2 := hc b (by simp)
          omega
        · exact hc t (by simp [ht]))
    refine ⟨m, ?_, m2, m3, ?_, ?_⟩
    · rw [runsFrom, if_pos (by omega)]
      exact m1
    · intro q v h1 h2
      exact m4 q v ((joined_values ha hb hs).1 h1 (h2 b (by simp))) fun t ht => h2 t (by simp only [List.mem_cons]; exact Or.inr ht)
    · intro t ht q v h3 h4 h5
      have hcov : Covers t q := by
        obtain ⟨q1, q2⟩ := mem_samples_single.mp h3
        have htn : t.data ≠ [] := by
          intro h0
          rw [h0] at q2
          simp at q2
        have := stop_of_ne htn
        refine ⟨q1, ?_⟩
        by_contra hc
        rw [List.getElem?_eq_none (by omega)] at q2
        simp at q2
      by_cases htb : t = b
      · subst htb
        refine m4 q v ((joined_values ha hb hs).2 h3 h4) ?_
        intro t' ht'
        refine h5 t' (by simp only [List.mem_cons]; exact Or.inr ht') ?_
        rintro rfl
        rcases List.mem_append.mp ht' with h | h
        · have := (List.pairwise_cons.mp hup').1 t' h
          omega
        · rw [List.mem_singleton.mp h] at h2
          have := hc t' (by simp)
          have hcn' := List.length_pos_iff.mpr hb
          rw [List.mem_singleton.mp h] at this hcn'
          omega
      · have ht' : t ∈ l ++ [c] := by
          rcases List.mem_cons.mp ht with h | h
          · exact absurd h htb
          · exact h
        by_cases hq : (joined a b).stop < q
        · exact m5 t ht' q v h3 hq fun t' h6 h7 => h5 t' (by simp only [List.mem_cons]; exact Or.inr h6) h7
        · exfalso
          rw [hst] at hq
          have hbs : b.start < t.start := by
            rcases List.mem_append.mp ht' with h | h
            · exact (List.pairwise_cons.mp hup').1 t h
            · rw [List.mem_singleton.mp h]
              have := hc b (by simp)
              have hcn' := List.length_pos_iff.mpr hb
              omega
          have := hcov.1
          exact h5 b (by simp) (fun h => htb h.symm) ⟨by omega, by omega⟩

/-- **C54, overlaps followed by more data.** If an unbroken stretch of traces, with any overlaps in it, is followed within
30 ms by another trace that overlaps none of them, then nothing is lost: the result is one trace from the beginning to the
end, and it has every sample that lies outside the overlaps. Missing: overlaps not followed by more data
(`C54_exact_partial`). -/
theorem C54_rejoined_partial (a : Trace) (l : List Trace) (c : Trace) (hup : StartsUp (a :: l ++ [c]))
    (hun : Unbroken a.stop (l ++ [c])) (hc : ∀ t ∈ a :: l, t.stop < c.start) :
    ∃ m, mergeGaps (a :: l ++ [c]) = [m] ∧ m.start = a.start ∧ m.stop = c.stop ∧
      ∀ t ∈ a :: l ++ [c], ∀ q ∈ samples [t], (∀ t' ∈ a :: l ++ [c], t' ≠ t → ¬ Covers t' q.1) → q ∈ samples [m] := by
  obtain ⟨u1, u2, u3⟩ := List.pairwise_append.mp hup.2
  have ha := hup.1 a (by simp)
  have hp : StartsUp (a :: l) := ⟨fun t ht => hup.1 t (by simp only [List.mem_append]; exact Or.inl ht), u1⟩
  obtain ⟨m, m1, m2, m3, m4, m5⟩ := runsFrom_rejoined a 0 l c hp (hup.1 c (by simp)) hun hc
  have hlt : ∀ t ∈ l ++ [c], a.start < t.start := by
    have := hup.2
    rw [List.cons_append] at this
    exact (List.pairwise_cons.mp this).1
  refine ⟨m, by rw [List.cons_append, mergeGaps_runs (by simpa using hup)]; exact m1, m2, m3, ?_⟩
  rintro t ht ⟨q, v⟩ hq hno
  rw [List.cons_append] at ht hno
  rcases List.mem_cons.mp ht with rfl | ht
  · refine m4 q v hq fun t' ht' => hno t' (by simp only [List.mem_cons]; exact Or.inr ht') ?_
    rintro rfl
    have := hlt t' ht'
    omega
  · refine m5 t ht q v hq ?_ fun t' ht' h => hno t' (by simp only [List.mem_cons]; exact Or.inr ht') h
    by_contra hle
    have h1 := hlt t ht
    have h2 := (mem_samples_single.mp hq).1
    exact hno a (by simp) (by rintro rfl; omega) ⟨by omega, by omega⟩

/-- The overlap that costs the whole first trace costs nothing if another trace follows. -/
example : mergeGaps [⟨0, [1, 2, 3, 4]⟩, ⟨3, [9, 10]⟩] = [⟨4, [10]⟩] ∧
    mergeGaps [⟨0, [1, 2, 3, 4]⟩, ⟨3, [9, 10]⟩, ⟨5, [7]⟩] = [⟨0, [1, 2, 3, 6, 10, 7]⟩] ∧
    StartsUp [⟨0, [1, 2, 3, 4]⟩, ⟨3, [9, 10]⟩, ⟨5, [7]⟩] ∧ Unbroken 3 [⟨3, [9, 10]⟩, ⟨5, [7]⟩] := by
  refine ⟨by decide +kernel, by decide +kernel, ⟨by decide, by decide⟩, ?_⟩
  refine ⟨by decide, by decide, trivial⟩

/-- A record in order, an overlap that follows it, and a later trace. -/
example : mergeGaps ([⟨0, [5, 6]⟩, ⟨10, [1, 2]⟩, ⟨12, [3, 4]⟩] ++ [⟨13, [9, 10]⟩, ⟨30, [1]⟩]) =
      [⟨0, [5, 6]⟩] ++ mergeGaps [⟨10, [1, 2, 3, 4]⟩, ⟨13, [9, 10]⟩] ++ [⟨30, [1]⟩] ∧
    StartsUp ([⟨0, [5, 6]⟩, ⟨10, [1, 2]⟩, ⟨12, [3, 4]⟩] ++ [⟨13, [9, 10]⟩, ⟨30, [1]⟩]) := by
  refine ⟨by decide +kernel, by decide, by decide⟩

end Gemlog
