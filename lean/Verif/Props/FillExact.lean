import Verif.Props.Fill

/-! # C88: exactly when the interpolation of short gaps fails, and what it does otherwise -/

namespace Gemlog

theorem start_le_stop_of {segs : List Trace} (hA : Separate segs) {k : Nat} {a : Trace} (ha : segs[k]? = some a) : a.start ≤ a.stop := by
  have h1 := hA.1 a (List.mem_of_getElem? ha)
  have h2 := stop_of_ne h1
  have h3 : 0 < a.data.length := List.length_pos_iff.mpr h1
  omega

theorem run_covers {segs : List Trace} (hA : Separate segs) {k : Nat} {a : Trace} (ha : segs[k]? = some a) {t : Int} (h1 : a.start ≤ t)
    (h2 : t ≤ a.stop) : ∃ v, (t, v) ∈ samples segs := by
  obtain ⟨v, hv⟩ := toM_full (hA.1 a (List.mem_of_getElem? ha)) h1 h2
  exact ⟨v, List.mem_flatMap.mpr ⟨a, List.mem_of_getElem? ha, (toM_at _ _ _).mp hv⟩⟩

theorem run_of {segs : List Trace} {q : Int × Int} (hq : q ∈ samples segs) :
    ∃ (k : Nat) (a : Trace), segs[k]? = some a ∧ a.start ≤ q.1 ∧ q.1 ≤ a.stop := by
  obtain ⟨c, hc, hcq⟩ := List.mem_flatMap.mp (show q ∈ segs.flatMap fun tr => stamps tr.start tr.data from hq)
  obtain ⟨k, hk⟩ := List.mem_iff_getElem?.mp hc
  exact ⟨k, c, hk, (mem_stamps_range hcq).1, sample_le_stop hcq⟩

/-- A time between two recorded samples is recorded or lies in a gap. -/
theorem gap_at {segs : List Trace} (hA : Separate segs) {t : Int} {q r : Int × Int} (hq : q ∈ samples segs) (hr : r ∈ samples segs)
    (h1 : q.1 ≤ t) (h2 : t ≤ r.1) :
    (∃ v, (t, v) ∈ samples segs) ∨ ∃ (k : Nat) (a b : Trace), segs[k]? = some a ∧ segs[k + 1]? = some b ∧ a.stop < t ∧ t < b.start := by
  classical
  obtain ⟨i, a, ha, ha1, ha2⟩ := run_of hq
  obtain ⟨j, b, hb, hb1, hb2⟩ := run_of hr
  have hex : ∃ k : Nat, ∃ c : Trace, segs[k]? = some c ∧ t ≤ c.stop := ⟨j, b, hb, by omega⟩
  obtain ⟨c, hc, hct⟩ := Nat.find_spec hex
  rcases hk : Nat.find hex with _ | k
  · rw [hk] at hc
    have := apart_get_le hA hc ha (Nat.zero_le _)
    exact .inl (run_covers hA hc (by omega) hct)
  · rw [hk] at hc
    have hlt : k < segs.length := by
      have := (List.getElem?_eq_some_iff.mp hc).1
      omega
    have hk' : ¬ ∃ c : Trace, segs[k]? = some c ∧ t ≤ c.stop := Nat.find_min hex (by omega)
    have hd : segs[k]? = some segs[k] := List.getElem?_eq_getElem hlt
    have hd2 : segs[k].stop < t := by
      by_contra h
      exact hk' ⟨_, hd, by omega⟩
    by_cases hs : c.start ≤ t
    · exact .inl (run_covers hA hc hs hct)
    · exact .inr ⟨k, _, c, hd, hc, hd2, by omega⟩

/-- What the loop has added after `n` passes, by time. -/
structure CoverInv (g : Int) (segs F : List Trace) (n : Nat) : Prop where
  nonempty : ∀ tr ∈ F, tr.data ≠ []
  consistent : Consistent (samples (segs ++ F))
  inGap : ∀ q ∈ samples F, (∃ v, (q.1, v) ∈ samples segs) ∨
    ∃ (k : Nat) (a b : Trace), segs[k]? = some a ∧ segs[k + 1]? = some b ∧ b.start - a.stop < g ∧ a.stop < q.1 ∧ q.1 < b.start
  upper : ∀ q ∈ samples F, ∃ j < n, ∃ a b, segs[j]? = some a ∧ segs[j + 1]? = some b ∧ b.start - a.stop < g ∧
    ∃ r ∈ samples segs, q.1 ≤ r.1 ∧ r.1 ≤ b.start + g
  filled : ∀ k < n, ∀ a b, segs[k]? = some a → segs[k + 1]? = some b → b.start - a.stop < g →
    ∀ t, a.stop < t → t < b.start → ∃ v, (t, v) ∈ samples F

theorem CoverInv.here {g : Int} {segs F : List Trace} {n : Nat} (h : CoverInv g segs F n) {q : Int × Int}
    (hq : q ∈ samples (segs ++ F)) : (∃ v, (q.1, v) ∈ samples segs) ∨
    ∃ (k : Nat) (a b : Trace), segs[k]? = some a ∧ segs[k + 1]? = some b ∧ b.start - a.stop < g ∧ a.stop < q.1 ∧ q.1 < b.start := by
  rw [samples_append, List.mem_append] at hq
  rcases hq with hq | hq
  · exact .inl ⟨q.2, hq⟩
  · exact h.inGap q hq

/-- A pass for a short gap. -/
theorem interp_pass {spline : List (Int × Int) → Int → Rat} {g : Int} {segs F : List Trace} {n : Nat} {a b : Trace} (hA : Separate segs)
    (hg : ∀ (k : Nat) (a b : Trace), segs[k]? = some a → segs[k + 1]? = some b → b.start - a.stop ≠ g)
    (ha : segs[n]? = some a) (hb : segs[n + 1]? = some b) (hgap : b.start - a.stop < g) (h : CoverInv g segs F n) :
    ∃ m : MTrace, interpStep spline g segs (segs ++ F) n
        = (if m.data.all Option.isSome then .error .other else .ok (segs ++ (F ++ [fillMasked spline m]))) ∧
      (∀ t x, m.at t = some x ↔ (t, x) ∈ samples (segs ++ F) ∧ a.stop - g ≤ t ∧ t ≤ b.start + g) ∧
      (∃ x, m.at m.start = some x) ∧ (∃ x, m.at m.stop = some x) ∧ CoverInv g segs (F ++ [fillMasked spline m]) (n + 1) := by
  have ham := List.mem_of_getElem? ha
  have hbm := List.mem_of_getElem? hb
  have hane := hA.1 a ham
  have hbne := hA.1 b hbm
  have hab := apart_get_lt hA ha hb (Nat.lt_succ_self n)
  have hal := start_le_stop_of hA ha
  obtain ⟨xa, hxa⟩ := stop_mem ham hane
  obtain ⟨xb, hxb⟩ := mem_samples_start hbm hbne
  have hxa' : (a.stop, xa) ∈ samples (segs ++ F) := by rw [samples_append]; exact List.mem_append_left _ hxa
  have hxb' : (b.start, xb) ∈ samples (segs ++ F) := by rw [samples_append]; exact List.mem_append_left _ hxb
  obtain ⟨m, m1, m2, ⟨vs, m3⟩, ve, m4⟩ := cut_merge (lo := a.stop - g) (hi := b.start + g) h.consistent hxa' (by omega) (by omega)
  have ra := at_some_range ((m2 _ _).mpr ⟨hxa', by omega, by omega⟩)
  have rb := at_some_range ((m2 _ _).mpr ⟨hxb', by omega, by omega⟩)
  have ws := (m2 _ _).mp m3
  have we := (m2 _ _).mp m4
  have hfs := fillMasked_samples spline m
  have hmem : ∀ q, q ∈ samples (F ++ [fillMasked spline m]) ↔ q ∈ samples F ∨
      q ∈ stamps (fillMasked spline m).start (fillMasked spline m).data := by
    intro q
    rw [samples_append, List.mem_append, samples_cons (fillMasked spline m), samples_nil, List.append_nil]
  have hrange : ∀ q ∈ stamps (fillMasked spline m).start (fillMasked spline m).data, m.start ≤ q.1 ∧ q.1 ≤ m.stop := by
    intro q hq
    rcases (hfs q.1 q.2).mp hq with h' | ⟨k1, k2, _⟩
    · exact at_some_range h'
    · exact ⟨k1, k2⟩
  refine ⟨m, ?_, m2, ⟨vs, m3⟩, ⟨ve, m4⟩, ?_, ?_, ?_, ?_, ?_⟩
  · unfold interpStep
    rw [ha, hb]
    simp only
    rw [if_pos hgap, m1]
    simp only [List.append_assoc]
  · intro tr htr
    rcases List.mem_append.mp htr with h' | h'
    · exact h.nonempty tr h'
    · rw [List.mem_singleton.mp h']
      intro he
      have := (hfs a.stop xa).mpr (Or.inl ((m2 _ _).mpr ⟨hxa', by omega, by omega⟩))
      rw [he] at this
      simp [stamps] at this
  · intro t v w hv hw
    have split : ∀ {v}, (t, v) ∈ samples (segs ++ (F ++ [fillMasked spline m])) → (t, v) ∈ samples (segs ++ F) ∨
        (m.start ≤ t ∧ t ≤ m.stop ∧ m.at t = none ∧ v = pyTrunc (spline (goodPoints 0 m.data) (t - m.start))) := by
      intro v hv
      rw [← List.append_assoc, samples_append, List.mem_append, samples_cons (fillMasked spline m), samples_nil, List.append_nil] at hv
      rcases hv with hv | hv
      · exact .inl hv
      · rcases (hfs t v).mp hv with hv | hv
        · exact .inl ((m2 _ _).mp hv).1
        · exact .inr hv
    rcases split hv with hv | hv <;> rcases split hw with hw | hw
    · exact h.consistent t v w hv hw
    · exfalso
      have := (m2 t v).mpr ⟨hv, by omega, by omega⟩
      rw [hw.2.2.1] at this
      simp at this
    · exfalso
      have := (m2 t w).mpr ⟨hw, by omega, by omega⟩
      rw [hv.2.2.1] at this
      simp at this
    · rw [hv.2.2.2, hw.2.2.2]
  · intro q hq
    rcases (hmem q).mp hq with hq | hq
    · exact h.inGap q hq
    rcases (hfs q.1 q.2).mp hq with hq' | ⟨k1, k2, _, _⟩
    · exact h.here ((m2 _ _).mp hq').1
    -- recorded samples on both sides
    obtain ⟨r1, hr1, hr1t⟩ : ∃ r ∈ samples segs, r.1 ≤ q.1 := by
      rcases h.here ws.1 with ⟨v, hv⟩ | ⟨k, a', b', hk1, hk2, _, hk4, _⟩
      · exact ⟨_, hv, k1⟩
      · obtain ⟨v, hv⟩ := stop_mem (List.mem_of_getElem? hk1) (hA.1 a' (List.mem_of_getElem? hk1))
        exact ⟨_, hv, by simp only at hk4 ⊢; omega⟩
    obtain ⟨r2, hr2, hr2t⟩ : ∃ r ∈ samples segs, q.1 ≤ r.1 := by
      rcases h.here we.1 with ⟨v, hv⟩ | ⟨k, a', b', hk1, hk2, _, _, hk5⟩
      · exact ⟨_, hv, k2⟩
      · obtain ⟨v, hv⟩ := mem_samples_start (List.mem_of_getElem? hk2) (hA.1 b' (List.mem_of_getElem? hk2))
        exact ⟨_, hv, by simp only at hk5 ⊢; omega⟩
    rcases gap_at hA hr1 hr2 hr1t hr2t with h' | ⟨k, a', b', hka, hkb, g1, g2⟩
    · exact .inl h'
    refine .inr ⟨k, a', b', hka, hkb, ?_, g1, g2⟩
    have hne' := hg k a' b' hka hkb
    have la' := start_le_stop_of hA hka
    rcases Nat.lt_trichotomy k n with hk | hk | hk
    · -- before
      have e1 := apart_get_le hA hkb ha hk
      rcases h.here ws.1 with ⟨v, hv⟩ | ⟨k', a2, b2, l1, l2, l3, l4, l5⟩
      · rcases apart_between hA hka hkb hv with h' | h' <;> simp only at h' <;> omega
      · simp only at l4 l5
        have la2 := start_le_stop_of hA l1
        rcases Nat.lt_trichotomy k' k with hk' | hk' | hk'
        · have := apart_get_le hA l2 hka hk'
          omega
        · subst hk'
          rw [hka] at l1; rw [hkb] at l2
          rw [← Option.some.inj l1, ← Option.some.inj l2] at l3
          exact l3
        · have := apart_get_le hA hkb l1 hk'
          omega
    · subst hk
      rw [ha] at hka; rw [hb] at hkb
      rw [← Option.some.inj hka, ← Option.some.inj hkb]
      exact hgap
    · -- after
      have e1 := apart_get_le hA hb hka hk
      rcases h.here we.1 with ⟨v, hv⟩ | ⟨k', a2, b2, l1, l2, l3, l4, l5⟩
      · rcases apart_between hA hka hkb hv with h' | h' <;> simp only at h' <;> omega
      · simp only at l4 l5
        have la2 := start_le_stop_of hA l1
        rcases Nat.lt_trichotomy k' k with hk' | hk' | hk'
        · have := apart_get_le hA l2 hka hk'
          omega
        · subst hk'
          rw [hka] at l1; rw [hkb] at l2
          rw [← Option.some.inj l1, ← Option.some.inj l2] at l3
          exact l3
        · have := apart_get_le hA hkb l1 hk'
          omega
  · intro q hq
    rcases (hmem q).mp hq with hq | hq
    · obtain ⟨j, hj, r⟩ := h.upper q hq
      exact ⟨j, by omega, r⟩
    · have hqs := (hrange q hq).2
      have he := we.1
      rw [samples_append, List.mem_append] at he
      rcases he with he | he
      · exact ⟨n, by omega, a, b, ha, hb, hgap, _, he, hqs, we.2.2⟩
      · obtain ⟨j, hj, a', b', j1, j2, j3, r, hr, r1, r2⟩ := h.upper _ he
        exact ⟨j, by omega, a', b', j1, j2, j3, r, hr, by simp only at r1; omega, r2⟩
  · intro k hk a' b' hka hkb hs t t1 t2
    rcases Nat.lt_or_eq_of_le (show k ≤ n by omega) with hk' | hk'
    · obtain ⟨v, hv⟩ := h.filled k hk' a' b' hka hkb hs t t1 t2
      exact ⟨v, (hmem _).mpr (.inl hv)⟩
    · subst hk'
      rw [ha] at hka; rw [hb] at hkb
      rw [← Option.some.inj hka] at t1
      rw [← Option.some.inj hkb] at t2
      cases hv : m.at t with
      | some v => exact ⟨v, (hmem _).mpr (.inr ((hfs t v).mpr (.inl hv)))⟩
      | none => exact ⟨_, (hmem _).mpr (.inr ((hfs t _).mpr (.inr ⟨by omega, by omega, hv, rfl⟩)))⟩

/-- A pass for a longer gap. -/
theorem interp_skip {spline : List (Int × Int) → Int → Rat} {g : Int} {segs F : List Trace} {n : Nat} {a b : Trace}
    (ha : segs[n]? = some a) (hb : segs[n + 1]? = some b) (hgap : ¬ b.start - a.stop < g) (h : CoverInv g segs F n) :
    interpStep spline g segs (segs ++ F) n = .ok (segs ++ F) ∧ CoverInv g segs F (n + 1) := by
  refine ⟨?_, h.nonempty, h.consistent, h.inGap, ?_, ?_⟩
  · unfold interpStep
    rw [ha, hb]
    simp only
    rw [if_neg hgap]
  · intro q hq
    obtain ⟨j, hj, r⟩ := h.upper q hq
    exact ⟨j, by omega, r⟩
  · intro k hk a' b' hka hkb hs
    rcases Nat.lt_or_eq_of_le (show k ≤ n by omega) with hk' | hk'
    · exact h.filled k hk' a' b' hka hkb hs
    · subst hk'
      rw [ha] at hka; rw [hb] at hkb
      rw [← Option.some.inj hka, ← Option.some.inj hkb] at hs
      exact absurd hs hgap

theorem coverInv_zero {g : Int} {segs : List Trace} (hA : Separate segs) : CoverInv g segs [] 0 := by
  refine ⟨by simp, ?_, ?_, ?_, by intro k hk; omega⟩
  · rw [List.append_nil]; exact increasing_consistent (apart_increasing hA)
  · intro q hq; simp [samples_nil] at hq
  · intro q hq; simp [samples_nil] at hq

theorem foldlM_range_succ {spline : List (Int × Int) → Int → Rat} {g : Int} {segs : List Trace} {n : Nat} {st : List Trace}
    (h : (List.range n).foldlM (interpStep spline g segs) segs = .ok st) :
    (List.range (n + 1)).foldlM (interpStep spline g segs) segs = interpStep spline g segs st n := by
  rw [List.range_succ, List.foldlM_append, h]
  show List.foldlM (interpStep spline g segs) st [n] = _
  rw [List.foldlM_cons]
  cases interpStep spline g segs st n <;> rfl

theorem foldlM_range_error {spline : List (Int × Int) → Int → Rat} {g : Int} {segs : List Trace} {n N : Nat} {x : Exc} (hN : n ≤ N)
    (h : (List.range n).foldlM (interpStep spline g segs) segs = .error x) :
    (List.range N).foldlM (interpStep spline g segs) segs = .error x := by
  induction N, hN using Nat.le_induction with
  | base => exact h
  | succ N _ ih => rw [List.range_succ, List.foldlM_append, ih]; rfl

theorem loop_cases {spline : List (Int × Int) → Int → Rat} {g : Int} {segs : List Trace} (hA : Separate segs)
    (hg : ∀ (k : Nat) (a b : Trace), segs[k]? = some a → segs[k + 1]? = some b → b.start - a.stop ≠ g) :
    ∀ n, n + 1 ≤ segs.length → (List.range n).foldlM (interpStep spline g segs) segs = .error .other ∨
      ∃ F, (List.range n).foldlM (interpStep spline g segs) segs = .ok (segs ++ F) ∧ CoverInv g segs F n := by
  intro n
  induction n with
  | zero => intro _; exact .inr ⟨[], by rw [List.append_nil]; rfl, coverInv_zero hA⟩
  | succ n ih =>
    intro hn
    rcases ih (by omega) with h | ⟨F, h1, h2⟩
    · exact .inl (foldlM_range_error (by omega) h)
    · have ha : segs[n]? = some segs[n] := List.getElem?_eq_getElem (by omega)
      have hb : segs[n + 1]? = some segs[n + 1] := List.getElem?_eq_getElem (by omega)
      rw [foldlM_range_succ h1]
      by_cases hgap : segs[n + 1].start - segs[n].stop < g
      · obtain ⟨m, e, _, _, _, hi⟩ := interp_pass (spline := spline) hA hg ha hb hgap h2
        rw [e]
        split_ifs
        · exact .inl rfl
        · exact .inr ⟨_, rfl, hi⟩
      · obtain ⟨e, hi⟩ := interp_skip (spline := spline) ha hb hgap h2
        exact .inr ⟨F, e, hi⟩

/-- Two gaps, numbers `i` and `i + 1`, are close together (helper). -/
def CloseGaps (g : Int) (segs : List Trace) (i : Nat) : Prop :=
  ∃ x y z, segs[i]? = some x ∧ segs[i + 1]? = some y ∧ segs[i + 2]? = some z ∧
    y.start - x.stop < g ∧ z.start - y.stop < g ∧ z.start ≤ y.start + g

theorem loop_ok {spline : List (Int × Int) → Int → Rat} {g : Int} {segs : List Trace} (hA : Separate segs)
    (hg : ∀ (k : Nat) (a b : Trace), segs[k]? = some a → segs[k + 1]? = some b → b.start - a.stop ≠ g)
    (hno : ∀ i, ¬ CloseGaps g segs i) : ∀ n, n + 1 ≤ segs.length →
      ∃ F, (List.range n).foldlM (interpStep spline g segs) segs = .ok (segs ++ F) ∧ CoverInv g segs F n := by
  intro n
  induction n with
  | zero => intro _; exact ⟨[], by rw [List.append_nil]; rfl, coverInv_zero hA⟩
  | succ n ih =>
    intro hn
    obtain ⟨F, h1, h2⟩ := ih (by omega)
    have ha : segs[n]? = some segs[n] := List.getElem?_eq_getElem (by omega)
    have hb : segs[n + 1]? = some segs[n + 1] := List.getElem?_eq_getElem (by omega)
    rw [foldlM_range_succ h1]
    generalize segs[n] = a at ha
    generalize segs[n + 1] = b at hb
    by_cases hgap : b.start - a.stop < g
    · obtain ⟨m, e, m2, _, _, hi⟩ := interp_pass (spline := spline) hA hg ha hb hgap h2
      have hab := apart_get_lt hA ha hb (Nat.lt_succ_self n)
      have ham := List.mem_of_getElem? ha
      have hbm := List.mem_of_getElem? hb
      obtain ⟨xa, hxa⟩ := stop_mem ham (hA.1 a ham)
      obtain ⟨xb, hxb⟩ := mem_samples_start hbm (hA.1 b hbm)
      have ra := at_some_range ((m2 a.stop xa).mpr ⟨by rw [samples_append]; exact List.mem_append_left _ hxa, by omega, by omega⟩)
      have rb := at_some_range ((m2 b.start xb).mpr ⟨by rw [samples_append]; exact List.mem_append_left _ hxb, by omega, by omega⟩)
      have hnone : m.at (a.stop + 1) = none := by
        cases hv : m.at (a.stop + 1) with
        | none => rfl
        | some v =>
          exfalso
          have hq := ((m2 _ _).mp hv).1
          rw [samples_append, List.mem_append] at hq
          rcases hq with hq | hq
          · rcases apart_between hA ha hb hq with h | h <;> simp only at h <;> omega
          · obtain ⟨j, hj, a', b', j1, j2, j3, r, hr, r1, r2⟩ := h2.upper _ hq
            simp only at r1
            have hrb : b.start ≤ r.1 := by
              rcases apart_between hA ha hb hr with h | h
              · omega
              · exact h
            have hjl : j + 2 < segs.length := by omega
            have hz : segs[j + 2]? = some segs[j + 2] := List.getElem?_eq_getElem hjl
            have hzb := apart_get_le hA hz hb (by omega)
            have hne := hg (j + 1) _ _ j2 hz
            have lb := start_le_stop_of hA j2
            exact hno j ⟨a', b', _, j1, j2, hz, j3, by omega, by omega⟩
      have hall : m.data.all Option.isSome = false := by
        rw [Bool.eq_false_iff]
        intro h'
        exact at_none_iff_data.mp h' (a.stop + 1) (by omega) (by omega) hnone
      rw [e, hall]
      exact ⟨_, rfl, hi⟩
    · obtain ⟨e, hi⟩ := interp_skip (spline := spline) ha hb hgap h2
      exact ⟨F, e, hi⟩

theorem close_last_fails {spline : List (Int × Int) → Int → Rat} {g : Int} {segs : List Trace} (hA : Separate segs)
    (hg : ∀ (k : Nat) (a b : Trace), segs[k]? = some a → segs[k + 1]? = some b → b.start - a.stop ≠ g)
    {i : Nat} (h : CloseGaps g segs i) (hlast : ¬ CloseGaps g segs (i + 1)) :
    (List.range (segs.length - 1)).foldlM (interpStep spline g segs) segs = .error .other := by
  obtain ⟨x, y, z, hx, hy, hz, c1, c2, c3⟩ := h
  have hlen := (List.getElem?_eq_some_iff.mp hz).1
  rcases loop_cases (spline := spline) hA hg i (by omega) with he | ⟨F, h1, h2⟩
  · exact foldlM_range_error (by omega) he
  apply foldlM_range_error (n := i + 2) (by omega)
  obtain ⟨m, e, m2, ⟨vs, m3⟩, ⟨ve, m4⟩, hi⟩ := interp_pass (spline := spline) hA hg hx hy c1 h2
  have s1 := foldlM_range_succ h1
  rw [e] at s1
  by_cases hall : m.data.all Option.isSome = true
  · rw [if_pos hall] at s1
    exact foldlM_range_error (by omega) s1
  rw [if_neg hall] at s1
  rw [foldlM_range_succ s1]
  obtain ⟨m', e', n2, ⟨vs', n3⟩, ⟨ve', n4⟩, hi'⟩ := interp_pass (spline := spline) hA hg hy hz c2 hi
  rw [e', if_pos]
  have hxy := apart_get_lt hA hx hy (Nat.lt_succ_self i)
  have hyz := apart_get_lt hA hy hz (Nat.lt_succ_self (i + 1))
  have ly := start_le_stop_of hA hy
  have lx := start_le_stop_of hA hx
  have hfs := fillMasked_samples spline m
  have hmem : ∀ q, q ∈ samples (segs ++ (F ++ [fillMasked spline m])) ↔ q ∈ samples (segs ++ F) ∨
      q ∈ stamps (fillMasked spline m).start (fillMasked spline m).data := by
    intro q
    rw [← List.append_assoc, samples_append, List.mem_append, samples_cons (fillMasked spline m), samples_nil, List.append_nil]
  have hzm := List.mem_of_getElem? hz
  have hxm := List.mem_of_getElem? hx
  obtain ⟨vz, hvz⟩ := mem_samples_start hzm (hA.1 z hzm)
  obtain ⟨vx, hvx⟩ := stop_mem hxm (hA.1 x hxm)
  have rz := at_some_range ((m2 z.start vz).mpr ⟨by rw [samples_append]; exact List.mem_append_left _ hvz, by omega, by omega⟩)
  have rx := at_some_range ((m2 x.stop vx).mpr ⟨by rw [samples_append]; exact List.mem_append_left _ hvx, by omega, by omega⟩)
  have hcover : ∀ t, m.start ≤ t → t ≤ m.stop → ∃ v, (t, v) ∈ samples (segs ++ (F ++ [fillMasked spline m])) := by
    intro t t1 t2
    cases hv : m.at t with
    | some v => exact ⟨v, (hmem _).mpr (.inr ((hfs t v).mpr (.inl hv)))⟩
    | none => exact ⟨_, (hmem _).mpr (.inr ((hfs t _).mpr (.inr ⟨t1, t2, hv, rfl⟩)))⟩
  have ws := (n2 _ _).mp n3
  have we := (n2 _ _).mp n4
  have hbeg : m.start ≤ m'.start := by
    rcases (hmem _).mp ws.1 with hq | hq
    · by_cases hle : m'.start ≤ y.start + g
      · exact (at_some_range ((m2 _ _).mpr ⟨hq, by omega, hle⟩)).1
      · omega
    · rcases (hfs _ _).mp hq with h' | h'
      · exact (at_some_range h').1
      · exact h'.1
  have hend : m'.stop ≤ z.stop := by
    obtain ⟨r, hr, r1, r2⟩ : ∃ r ∈ samples segs, m'.stop ≤ r.1 ∧ r.1 ≤ z.start + g := by
      have he := we.1
      rw [samples_append, List.mem_append] at he
      rcases he with he | he
      · exact ⟨_, he, le_refl _, we.2.2⟩
      · obtain ⟨j, hj, a', b', j1, j2, j3, r, hr, r1, r2⟩ := hi.upper _ he
        have := apart_get_le hA j2 hy (by omega)
        exact ⟨r, hr, r1, by omega⟩
    by_cases hl : i + 3 < segs.length
    · have hw : segs[i + 2 + 1]? = some segs[i + 3] := List.getElem?_eq_getElem hl
      have hne := hg (i + 2) _ _ hz hw
      have lz := start_le_stop_of hA hz
      rcases apart_between hA hz hw hr with h' | h'
      · omega
      · exfalso
        exact hlast ⟨y, z, _, hy, hz, hw, c2, by omega, by omega⟩
    · obtain ⟨k, c, hc, k1, k2⟩ := run_of hr
      have hkl := (List.getElem?_eq_some_iff.mp hc).1
      rcases Nat.lt_or_eq_of_le (show k ≤ i + 2 by omega) with hk | hk
      · have := apart_get_lt hA hc hz hk
        have := start_le_stop_of hA hz
        omega
      · subst hk
        rw [hz] at hc
        rw [← Option.some.inj hc] at k2
        omega
  rw [at_none_iff_data]
  intro t t1 t2 ht
  obtain ⟨v, hv⟩ : ∃ v, (t, v) ∈ samples (segs ++ (F ++ [fillMasked spline m])) := by
    by_cases hle : t ≤ m.stop
    · exact hcover t (by omega) hle
    · obtain ⟨v, hv⟩ := run_covers hA hz (t := t) (by omega) (by omega)
      exact ⟨v, by rw [samples_append]; exact List.mem_append_left _ hv⟩
  rw [(n2 t v).mpr ⟨hv, by omega, by omega⟩] at ht
  simp at ht

theorem close_fails {spline : List (Int × Int) → Int → Rat} {g : Int} {segs : List Trace} (hA : Separate segs)
    (hg : ∀ (k : Nat) (a b : Trace), segs[k]? = some a → segs[k + 1]? = some b → b.start - a.stop ≠ g) :
    ∀ (d i : Nat), segs.length ≤ i + d → CloseGaps g segs i →
      (List.range (segs.length - 1)).foldlM (interpStep spline g segs) segs = .error .other := by
  intro d
  induction d with
  | zero =>
    intro i hd h
    obtain ⟨_, _, _, _, _, hz, _⟩ := h
    have := (List.getElem?_eq_some_iff.mp hz).1
    omega
  | succ d ih =>
    intro i hd h
    by_cases h' : CloseGaps g segs (i + 1)
    · exact ih (i + 1) (by omega) h'
    · exact close_last_fails hA hg h h'

/-- **C88, exactly when it fails, and what it fills.** Let `segs` be the runs of the record, and let no gap be exactly `g` hundredths of a
second long. The interpolation fails if and only if somewhere two neighbouring gaps shorter than `g` are so close that the second one ends at
most `g` after the first one. Otherwise it keeps all recorded samples, fills all gaps shorter than `g` completely, and adds nothing else.
Missing: gaps of exactly `g` (`C88_violated_limit`: they can be filled). The values in the gaps are in `C88_filled_partial`. -/
theorem C88_exact_partial {spline : List (Int × Int) → Int → Rat} {g : Int} {st segs : List Trace} (hne : ∀ tr ∈ st, tr.data ≠ [])
    (hc : Consistent (samples st)) (hA : Separate segs) (hs : ∀ q, q ∈ samples segs ↔ q ∈ samples st)
    (hg : ∀ (k : Nat) (a b : Trace), segs[k]? = some a → segs[k + 1]? = some b → b.start - a.stop ≠ g) :
    let Close := ∃ (i : Nat) (x y z : Trace), segs[i]? = some x ∧ segs[i + 1]? = some y ∧ segs[i + 2]? = some z ∧
      y.start - x.stop < g ∧ z.start - y.stop < g ∧ z.start ≤ y.start + g
    (Close → interpolateStream spline g st = .error .other) ∧
    (¬ Close → ∃ out, interpolateStream spline g st = .ok out ∧ Separate out ∧ (∀ q ∈ samples st, q ∈ samples out) ∧
      ∀ t, (∃ v, (t, v) ∈ samples out) ↔ (∃ v, (t, v) ∈ samples st) ∨
        ∃ (k : Nat) (a b : Trace), segs[k]? = some a ∧ segs[k + 1]? = some b ∧ b.start - a.stop < g ∧ a.stop < t ∧ t < b.start) := by
  have hr := remerge_spec hne hc
  have e : remerge st = segs := apart_unique hr.1 hA fun q => (hr.2 q).trans (hs q).symm
  intro Close
  refine ⟨?_, ?_⟩
  · rintro ⟨i, hi⟩
    have hl : i + 2 < segs.length := by
      obtain ⟨_, _, _, _, _, hz, _⟩ := hi
      exact (List.getElem?_eq_some_iff.mp hz).1
    have := close_fails (spline := spline) hA hg segs.length i (by omega) hi
    unfold interpolateStream
    dsimp only
    rw [e, if_neg (by omega), this]
  · intro hno
    have hno' : ∀ i, ¬ CloseGaps g segs i := fun i hi => hno ⟨i, hi⟩
    by_cases h1 : segs.length ≤ 1
    · have hout : interpolateStream spline g st = .ok segs := by
        unfold interpolateStream
        dsimp only
        rw [e]
        by_cases h2 : segs.length = 1
        · rw [if_pos h2]
        · have : segs = [] := List.length_eq_zero_iff.mp (by omega)
          subst this
          rfl
      refine ⟨segs, hout, hA, fun q hq => (hs q).mpr hq, ?_⟩
      intro t
      constructor
      · rintro ⟨v, hv⟩
        exact .inl ⟨v, (hs _).mp hv⟩
      · rintro (⟨v, hv⟩ | ⟨k, a, b, _, hb, _⟩)
        · exact ⟨v, (hs _).mpr hv⟩
        · have := (List.getElem?_eq_some_iff.mp hb).1
          omega
    · obtain ⟨F, h2, h3⟩ := loop_ok (spline := spline) hA hg hno' (segs.length - 1) (by omega)
      have hr' := remerge_spec (l := segs ++ F) (by
        intro tr htr
        rcases List.mem_append.mp htr with h | h
        · exact hA.1 tr h
        · exact h3.nonempty tr h) h3.consistent
      refine ⟨remerge (segs ++ F), by unfold interpolateStream; dsimp only; rw [e, if_neg (by omega), h2], hr'.1, ?_, ?_⟩
      · intro q hq
        rw [hr'.2, samples_append]
        exact List.mem_append_left _ ((hs q).mpr hq)
      · intro t
        constructor
        · rintro ⟨v, hv⟩
          rcases h3.here ((hr'.2 _).mp hv) with ⟨v, hv⟩ | h
          · exact .inl ⟨v, (hs _).mp hv⟩
          · exact .inr h
        · rintro (⟨v, hv⟩ | ⟨k, a, b, ha, hb, hgap, t1, t2⟩)
          · refine ⟨v, (hr'.2 _).mpr ?_⟩
            rw [samples_append]
            exact List.mem_append_left _ ((hs _).mpr hv)
          · have hk := (List.getElem?_eq_some_iff.mp hb).1
            obtain ⟨v, hv⟩ := h3.filled k (by omega) a b ha hb hgap t t1 t2
            refine ⟨v, (hr'.2 _).mpr ?_⟩
            rw [samples_append]
            exact List.mem_append_right _ hv

/-- Four runs whose gaps are all shorter than the limit; the second run is short, but the third one begins late enough. -/
def shortRuns : List Trace := [⟨0, [1, 2]⟩, ⟨4, [3, 4, 5, 6]⟩, ⟨10, [7, 8, 9, 10, 11, 12]⟩, ⟨18, [13]⟩]

/-- They meet the hypotheses of the second case, but not those of `C88_filled_partial`: the second run is not longer than the limit. -/
example : Separate shortRuns ∧ (∀ tr ∈ shortRuns, tr.data ≠ []) ∧
    (interpolateStream demoLine 5 shortRuns).toOption = some [⟨0, [1, 2, 2, 3, 3, 4, 5, 6, 6, 7, 7, 8, 9, 10, 11, 12, 11, 12, 13]⟩] ∧
    (∀ (k : Nat) (a b : Trace), shortRuns[k]? = some a → shortRuns[k + 1]? = some b → b.start - a.stop ≠ 5) := by
  refine ⟨⟨by simp [shortRuns], by simp [shortRuns, Trace.stop]⟩, by simp [shortRuns], by decide +kernel, ?_⟩
  intro k a b h1 h2
  have hk : k < 3 := by
    have := (List.getElem?_eq_some_iff.mp h2).1
    simp [shortRuns] at this
    omega
  obtain rfl | rfl | rfl : k = 0 ∨ k = 1 ∨ k = 2 := by omega
  all_goals
    simp only [shortRuns, List.getElem?_cons_zero, List.getElem?_cons_succ, Option.some.injEq] at h1 h2
    subst h1 h2
    decide

/-- With a limit of six, the second gap ends six after the first one: it fails. -/
example : (interpolateStream demoLine 6 shortRuns).toOption = none := by decide +kernel

end Gemlog
