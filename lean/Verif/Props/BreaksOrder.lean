import Verif.Props.BreaksExact

/-!
# C55, fixes in any order

`C55_exact_partial` without the hypothesis that the fixes are in increasing order of time.
-/

namespace Gemlog

/-- Whether there is a fix later than the first of two successive fixes says whether there is one earlier than the second (helper). -/
def EvenStep (g : List (Rat × Rat)) (i : Nat) : Prop :=
  (∃ f ∈ g, (g.getD i (0, 0)).1 < f.1) ↔ (∃ f ∈ g, f.1 < (g.getD (i + 1) (0, 0)).1)

theorem extremeFix_isSome (better : Rat → Rat → Bool) (l : List (Rat × Rat)) : (extremeFix better l).isSome ↔ l ≠ [] := by
  constructor
  · rintro h rfl
    simp [extremeFix] at h
  · intro h
    obtain ⟨f, e⟩ := extremeFix_some better l h
    rw [e]; rfl

/-- What a step adds if no interval overlaps with it. -/
theorem plain_step (g : List (Rat × Rat)) {s : BreakState} (hs : s.starts.length = s.ends.length) (i : Nat) :
    ∃ s', (let starts := match extremeFix (fun x y => decide (x < y)) (g.filter fun f => decide (f.1 > (g.getD i (0, 0)).1)) with
        | some f => s.starts ++ [f.2]
        | none => s.starts
      match extremeFix (fun x y => decide (x > y)) (g.filter fun f => decide (f.1 < (g.getD (i + 1) (0, 0)).1)) with
      | some f => some { s with starts := starts, ends := s.ends ++ [f.2] }
      | none => some { s with starts := starts, minStart := (g.getD (i + 1) (0, 0)).1 }) = some s' ∧
      (EvenStep g i → s'.starts.length = s'.ends.length) := by
  have k1 : (extremeFix (fun x y => decide (x < y)) (g.filter fun f => decide (f.1 > (g.getD i (0, 0)).1))).isSome ↔
      ∃ f ∈ g, (g.getD i (0, 0)).1 < f.1 := by
    rw [extremeFix_isSome, Ne, List.filter_eq_nil_iff]
    simp only [decide_eq_true_eq, gt_iff_lt, not_forall, not_not, exists_prop]
  have k2 : (extremeFix (fun x y => decide (x > y)) (g.filter fun f => decide (f.1 < (g.getD (i + 1) (0, 0)).1))).isSome ↔
      ∃ f ∈ g, f.1 < (g.getD (i + 1) (0, 0)).1 := by
    rw [extremeFix_isSome, Ne, List.filter_eq_nil_iff]
    simp only [decide_eq_true_eq, not_forall, not_not, exists_prop]
  unfold EvenStep
  rw [← k1, ← k2]
  generalize extremeFix (fun x y => decide (x < y)) (g.filter fun f => decide (f.1 > (g.getD i (0, 0)).1)) = o1
  generalize extremeFix (fun x y => decide (x > y)) (g.filter fun f => decide (f.1 < (g.getD (i + 1) (0, 0)).1)) = o2
  cases o1 <;> cases o2 <;> simp [hs]

theorem gpsBreakStep_any {g : List (Rat × Rat)} {s : BreakState}
    (hs : s.starts.length = s.ends.length) {i : Nat} (hi : i + 1 < g.length) (h0 : i ≠ 0 ∨ g.length < 3) :
    ∃ s', gpsBreakStep g s i = some s' ∧ (EvenStep g i → s'.starts.length = s'.ends.length) := by
  unfold gpsBreakStep
  simp only
  have hb : broadcast s.starts s.ends = some (s.starts.zip s.ends) := by
    unfold broadcast
    rw [if_pos hs]
  rw [hb]
  simp only
  split_ifs with hw
  · have hne : (pySlice g ((i : Int) - 1) (i + 2)).map Prod.snd ≠ [] := by
      intro h
      rw [List.map_eq_nil_iff, pySlice_window g i hi] at h
      omega
    obtain ⟨hi', e1⟩ := maxOf_some hne
    obtain ⟨lo', e2⟩ := minOf_some hne
    rw [e1, e2]
    simp only
    generalize hW : (List.range (s.starts.zip s.ends).length).filter (fun k =>
      decide ((g.getD i (0, 0)).2 ≤ ((s.starts.zip s.ends).getD k (0, 0)).1) &&
        decide ((g.getD (i + 1) (0, 0)).2 ≥ ((s.starts.zip s.ends).getD k (0, 0)).2)) = w
    obtain ⟨a, e3⟩ := maxOf_some (l := w.map (fun k => s.starts.getD k 0) ++ [hi']) (by simp)
    obtain ⟨b, e4⟩ := maxOf_some (l := w.map (fun k => s.ends.getD k 0) ++ [lo']) (by simp)
    rw [e3, e4]
    have hk : ∀ k ∈ w, k < s.starts.length ∧ k < s.ends.length := by
      intro k hk
      rw [← hW, List.mem_filter, List.mem_range, List.length_zip] at hk
      have := hk.1
      omega
    have e5 : setAll s.starts w a = some (s.starts.mapIdx fun i x => if i ∈ w then a else x) := by
      unfold setAll
      rw [if_pos]
      rw [List.all_eq_true]
      intro k h
      exact decide_eq_true (hk k h).1
    have e6 : setAll s.ends w b = some (s.ends.mapIdx fun i x => if i ∈ w then b else x) := by
      unfold setAll
      rw [if_pos]
      rw [List.all_eq_true]
      intro k h
      exact decide_eq_true (hk k h).2
    simp only
    rw [e5, e6]
    exact ⟨_, rfl, fun _ => by simpa using hs⟩
  · exact plain_step g hs i

theorem gpsBreakLoop_any {g : List (Rat × Rat)} : ∀ (is : List Nat) (s : BreakState),
    s.starts.length = s.ends.length → (∀ i ∈ is, i + 1 < g.length ∧ (i ≠ 0 ∨ g.length < 3)) → (∀ i ∈ is.dropLast, EvenStep g i) →
    ∃ r, gpsBreakLoop g is s = some r
  | [], s, _, _, _ => ⟨s, rfl⟩
  | i :: is, s, hs, hi, he => by
    obtain ⟨s', e, hs'⟩ := gpsBreakStep_any hs (hi i (by simp)).1 (hi i (by simp)).2
    rw [gpsBreakLoop, e]
    cases is with
    | nil => exact ⟨s', rfl⟩
    | cons k is =>
      exact gpsBreakLoop_any (k :: is) s' (hs' (he i (by simp [List.dropLast]))) (fun j hj => hi j (by simp [hj]))
        fun j hj => he j (by rw [List.dropLast_cons_of_ne_nil (by simp)]; exact List.mem_cons_of_mem _ hj)

/-- The first of at least three fixes: the step fails exactly if an interval of the samples overlaps with it. -/
theorem gpsBreakStep_zero_any {g : List (Rat × Rat)} (h3 : 3 ≤ g.length) (lims : List (Rat × Rat)) (lo : Rat) :
    ((∃ p ∈ lims, (g.getD 0 (0, 0)).2 ≤ p.1 ∧ p.2 ≤ (g.getD 1 (0, 0)).2) →
      gpsBreakStep g ⟨lims.map Prod.fst, lims.map Prod.snd, lo⟩ 0 = none) ∧
    ((¬∃ p ∈ lims, (g.getD 0 (0, 0)).2 ≤ p.1 ∧ p.2 ≤ (g.getD 1 (0, 0)).2) →
      ∃ s', gpsBreakStep g ⟨lims.map Prod.fst, lims.map Prod.snd, lo⟩ 0 = some s' ∧ (EvenStep g 0 → s'.starts.length = s'.ends.length)) := by
  have hb : broadcast (lims.map Prod.fst) (lims.map Prod.snd) = some lims := by
    unfold broadcast
    rw [if_pos (by simp), ← List.unzip_fst, ← List.unzip_snd, List.zip_unzip]
  constructor
  · rintro ⟨p, hp, h1, h2⟩
    unfold gpsBreakStep
    simp only
    rw [hb]
    simp only
    obtain ⟨k, hk, rfl⟩ := List.getElem_of_mem hp
    rw [if_pos]
    · have hw : pySlice g (((0 : Nat) : Int) - 1) (((0 : Nat) : Int) + 2) = [] :=
        (pySlice_window _ 0 (by omega)).mpr ⟨rfl, h3⟩
      rw [hw]
      simp [maxOf]
    · apply List.ne_nil_of_mem (a := k)
      rw [List.mem_filter, List.mem_range]
      refine ⟨hk, ?_⟩
      rw [List.getD_eq_getElem?_getD (l := lims), List.getElem?_eq_getElem hk]
      simpa using ⟨h1, h2⟩
  · intro hno
    unfold gpsBreakStep
    simp only
    rw [hb]
    simp only
    rw [if_neg]
    · exact plain_step g (s := ⟨lims.map Prod.fst, lims.map Prod.snd, lo⟩) (by simp) 0
    · rw [not_not, List.filter_eq_nil_iff]
      intro k hk hc
      rw [List.mem_range] at hk
      apply hno
      refine ⟨lims[k], List.getElem_mem hk, ?_⟩
      rw [List.getD_eq_getElem?_getD (l := lims), List.getElem?_eq_getElem hk] at hc
      simpa using hc

theorem mem_dropLast_lt {l : List Nat} (h : l.Pairwise (· < ·)) {i : Nat} (hi : i ∈ l.dropLast) : ∃ k ∈ l, i < k := by
  have hne : l ≠ [] := by rintro rfl; simp at hi
  refine ⟨l.getLast hne, List.getLast_mem hne, ?_⟩
  rw [← List.dropLast_append_getLast hne, List.pairwise_append] at h
  exact h.2.2 i hi _ (by simp)

theorem gpsBreakIdx_mem (fixes : List Fix) (i : Nat) : i ∈ gpsBreakIdx (fixes.map fun f => (f.t, f.msPPS)) ↔
    ∃ a b, fixes[i]? = some a ∧ fixes[i + 1]? = some b ∧ ¬GoodStep a b := by
  unfold gpsBreakIdx
  rw [List.mem_filter, List.mem_range, List.length_map]
  constructor
  · rintro ⟨h1, h2⟩
    refine ⟨fixes[i], fixes[i + 1], List.getElem?_eq_getElem (by omega), List.getElem?_eq_getElem (by omega), ?_⟩
    rw [← gpsBreak_iff]
    rw [List.getD_eq_getElem?_getD, List.getD_eq_getElem?_getD, List.getElem?_map, List.getElem?_map, List.getElem?_eq_getElem (by omega),
      List.getElem?_eq_getElem (by omega)] at h2
    simpa using h2
  · rintro ⟨a, b, h1, h2, h3⟩
    have := (List.getElem?_eq_some_iff.mp h2).1
    refine ⟨by omega, ?_⟩
    rw [← gpsBreak_iff] at h3
    rw [List.getD_eq_getElem?_getD, List.getD_eq_getElem?_getD, List.getElem?_map, List.getElem?_map, h1, h2]
    simpa using h3

theorem gpsBreakIdx_increasing (g : List (Rat × Rat)) : (gpsBreakIdx g).Pairwise (· < ·) :=
  List.Pairwise.filter _ List.pairwise_lt_range

theorem first_jump {fixes : List Fix} (hfirst : ∀ a b c l, fixes = a :: b :: c :: l → GoodStep a b)
    (h : 0 ∈ gpsBreakIdx (fixes.map fun f => (f.t, f.msPPS))) : fixes.length < 3 := by
  obtain ⟨a, b, q1, q2, q3⟩ := (gpsBreakIdx_mem _ 0).mp h
  match fixes, q1, q2 with
  | a' :: b' :: c :: l', q1, q2 =>
    simp at q1 q2
    subst q1 q2
    exact absurd (hfirst _ _ c l' rfl) q3
  | [a, b], _, _ => simp

/-- **C55, exact, fixes in any order.** The two cases of `C55_exact_partial` are the only ones in which a block is unreadable even if the fixes are in disorder, as long as for
each jump of the clock between two successive fixes, except for the last jump: if there is a fix later than the first of the two, there is one earlier than the second, and conversely. (In increasing order there
are always both; and neither, if the first fix is later than all others and the second earlier.) Missing: jumps for which there is only one of the two. -/
theorem C55_any_order_partial (now : Rat) (mD : List Rat) (gps : List Fix) (hne : mD ≠ []) (hg : gps ≠ [])
    (heven : ∀ (i k : Nat) (a b c d : Fix), i < k → (goodFixes now gps)[i]? = some a → (goodFixes now gps)[i + 1]? = some b → ¬GoodStep a b →
      (goodFixes now gps)[k]? = some c → (goodFixes now gps)[k + 1]? = some d → ¬GoodStep c d →
      ((∃ f ∈ goodFixes now gps, a.t < f.t) ↔ ∃ f ∈ goodFixes now gps, f.t < b.t)) :
    findBreaks now mD gps = none ↔ (Gap mD 0 ∧ Gap mD 1 ∧ (5 ≤ mD.length ∨ (mD.length = 4 ∧ ¬Gap mD 2))) ∨
      JumpAtGap (withoutLast (withoutFirst mD)) (goodFixes now gps) := by
  have heven' : ∀ i ∈ (gpsBreakIdx ((goodFixes now gps).map fun f => (f.t, f.msPPS))).dropLast,
      EvenStep ((goodFixes now gps).map fun f => (f.t, f.msPPS)) i := by
    intro i hi
    obtain ⟨k, hk, hik⟩ := mem_dropLast_lt (gpsBreakIdx_increasing _) hi
    obtain ⟨a, b, h1, h2, h3⟩ := (gpsBreakIdx_mem _ i).mp (List.dropLast_subset _ hi)
    obtain ⟨c, d, h4, h5, h6⟩ := (gpsBreakIdx_mem _ k).mp hk
    have := heven i k a b c d hik h1 h2 h3 h4 h5 h6
    unfold EvenStep
    rw [List.getD_eq_getElem?_getD, List.getD_eq_getElem?_getD, List.getElem?_map, List.getElem?_map, h1, h2]
    simpa using this
  have hlt : ∀ i ∈ gpsBreakIdx ((goodFixes now gps).map fun f => (f.t, f.msPPS)),
      i + 1 < ((goodFixes now gps).map fun f => (f.t, f.msPPS)).length := by
    intro i hi
    obtain ⟨_, _, _, h2, _⟩ := (gpsBreakIdx_mem _ i).mp hi
    have := (List.getElem?_eq_some_iff.mp h2).1
    rw [List.length_map]
    exact this
  obtain ⟨k1, k2⟩ := trim_spec mD
  obtain ⟨h1, h2, _⟩ := trimmed mD hne
  have key := gapLimits_trimmed mD hne
  clear heven
  unfold findBreaks
  rw [if_neg hg]
  simp only
  generalize goodFixes now gps = G at heven' hlt ⊢
  generalize trimLast (trimFirst (mD, dataBreakIdx mD)) = s at h1 h2 key k1 k2
  obtain ⟨mT, is⟩ := s
  simp only at h1 h2 key k1 k2
  rw [← k1] at k2 ⊢
  dsimp only
  cases hgl : gapLimits mT is with
  | none =>
    rw [hgl] at key
    simp only [true_iff] at key
    simp [key]
  | some lims =>
    rw [hgl] at key
    simp only [reduceCtorEq, false_iff] at key
    rw [or_iff_right key]
    obtain ⟨lo, e1⟩ := minOf_some h1
    obtain ⟨hi, e2⟩ := maxOf_some h1
    rw [e1, e2]
    simp only
    have hw0 : ∀ i ∈ is, pySlice mT ((i : Int) - 1) (i + 2) ≠ [] := by
      intro i hi' hnil
      have := (gapLimits_none mT is).mpr ⟨i, hi', hnil⟩
      rw [hgl] at this
      simp at this
    have hwin : ∀ i ∈ is, ∀ v, v ∈ pySlice mT ((i : Int) - 1) (i + 2) ↔ NextTo mT i v := by
      intro i hi' v
      apply mem_window (h2 i hi')
      intro hz
      by_contra h3
      exact hw0 i hi' ((pySlice_window mT i (h2 i hi')).mpr ⟨hz, by omega⟩)
    by_cases hfirst : ∀ a b c l, G = a :: b :: c :: l → GoodStep a b
    · have hno : ¬JumpAtGap mT G := by
        rintro ⟨a, b, c, l, e, hb, _⟩
        exact hb (hfirst a b c l e)
      obtain ⟨r, hr⟩ := gpsBreakLoop_any (g := G.map fun f => (f.t, f.msPPS)) (gpsBreakIdx (G.map fun f => (f.t, f.msPPS)))
        ⟨lims.map Prod.fst, lims.map Prod.snd, lo⟩ (by simp) (by
          intro i hi'
          refine ⟨hlt i hi', ?_⟩
          rw [List.length_map]
          by_cases hz : i = 0
          · subst hz
            exact .inr (first_jump hfirst hi')
          · exact .inl hz) heven'
      rw [hr]
      simp [hno]
    push Not at hfirst
    obtain ⟨a, b, c, l, hG, hbad⟩ := hfirst
    have h0 : 0 ∈ gpsBreakIdx (G.map fun f => (f.t, f.msPPS)) := by
      rw [gpsBreakIdx_mem, hG]
      exact ⟨a, b, rfl, rfl, hbad⟩
    obtain ⟨js, hidx⟩ : ∃ js, gpsBreakIdx (G.map fun f => (f.t, f.msPPS)) = 0 :: js := by
      have hp := gpsBreakIdx_increasing (G.map fun f => (f.t, f.msPPS))
      match h : gpsBreakIdx (G.map fun f => (f.t, f.msPPS)) with
      | [] => rw [h] at h0; simp at h0
      | j :: js =>
        rw [h] at h0 hp
        rcases List.mem_cons.mp h0 with rfl | h0
        · exact ⟨js, h⟩
        · have := (List.pairwise_cons.mp hp).1 0 h0
          omega
    have hjs : ∀ j ∈ js, j ≠ 0 := by
      have hp := gpsBreakIdx_increasing (G.map fun f => (f.t, f.msPPS))
      rw [hidx] at hp
      intro j hj
      have := (List.pairwise_cons.mp hp).1 j hj
      omega
    rw [hidx] at heven' hlt ⊢
    rw [gpsBreakLoop]
    have hover : JumpAtGap mT G ↔ ∃ p ∈ lims,
        (((G.map fun f => (f.t, f.msPPS))).getD 0 (0, 0)).2 ≤ p.1 ∧
          p.2 ≤ ((G.map fun f => (f.t, f.msPPS)).getD 1 (0, 0)).2 := by
      rw [hG]
      simp only [List.map_cons, List.getD_cons_zero, List.getD_cons_succ]
      constructor
      · rintro ⟨a', b', c', l', e, _, i, hgap, ⟨v, hv, hav⟩, ⟨w, hw, hwb⟩⟩
        simp only [List.cons.injEq] at e
        obtain ⟨rfl, rfl, _, _⟩ := e
        have hi' := (k2 i).mpr hgap
        obtain ⟨p, hp, hmax, hmin⟩ := gapLimits_mem mT is lims hgl i hi'
        exact ⟨p, hp, le_trans hav (le_maxOf hmax ((hwin i hi' v).mpr hv)), le_trans (minOf_le hmin ((hwin i hi' w).mpr hw)) hwb⟩
      · rintro ⟨p, hp, h3, h4⟩
        obtain ⟨i, hi', hmax, hmin⟩ := gapLimits_mem' mT is lims hgl p hp
        exact ⟨a, b, c, l, rfl, hbad, i, (k2 i).mp hi', ⟨p.1, (hwin i hi' _).mp (maxOf_mem hmax), h3⟩,
          ⟨p.2, (hwin i hi' _).mp (minOf_mem hmin), h4⟩⟩
    have h3 : 3 ≤ (G.map fun f => (f.t, f.msPPS)).length := by rw [hG]; simp
    obtain ⟨z1, z2⟩ := gpsBreakStep_zero_any h3 lims lo
    by_cases hc : JumpAtGap mT G
    · rw [z1 (hover.mp hc)]
      simp [hc]
    · obtain ⟨s', e, hs'⟩ := z2 (fun h => hc (hover.mpr h))
      rw [e]
      dsimp only
      cases js with
      | nil => simp [hc, gpsBreakLoop]
      | cons j js =>
        obtain ⟨r, hr⟩ := gpsBreakLoop_any (g := G.map fun f => (f.t, f.msPPS)) (j :: js) s' (hs' (heven' 0 (by simp [List.dropLast])))
          (fun i hi => ⟨hlt i (List.mem_cons_of_mem _ hi), .inl (hjs i hi)⟩)
          (fun i hi => heven' i (by rw [List.dropLast_cons_of_ne_nil (by simp)]; exact List.mem_cons_of_mem _ hi))
        rw [hr]
        simp [hc]

/-- Fixes in disorder (helper). -/
def fixAtTime (ms t : Rat) : Fix := ⟨⟨ms, some 0, some 2020, some 1, some 1, some 0, some 0, some 0, some 1, some 1⟩, t⟩

/-- The third fix is earlier than the second one; the last three steps are jumps. The hypothesis holds, and the times are assigned. -/
def disorder : List Fix := [fixAtTime 0 0, fixAtTime 1000 (1024 / 1000), fixAtTime 2000 (1 / 2), fixAtTime 3000 (3072 / 1000), fixAtTime 4000 10]

example : goodFixes 100 disorder = disorder ∧ (findBreaks 100 [10, 20, 30, 900, 910, 920] disorder).isSome = true ∧
    gpsBreakIdx (disorder.map fun f => (f.t, f.msPPS)) = [1, 2, 3] := by decide +kernel

example (i k : Nat) (a b c d : Fix) (_ : i < k) (ha : disorder[i]? = some a) (hb : disorder[i + 1]? = some b) (hab : ¬GoodStep a b)
    (_ : disorder[k]? = some c) (_ : disorder[k + 1]? = some d) (_ : ¬GoodStep c d) :
    (∃ f ∈ disorder, a.t < f.t) ↔ ∃ f ∈ disorder, f.t < b.t := by
  have hi : i ∈ gpsBreakIdx (disorder.map fun f => (f.t, f.msPPS)) := (gpsBreakIdx_mem disorder i).mpr ⟨a, b, ha, hb, hab⟩
  rw [show gpsBreakIdx (disorder.map fun f => (f.t, f.msPPS)) = [1, 2, 3] by decide +kernel] at hi
  have h1 : (fixAtTime 4000 10) ∈ disorder := by simp [disorder]
  have h0 : (fixAtTime 0 0) ∈ disorder := by simp [disorder]
  simp only [List.mem_cons, List.not_mem_nil, or_false] at hi
  refine iff_of_true ⟨_, h1, ?_⟩ ⟨_, h0, ?_⟩ <;> rcases hi with rfl | rfl | rfl <;>
    simp only [disorder, List.getElem?_cons_succ, List.getElem?_cons_zero, Option.some.injEq, Nat.reduceAdd] at ha hb <;> subst ha hb <;>
    norm_num [fixAtTime]

/-- Without it, fixes alone can make a block unreadable: here the samples have no gap. -/
example :
    let fixes := [fixAtTime 0 0, fixAtTime 1000 10, fixAtTime 2000 5, fixAtTime 3000 10, fixAtTime 4000 6, fixAtTime 5000 10, fixAtTime 6000 7]
    goodFixes 100 fixes = fixes ∧ dataBreakIdx [10, 20, 30, 40, 50, 60] = [] ∧ findBreaks 100 [10, 20, 30, 40, 50, 60] fixes = none := by
  decide +kernel

end Gemlog
