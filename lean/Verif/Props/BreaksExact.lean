import Verif.Props.ReadGemMore

/-!
# C55, the exact condition

For fixes in increasing order of time, exactly which gaps make a block unreadable.
-/

namespace Gemlog

open Classical in
/-- The samples without the first one, if the first step is a gap. -/
noncomputable def withoutFirst (mD : List Rat) : List Rat := if Gap mD 0 then mD.tail else mD

open Classical in
/-- The samples without the last one, if the last step is a gap. -/
noncomputable def withoutLast (mD : List Rat) : List Rat := if 2 ≤ mD.length ∧ Gap mD (mD.length - 2) then mD.dropLast else mD

/-- `v` is the count of a sample next to the gap after sample `i`: the two before it or the one after it; of a gap
at the very start only the one after it. -/
def NextTo (mD : List Rat) (i : Nat) (v : Rat) : Prop :=
  ∃ j, (j = i + 1 ∨ (1 ≤ i ∧ (j = i ∨ j + 1 = i))) ∧ mD[j]? = some v

/-- The clock jumps between the first two of at least three fixes, and the samples next to a gap reach from before the second of these
two fixes to after the first. -/
def JumpAtGap (mD : List Rat) (fixes : List Fix) : Prop :=
  ∃ a b c l, fixes = a :: b :: c :: l ∧ ¬GoodStep a b ∧
    ∃ i, Gap mD i ∧ (∃ v, NextTo mD i v ∧ a.msPPS ≤ v) ∧ (∃ v, NextTo mD i v ∧ v ≤ b.msPPS)

theorem gap_of_tail (mD : List Rat) (i : Nat) : Gap mD.tail i ↔ Gap mD (i + 1) := by
  unfold Gap
  simp only [List.getElem?_tail]

theorem gap_dropLast (mD : List Rat) (i : Nat) : Gap mD.dropLast i ↔ Gap mD i ∧ i + 2 < mD.length := by
  unfold Gap
  constructor
  · rintro ⟨a, b, ha, hb, h⟩
    have hl := (List.getElem?_eq_some_iff.mp hb).1
    rw [List.length_dropLast] at hl
    rw [List.getElem?_dropLast, if_pos (by omega)] at ha hb
    exact ⟨⟨a, b, ha, hb, h⟩, by omega⟩
  · rintro ⟨⟨a, b, ha, hb, h⟩, hl⟩
    exact ⟨a, b, by rw [List.getElem?_dropLast, if_pos (by omega), ha], by rw [List.getElem?_dropLast, if_pos (by omega), hb], h⟩

theorem trimFirst_spec (mD : List Rat) : (trimFirst (mD, dataBreakIdx mD)).1 = withoutFirst mD ∧
    ∀ i, i ∈ (trimFirst (mD, dataBreakIdx mD)).2 ↔ Gap (withoutFirst mD) i := by
  unfold trimFirst withoutFirst
  by_cases h : Gap mD 0
  · rw [if_pos ((mem_dataBreakIdx mD 0).mpr h), if_pos h]
    refine ⟨by simp, fun i => ?_⟩
    rw [gap_of_tail, List.mem_map]
    constructor
    · rintro ⟨j, hj, rfl⟩
      rw [List.mem_filter, mem_dataBreakIdx] at hj
      have : j ≠ 0 := by simpa using hj.2
      rw [show j - 1 + 1 = j by omega]
      exact hj.1
    · intro hi
      exact ⟨i + 1, by rw [List.mem_filter, mem_dataBreakIdx]; exact ⟨hi, by simp⟩, by omega⟩
  · rw [if_neg (fun hc => h ((mem_dataBreakIdx mD 0).mp hc)), if_neg h]
    exact ⟨rfl, fun i => mem_dataBreakIdx mD i⟩

theorem trimLast_spec (mD : List Rat) (is : List Nat) (h : ∀ i, i ∈ is ↔ Gap mD i) : (trimLast (mD, is)).1 = withoutLast mD ∧
    ∀ i, i ∈ (trimLast (mD, is)).2 ↔ Gap (withoutLast mD) i := by
  unfold trimLast withoutLast
  by_cases hc : 2 ≤ mD.length ∧ Gap mD (mD.length - 2)
  · rw [if_pos ⟨hc.1, (h _).mpr hc.2⟩, if_pos hc]
    refine ⟨rfl, fun i => ?_⟩
    rw [gap_dropLast, List.mem_filter, h, List.length_dropLast]
    constructor
    · rintro ⟨hg, hne⟩
      have hl := hg.lt
      have : i ≠ mD.length - 1 - 1 := by simpa using hne
      exact ⟨hg, by omega⟩
    · rintro ⟨hg, hl⟩
      refine ⟨hg, ?_⟩
      have : i ≠ mD.length - 1 - 1 := by omega
      simpa using this
  · rw [if_neg (fun hc' => hc ⟨hc'.1, (h _).mp hc'.2⟩), if_neg hc]
    exact ⟨rfl, h⟩

theorem trim_spec (mD : List Rat) : (trimLast (trimFirst (mD, dataBreakIdx mD))).1 = withoutLast (withoutFirst mD) ∧
    ∀ i, i ∈ (trimLast (trimFirst (mD, dataBreakIdx mD))).2 ↔ Gap (withoutLast (withoutFirst mD)) i := by
  obtain ⟨h1, h2⟩ := trimFirst_spec mD
  generalize trimFirst (mD, dataBreakIdx mD) = s at h1 h2
  obtain ⟨a, b⟩ := s
  simp only at h1 h2
  subst h1
  exact trimLast_spec _ _ h2

theorem mem_window {mD : List Rat} {i : Nat} (hi : i + 1 < mD.length) (h0 : i = 0 → mD.length < 3) (v : Rat) :
    v ∈ pySlice mD ((i : Int) - 1) (i + 2) ↔ NextTo mD i v := by
  unfold pySlice NextTo
  simp only
  by_cases hz : i = 0
  · subst hz
    have := h0 rfl
    have hl : mD.length = 2 := by omega
    match mD, hl with
    | [x, y], _ =>
      simp [eq_comm]
  · rw [if_neg (by omega), if_neg (by omega)]
    have e1 : (min ((i : Int) + 2) (mD.length : Int)).toNat = i + 2 := by omega
    have e2 : (min ((i : Int) - 1) (mD.length : Int)).toNat = i - 1 := by omega
    rw [e1, e2, List.mem_iff_getElem?]
    constructor
    · rintro ⟨k, hk⟩
      rw [List.getElem?_drop, List.getElem?_take] at hk
      split_ifs at hk with hlt
      exact ⟨i - 1 + k, by omega, hk⟩
    · rintro ⟨j, hj, hv⟩
      refine ⟨j - (i - 1), ?_⟩
      rw [List.getElem?_drop, List.getElem?_take, if_pos (by omega), show i - 1 + (j - (i - 1)) = j by omega, hv]

theorem maxOf_mem {l : List Rat} {m : Rat} (h : maxOf l = some m) : m ∈ l := by
  cases l with
  | nil => simp [maxOf] at h
  | cons a l =>
    simp only [maxOf, Option.some.injEq] at h
    subst h
    induction l generalizing a with
    | nil => simp
    | cons b l ih =>
      rw [List.foldl_cons]
      have := ih (max a b)
      rcases max_choice a b with h | h <;> rw [h] at this ⊢ <;> simp only [List.mem_cons] at this ⊢ <;> tauto

theorem minOf_mem {l : List Rat} {m : Rat} (h : minOf l = some m) : m ∈ l := by
  cases l with
  | nil => simp [minOf] at h
  | cons a l =>
    simp only [minOf, Option.some.injEq] at h
    subst h
    induction l generalizing a with
    | nil => simp
    | cons b l ih =>
      rw [List.foldl_cons]
      have := ih (min a b)
      rcases min_choice a b with h | h <;> rw [h] at this ⊢ <;> simp only [List.mem_cons] at this ⊢ <;> tauto

theorem gapLimits_mem' (mD : List Rat) : ∀ (is : List Nat) (l : List (Rat × Rat)), gapLimits mD is = some l → ∀ p ∈ l,
    ∃ i ∈ is, maxOf (pySlice mD ((i : Int) - 1) (i + 2)) = some p.1 ∧ minOf (pySlice mD ((i : Int) - 1) (i + 2)) = some p.2
  | [], l, h, p, hp => by
    simp only [gapLimits, Option.some.injEq] at h
    subst h
    simp at hp
  | j :: is, l, h, p, hp => by
    rw [gapLimits] at h
    split at h
    · rename_i a b l' ha hb hl
      simp only [Option.some.injEq] at h
      subst h
      rcases List.mem_cons.mp hp with rfl | hp
      · exact ⟨j, by simp, ha, hb⟩
      · obtain ⟨i, hi, h1⟩ := gapLimits_mem' mD is l' hl p hp
        exact ⟨i, by simp [hi], h1⟩
    · simp at h

/-- The first of at least three fixes: the step fails exactly if an interval of the samples overlaps with it. -/
theorem gpsBreakStep_zero {g : List (Rat × Rat)} (hg : g.Pairwise fun a b => a.1 < b.1) (h3 : 3 ≤ g.length) (lims : List (Rat × Rat)) (lo : Rat) :
    ((∃ p ∈ lims, (g.getD 0 (0, 0)).2 ≤ p.1 ∧ p.2 ≤ (g.getD 1 (0, 0)).2) →
      gpsBreakStep g ⟨lims.map Prod.fst, lims.map Prod.snd, lo⟩ 0 = none) ∧
    ((¬∃ p ∈ lims, (g.getD 0 (0, 0)).2 ≤ p.1 ∧ p.2 ≤ (g.getD 1 (0, 0)).2) →
      ∃ s', gpsBreakStep g ⟨lims.map Prod.fst, lims.map Prod.snd, lo⟩ 0 = some s' ∧ s'.starts.length = s'.ends.length) := by
  have hb : broadcast (lims.map Prod.fst) (lims.map Prod.snd) = some lims := by
    unfold broadcast
    rw [if_pos (by simp), ← List.unzip_fst, ← List.unzip_snd, List.zip_unzip]
  constructor
  · rintro ⟨p, hp, h1, h2⟩
    unfold gpsBreakStep
    simp only
    rw [hb]
    simp only
    obtain ⟨k, hk, rfl⟩ := List.getElem_of_mem hp
    rw [if_pos]
    · have hw : pySlice g (((0 : Nat) : Int) - 1) (((0 : Nat) : Int) + 2) = [] :=
        (pySlice_window _ 0 (by omega)).mpr ⟨rfl, h3⟩
      rw [hw]
      simp [maxOf]
    · apply List.ne_nil_of_mem (a := k)
      rw [List.mem_filter, List.mem_range]
      refine ⟨hk, ?_⟩
      rw [List.getD_eq_getElem?_getD (l := lims), List.getElem?_eq_getElem hk]
      simpa using ⟨h1, h2⟩
  · intro hno
    unfold gpsBreakStep
    simp only
    rw [hb]
    simp only
    rw [if_neg]
    · have hlt : (g.getD 0 (0, 0)).1 < (g.getD (0 + 1) (0, 0)).1 := by
        rw [List.getD_eq_getElem?_getD, List.getD_eq_getElem?_getD, List.getElem?_eq_getElem (by omega),
          List.getElem?_eq_getElem (by omega)]
        exact List.pairwise_iff_getElem.mp hg 0 1 (by omega) (by omega) (by omega)
      have m1 : g.getD 0 (0, 0) ∈ g := by
        rw [List.getD_eq_getElem?_getD, List.getElem?_eq_getElem (by omega)]
        exact List.getElem_mem _
      have m2 : g.getD (0 + 1) (0, 0) ∈ g := by
        rw [List.getD_eq_getElem?_getD, List.getElem?_eq_getElem (by omega)]
        exact List.getElem_mem _
      obtain ⟨f1, e1⟩ := extremeFix_some (fun x y => decide (x < y)) (g.filter fun f => decide (f.1 > (g.getD 0 (0, 0)).1))
        (List.ne_nil_of_mem (List.mem_filter.mpr ⟨m2, decide_eq_true hlt⟩))
      obtain ⟨f2, e2⟩ := extremeFix_some (fun x y => decide (x > y)) (g.filter fun f => decide (f.1 < (g.getD (0 + 1) (0, 0)).1))
        (List.ne_nil_of_mem (List.mem_filter.mpr ⟨m1, decide_eq_true hlt⟩))
      rw [e1, e2]
      exact ⟨_, rfl, by simp⟩
    · rw [not_not, List.filter_eq_nil_iff]
      intro k hk hc
      rw [List.mem_range] at hk
      apply hno
      refine ⟨lims[k], List.getElem_mem hk, ?_⟩
      rw [List.getD_eq_getElem?_getD (l := lims), List.getElem?_eq_getElem hk] at hc
      simpa using hc

/-- **C55, exact.** The fixes that are not suspect being in increasing order of time, the assignment of times to a block fails in exactly
two cases. One: the first two steps between samples are gaps, and there are at least five samples (or four without a gap at
the last step). Two: the clock jumps between the first two of three or more fixes, and the samples next to a gap lie at these two fixes; if
the first or the last step is a gap, it does not count, and the sample before or behind it is left out.
Missing: fixes not in increasing order, see `C55_any_order_partial`. -/
theorem C55_exact_partial (now : Rat) (mD : List Rat) (gps : List Fix) (hne : mD ≠ []) (hg : gps ≠ [])
    (hinc : (goodFixes now gps).Pairwise fun a b => a.t < b.t) :
    findBreaks now mD gps = none ↔ (Gap mD 0 ∧ Gap mD 1 ∧ (5 ≤ mD.length ∨ (mD.length = 4 ∧ ¬Gap mD 2))) ∨
      JumpAtGap (withoutLast (withoutFirst mD)) (goodFixes now gps) := by
  by_cases hfirst : ∀ a b c l, goodFixes now gps = a :: b :: c :: l → GoodStep a b
  · have := C55_fixes_partial now mD gps hne hg hinc hfirst
    have hno : ¬JumpAtGap (withoutLast (withoutFirst mD)) (goodFixes now gps) := by
      rintro ⟨a, b, c, l, e, hb, _⟩
      exact hb (hfirst a b c l e)
    rw [or_iff_left hno, ← Option.not_isSome_iff_eq_none, this, not_not]
  · push Not at hfirst
    obtain ⟨a, b, c, l, hG, hbad⟩ := hfirst
    obtain ⟨k1, k2⟩ := trim_spec mD
    obtain ⟨h1, h2, _⟩ := trimmed mD hne
    have key := gapLimits_trimmed mD hne
    unfold findBreaks
    rw [if_neg hg]
    simp only
    generalize trimLast (trimFirst (mD, dataBreakIdx mD)) = s at h1 h2 key k1 k2
    obtain ⟨mT, is⟩ := s
    simp only at h1 h2 key k1 k2
    rw [← k1] at k2 ⊢
    dsimp only
    cases hgl : gapLimits mT is with
    | none =>
      rw [hgl] at key
      simp only [true_iff] at key
      simp [key]
    | some lims =>
      rw [hgl] at key
      simp only [reduceCtorEq, false_iff] at key
      rw [or_iff_right key]
      obtain ⟨lo, e1⟩ := minOf_some h1
      obtain ⟨hi, e2⟩ := maxOf_some h1
      rw [e1, e2]
      simp only
      have hpw : ((goodFixes now gps).map fun f => (f.t, f.msPPS)).Pairwise fun a b => a.1 < b.1 := by
        rw [List.pairwise_map]
        exact hinc
      have hbreak : gpsBreak (a.t, a.msPPS) (b.t, b.msPPS) = true := by
        cases h : gpsBreak (a.t, a.msPPS) (b.t, b.msPPS) with
        | true => rfl
        | false => exact absurd ((gpsBreak_iff a b).mp h) hbad
      have hidx : ∃ js, gpsBreakIdx ((goodFixes now gps).map fun f => (f.t, f.msPPS)) = 0 :: js ∧
          ∀ j ∈ js, j + 1 < ((goodFixes now gps).map fun f => (f.t, f.msPPS)).length ∧ j ≠ 0 := by
        rw [hG]
        unfold gpsBreakIdx
        simp only [List.length_map, List.length_cons, Nat.add_sub_cancel, List.range_succ_eq_map, List.filter_cons]
        rw [if_pos (by simpa using hbreak)]
        refine ⟨_, rfl, fun j hj => ?_⟩
        rw [List.mem_filter] at hj
        have := hj.1
        simp only [List.mem_map, List.mem_cons, List.mem_range] at this
        omega
      obtain ⟨js, hidx, hjs⟩ := hidx
      rw [hidx, gpsBreakLoop]
      have hw0 : ∀ i ∈ is, pySlice mT ((i : Int) - 1) (i + 2) ≠ [] := by
        intro i hi' hnil
        have := (gapLimits_none mT is).mpr ⟨i, hi', hnil⟩
        rw [hgl] at this
        simp at this
      have hwin : ∀ i ∈ is, ∀ v, v ∈ pySlice mT ((i : Int) - 1) (i + 2) ↔ NextTo mT i v := by
        intro i hi' v
        apply mem_window (h2 i hi')
        intro hz
        by_contra h3
        exact hw0 i hi' ((pySlice_window mT i (h2 i hi')).mpr ⟨hz, by omega⟩)
      have hover : JumpAtGap mT (goodFixes now gps) ↔ ∃ p ∈ lims,
          ((((goodFixes now gps).map fun f => (f.t, f.msPPS))).getD 0 (0, 0)).2 ≤ p.1 ∧
            p.2 ≤ (((goodFixes now gps).map fun f => (f.t, f.msPPS)).getD 1 (0, 0)).2 := by
        rw [hG]
        simp only [List.map_cons, List.getD_cons_zero, List.getD_cons_succ]
        constructor
        · rintro ⟨a', b', c', l', e, _, i, hgap, ⟨v, hv, hav⟩, ⟨w, hw, hwb⟩⟩
          simp only [List.cons.injEq] at e
          obtain ⟨rfl, rfl, _, _⟩ := e
          have hi' := (k2 i).mpr hgap
          obtain ⟨p, hp, hmax, hmin⟩ := gapLimits_mem mT is lims hgl i hi'
          exact ⟨p, hp, le_trans hav (le_maxOf hmax ((hwin i hi' v).mpr hv)), le_trans (minOf_le hmin ((hwin i hi' w).mpr hw)) hwb⟩
        · rintro ⟨p, hp, h3, h4⟩
          obtain ⟨i, hi', hmax, hmin⟩ := gapLimits_mem' mT is lims hgl p hp
          exact ⟨a, b, c, l, rfl, hbad, i, (k2 i).mp hi', ⟨p.1, (hwin i hi' _).mp (maxOf_mem hmax), h3⟩,
            ⟨p.2, (hwin i hi' _).mp (minOf_mem hmin), h4⟩⟩
      have h3 : 3 ≤ ((goodFixes now gps).map fun f => (f.t, f.msPPS)).length := by rw [hG]; simp
      obtain ⟨z1, z2⟩ := gpsBreakStep_zero hpw h3 lims lo
      by_cases hc : JumpAtGap mT (goodFixes now gps)
      · rw [z1 (hover.mp hc)]
        simp [hc]
      · obtain ⟨s', e, hs'⟩ := z2 (fun h => hc (hover.mpr h))
        rw [e]
        dsimp only
        obtain ⟨r, hr⟩ := gpsBreakLoop_some hpw js s' hs' (fun j hj => ⟨(hjs j hj).1, .inl (hjs j hj).2⟩)
        rw [hr]
        simp [hc]

/-- A leap second between the first two of three fixes. With a gap of the samples at these fixes the block is lost; with a gap
after them it is not. -/
example :
    let fixAt (ms t : Rat) : Fix := ⟨⟨ms, some 0, some 2020, some 1, some 1, some 0, some 0, some 0, some 1, some 1⟩, t⟩
    let fixes := [fixAt 0 0, fixAt 1000 2, fixAt 2000 (3024 / 1000)]
    JumpAtGap (withoutLast (withoutFirst [10, 20, 30, 900, 910, 920])) (goodFixes 100 fixes) ∧
      ¬JumpAtGap (withoutLast (withoutFirst [1010, 1020, 1030, 1900, 1910, 1920])) (goodFixes 100 fixes) := by
  intro fixAt fixes
  have hinc : (goodFixes 100 fixes).Pairwise fun a b => a.t < b.t := by decide +kernel
  have nogap : ∀ mD : List Rat, mD.length = 6 → 0 ∉ dataBreakIdx mD →
      ¬(Gap mD 0 ∧ Gap mD 1 ∧ (5 ≤ mD.length ∨ (mD.length = 4 ∧ ¬Gap mD 2))) := by
    intro mD _ h hc
    exact h ((mem_dataBreakIdx mD 0).mpr hc.1)
  constructor
  · exact ((C55_exact_partial 100 [10, 20, 30, 900, 910, 920] fixes (by simp) (by simp [fixes]) hinc).mp (by decide +kernel)).resolve_left
      (nogap _ rfl (by decide +kernel))
  · intro h
    have := (C55_exact_partial 100 [1010, 1020, 1030, 1900, 1910, 1920] fixes (by simp) (by simp [fixes]) hinc).mpr (.inr h)
    exact absurd this (by decide +kernel)

end Gemlog
