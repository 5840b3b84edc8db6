import Verif.Model.ReadGem
import Verif.Props.Select
import Verif.Props.Specs
import Verif.Props.ReadSeveral
import Mathlib.Tactic.Linarith

/-!
# C39 (`read_gem`), C55, C56: reading a block of files
-/

namespace Gemlog

/-! ## C55: the search for breaks -/

/-- Between samples `i` and `i + 1` the counter jumps by more than 25 or backwards. -/
def Gap (mD : List Rat) (i : Nat) : Prop := ∃ a b, mD[i]? = some a ∧ mD[i + 1]? = some b ∧ (b - a > 25 ∨ b < a)

theorem mem_dataBreakIdx (mD : List Rat) (i : Nat) : i ∈ dataBreakIdx mD ↔ Gap mD i := by
  unfold dataBreakIdx Gap
  rw [List.mem_filter, List.mem_range, Bool.or_eq_true, decide_eq_true_eq, decide_eq_true_eq]
  constructor
  · rintro ⟨h1, h2⟩
    refine ⟨mD.getD i 0, mD.getD (i + 1) 0, ?_, ?_, ?_⟩
    · rw [List.getD_eq_getElem?_getD, List.getElem?_eq_getElem (by omega)]; rfl
    · rw [List.getD_eq_getElem?_getD, List.getElem?_eq_getElem (by omega)]; rfl
    · rcases h2 with h2 | h2
      · exact .inl h2
      · right; linarith
  · rintro ⟨a, b, ha, hb, h⟩
    have hlt := (List.getElem?_eq_some_iff.mp hb).1
    refine ⟨by omega, ?_⟩
    rw [List.getD_eq_getElem?_getD, List.getD_eq_getElem?_getD, ha, hb]
    simp only [Option.getD_some]
    rcases h with h | h
    · exact .inl h
    · right; linarith

theorem Gap.lt {mD : List Rat} {i : Nat} (h : Gap mD i) : i + 1 < mD.length := by
  obtain ⟨a, b, _, hb, _⟩ := h
  exact (List.getElem?_eq_some_iff.mp hb).1

/-- Which window of samples around a break is empty. -/
theorem pySlice_window {α : Type} (l : List α) (i : Nat) (h : i + 1 < l.length) :
    pySlice l ((i : Int) - 1) (i + 2) = [] ↔ i = 0 ∧ 3 ≤ l.length := by
  unfold pySlice
  simp only
  rw [← List.length_eq_zero_iff, List.length_drop, List.length_take]
  by_cases hi : i = 0
  · subst hi
    rw [if_neg (by omega), if_pos (by omega)]
    simp only [true_and]
    omega
  · rw [if_neg (by omega), if_neg (by omega)]
    omega

theorem maxOf_none (l : List Rat) : maxOf l = none ↔ l = [] := by cases l <;> simp [maxOf]

theorem minOf_none (l : List Rat) : minOf l = none ↔ l = [] := by cases l <;> simp [minOf]

theorem gapLimits_none (mD : List Rat) : ∀ is : List Nat,
    gapLimits mD is = none ↔ ∃ i ∈ is, pySlice mD ((i : Int) - 1) (i + 2) = []
  | [] => by simp [gapLimits]
  | i :: is => by
    have ih := gapLimits_none mD is
    rw [gapLimits]
    cases hm : maxOf (pySlice mD ((i : Int) - 1) (i + 2)) with
    | none =>
      rw [maxOf_none] at hm
      simp [hm]
    | some a =>
      have hne : pySlice mD ((i : Int) - 1) (i + 2) ≠ [] := by
        intro h
        rw [← maxOf_none, hm] at h
        simp at h
      cases hn : minOf (pySlice mD ((i : Int) - 1) (i + 2)) with
      | none => rw [minOf_none] at hn; exact absurd hn hne
      | some b =>
        cases hg : gapLimits mD is with
        | none =>
          rw [hg] at ih
          simp only [true_iff] at ih ⊢
          obtain ⟨j, h1, h2⟩ := ih
          exact ⟨j, by simp [h1], h2⟩
        | some l =>
          rw [hg] at ih
          simp only [reduceCtorEq, false_iff] at ih ⊢
          rintro ⟨j, hj, hs⟩
          rcases List.mem_cons.mp hj with rfl | hj
          · exact hne hs
          · exact ih ⟨j, hj, hs⟩

theorem gap_tail (mD : List Rat) (i : Nat) : Gap (mD.drop 1) i ↔ Gap mD (i + 1) := by
  unfold Gap
  simp only [List.getElem?_drop, Nat.add_comm 1, Nat.add_assoc]

/-- After the trimming, the samples left and the breaks left. -/
theorem trimmed (mD : List Rat) (hne : mD ≠ []) :
    let s := trimLast (trimFirst (mD, dataBreakIdx mD))
    s.1 ≠ [] ∧ (∀ i ∈ s.2, i + 1 < s.1.length) ∧
    ((0 ∈ s.2 ∧ 3 ≤ s.1.length) ↔ Gap mD 0 ∧ Gap mD 1 ∧ (5 ≤ mD.length ∨ (mD.length = 4 ∧ ¬Gap mD 2))) := by
  intro s
  have hpos : 0 < mD.length := List.length_pos_iff.mpr hne
  by_cases h0 : Gap mD 0
  · have hlen := h0.lt
    have hs1 : trimFirst (mD, dataBreakIdx mD) = (mD.drop 1, ((dataBreakIdx mD).filter fun i => i ≠ 0).map fun i => i - 1) := by
      unfold trimFirst
      rw [if_pos ((mem_dataBreakIdx mD 0).mpr h0)]
    have hm1 : ∀ i, i ∈ ((dataBreakIdx mD).filter fun i => i ≠ 0).map (fun i => i - 1) ↔ Gap mD (i + 1) := by
      intro i
      rw [List.mem_map]
      constructor
      · rintro ⟨j, hj, rfl⟩
        rw [List.mem_filter, mem_dataBreakIdx, decide_eq_true_eq] at hj
        rw [Nat.sub_add_cancel (by omega)]
        exact hj.1
      · intro hg
        exact ⟨i + 1, List.mem_filter.mpr ⟨(mem_dataBreakIdx _ _).mpr hg, by simp⟩, by omega⟩
    have hl1 : (mD.drop 1).length = mD.length - 1 := List.length_drop
    by_cases hL : 2 ≤ mD.length - 1 ∧ Gap mD (mD.length - 2)
    · have hs : s = ((mD.drop 1).dropLast, (((dataBreakIdx mD).filter fun i => i ≠ 0).map fun i => i - 1).filter
          fun i => i ≠ (mD.drop 1).dropLast.length - 1) := by
        show trimLast (trimFirst (mD, dataBreakIdx mD)) = _
        rw [hs1]
        unfold trimLast
        simp only
        rw [if_pos]
        rw [hl1, hm1]
        exact ⟨hL.1, by rw [show mD.length - 1 - 2 + 1 = mD.length - 2 by omega]; exact hL.2⟩
      have hl2 : (mD.drop 1).dropLast.length = mD.length - 2 := by rw [List.length_dropLast, hl1]; omega
      rw [hs]
      simp only
      refine ⟨?_, ?_, ?_⟩
      · rw [← List.length_pos_iff, hl2]; omega
      · intro i hi
        rw [List.mem_filter, hm1, decide_eq_true_eq, hl2] at hi
        have := hi.1.lt
        rw [hl2]
        omega
      · rw [List.mem_filter, hm1, decide_eq_true_eq, hl2]
        constructor
        · rintro ⟨⟨h1, _⟩, h2⟩
          exact ⟨h0, h1, .inl (by omega)⟩
        · rintro ⟨_, h1, h2 | ⟨h2, h3⟩⟩
          · exact ⟨⟨h1, by omega⟩, by omega⟩
          · rw [h2] at hL
            exact absurd hL.2 h3
    · have hs : s = (mD.drop 1, ((dataBreakIdx mD).filter fun i => i ≠ 0).map fun i => i - 1) := by
        show trimLast (trimFirst (mD, dataBreakIdx mD)) = _
        rw [hs1]
        unfold trimLast
        simp only
        rw [if_neg]
        rw [hl1, hm1]
        rintro ⟨h1, h2⟩
        rw [show mD.length - 1 - 2 + 1 = mD.length - 2 by omega] at h2
        exact hL ⟨h1, h2⟩
      rw [hs]
      simp only
      refine ⟨?_, ?_, ?_⟩
      · rw [← List.length_pos_iff, hl1]; omega
      · intro i hi
        rw [hm1] at hi
        have := hi.lt
        rw [hl1]
        omega
      · rw [hm1, hl1]
        constructor
        · rintro ⟨h1, h2⟩
          refine ⟨h0, h1, ?_⟩
          by_cases h4 : mD.length = 4
          · right
            refine ⟨h4, fun hg => hL ⟨by omega, ?_⟩⟩
            rw [h4]
            exact hg
          · left; omega
        · rintro ⟨_, h1, h2 | ⟨h2, _⟩⟩
          · exact ⟨h1, by omega⟩
          · exact ⟨h1, by omega⟩
  · have h0' : 0 ∉ dataBreakIdx mD := fun h => h0 ((mem_dataBreakIdx mD 0).mp h)
    have hs1 : trimFirst (mD, dataBreakIdx mD) = (mD, dataBreakIdx mD) := by
      unfold trimFirst
      rw [if_neg h0']
    by_cases hL : 2 ≤ mD.length ∧ mD.length - 2 ∈ dataBreakIdx mD
    · have hs : s = (mD.dropLast, (dataBreakIdx mD).filter fun i => i ≠ mD.dropLast.length - 1) := by
        show trimLast (trimFirst (mD, dataBreakIdx mD)) = _
        rw [hs1]
        unfold trimLast
        rw [if_pos hL]
      have hl2 : mD.dropLast.length = mD.length - 1 := List.length_dropLast
      rw [hs]
      simp only
      refine ⟨?_, ?_, ?_⟩
      · rw [← List.length_pos_iff, hl2]; omega
      · intro i hi
        rw [List.mem_filter, mem_dataBreakIdx, decide_eq_true_eq, hl2] at hi
        have := hi.1.lt
        rw [hl2]
        omega
      · constructor
        · rintro ⟨h1, _⟩
          exact absurd (List.mem_filter.mp h1).1 h0'
        · rintro ⟨h1, _⟩
          exact absurd h1 h0
    · have hs : s = (mD, dataBreakIdx mD) := by
        show trimLast (trimFirst (mD, dataBreakIdx mD)) = _
        rw [hs1]
        unfold trimLast
        rw [if_neg hL]
      rw [hs]
      simp only
      refine ⟨hne, ?_, ?_⟩
      · intro i hi
        rw [mem_dataBreakIdx] at hi
        exact hi.lt
      · constructor
        · rintro ⟨h1, _⟩
          exact absurd h1 h0'
        · rintro ⟨h1, _⟩
          exact absurd h1 h0

/-- The gaps at the start at which the search for breaks fails. -/
theorem gapLimits_trimmed (mD : List Rat) (hne : mD ≠ []) :
    gapLimits (trimLast (trimFirst (mD, dataBreakIdx mD))).1 (trimLast (trimFirst (mD, dataBreakIdx mD))).2 = none ↔
      Gap mD 0 ∧ Gap mD 1 ∧ (5 ≤ mD.length ∨ (mD.length = 4 ∧ ¬Gap mD 2)) := by
  obtain ⟨_, h2, h3⟩ := trimmed mD hne
  rw [gapLimits_none, ← h3]
  constructor
  · rintro ⟨i, hi, hs⟩
    rw [pySlice_window _ _ (h2 i hi)] at hs
    exact ⟨hs.1 ▸ hi, hs.2⟩
  · rintro ⟨h0, hl⟩
    exact ⟨0, h0, (pySlice_window _ _ (h2 0 h0)).mpr ⟨rfl, hl⟩⟩

/-- No step between two neighbouring fixes that are not suspect counts as a break. -/
def SteadyFixes (now : Rat) (gps : List Fix) : Prop :=
  gpsBreakIdx ((goodFixes now gps).map fun f => (f.t, f.msPPS)) = []

/-- **C55.** With steady fixes, the search for breaks, and with it the assignment of times, survives any gaps between samples
except these: both of the first two steps are gaps and there are at least five samples (or four without a gap at
the last step). Missing: that case (`C55_violated`) and unsteady fixes. -/
theorem C55_survives_gaps_partial (now : Rat) (mD : List Rat) (gps : List Fix) (hne : mD ≠ []) (hg : gps ≠ [])
    (hs : SteadyFixes now gps) :
    (findBreaks now mD gps).isSome ↔ ¬(Gap mD 0 ∧ Gap mD 1 ∧ (5 ≤ mD.length ∨ (mD.length = 4 ∧ ¬Gap mD 2))) := by
  have h1 := (trimmed mD hne).1
  have key := gapLimits_trimmed mD hne
  unfold findBreaks
  rw [if_neg hg]
  simp only
  cases hgl : gapLimits (trimLast (trimFirst (mD, dataBreakIdx mD))).1 (trimLast (trimFirst (mD, dataBreakIdx mD))).2 with
  | none =>
    rw [hgl] at key
    simp only [true_iff] at key
    simp [key]
  | some l =>
    rw [hgl] at key
    simp only [reduceCtorEq, false_iff] at key
    cases hm : minOf (trimLast (trimFirst (mD, dataBreakIdx mD))).1 with
    | none => rw [minOf_none] at hm; exact absurd hm h1
    | some lo =>
      cases hx : maxOf (trimLast (trimFirst (mD, dataBreakIdx mD))).1 with
      | none => rw [maxOf_none] at hx; exact absurd hx h1
      | some hi =>
        simp only
        unfold SteadyFixes at hs
        rw [hs]
        simp only [gpsBreakLoop, Option.isSome_some, true_iff]
        exact key

/-- The same for `read_gem`: what happens after reading depends on the search for breaks. -/
theorem assignTimes_corrupt (env : Env) (L : Several Entry) (h : findBreaks env.now (L.data.map Prod.fst) L.gps = none) :
    assignTimes env L = .error .corrupt := by
  unfold assignTimes
  rw [h]

/-- **C55, violated.** Whatever the fixes: if the first two steps between samples are gaps (a gap is more than 25 counts, and
up to 1000 are accepted within a file) and there are at least five samples in the whole block, times are assigned to no
sample of the block; `read_gem` fails with CorruptRawFile, and `convert` skips all its files. -/
theorem C55_violated (env : Env) (L : Several Entry) (h5 : 5 ≤ L.data.length) (h0 : Gap (L.data.map Prod.fst) 0)
    (h1 : Gap (L.data.map Prod.fst) 1) : assignTimes env L = .error .corrupt ∧ Exc.skipsBlock .corrupt = true := by
  refine ⟨?_, rfl⟩
  apply assignTimes_corrupt
  have hne : L.data.map Prod.fst ≠ [] := by
    rw [← List.length_pos_iff, List.length_map]; omega
  unfold findBreaks
  split_ifs
  · rfl
  · simp only
    rw [(gapLimits_trimmed _ hne).mpr ⟨h0, h1, .inl (by rw [List.length_map]; exact h5)⟩]

/-- Five samples, the first two steps 30 and 40 counts: accepted by the reading of files, then rejected. -/
example : Gap [10, 40, 80, 90, 100] 0 ∧ Gap [10, 40, 80, 90, 100] 1 ∧
    discontinuous [10, 40, 80, 90, 100] = false ∧ findBreaks 0 [10, 40, 80, 90, 100] [zeroFix] = none ∧
    findBreaks 0 [10, 40, 50, 90, 100] [zeroFix] = some ([40, 90], [40, 100]) ∧ SteadyFixes 0 [zeroFix] := by
  refine ⟨⟨10, 40, rfl, rfl, by norm_num⟩, ⟨40, 80, rfl, rfl, by norm_num⟩, by decide +kernel, by decide +kernel, by decide +kernel, ?_⟩
  unfold SteadyFixes
  decide +kernel

/-! ## C39: `read_gem` -/

theorem firstReadable_none (env : Env) : ∀ l : List Entry, firstReadable env l = none ↔ ∀ e ∈ l, env.version e = none
  | [] => by simp [firstReadable]
  | e :: l => by
    rw [firstReadable]
    cases h : env.version e with
    | some v => simp [h]
    | none =>
      simp only [firstReadable_none env l, List.mem_cons, forall_eq_or_imp, h, true_and]

theorem firstReadable_some (env : Env) : ∀ (l files : List Entry) (v : String) (first : Entry),
    firstReadable env l = some (files, v, first) ↔ ∃ bad, l = bad ++ files ∧ (∀ e ∈ bad, env.version e = none) ∧
      files.head? = some first ∧ env.version first = some v
  | [], files, v, first => by
    simp only [firstReadable, reduceCtorEq, false_iff]
    rintro ⟨bad, h, _, hf, _⟩
    have := List.append_eq_nil_iff.mp h.symm
    rw [this.2] at hf
    simp at hf
  | e :: l, files, v, first => by
    rw [firstReadable]
    cases h : env.version e with
    | some w =>
      simp only [Option.some.injEq, Prod.mk.injEq]
      constructor
      · rintro ⟨rfl, rfl, rfl⟩
        exact ⟨[], rfl, by simp, rfl, h⟩
      · rintro ⟨bad, hb, hn, hf, hv⟩
        cases bad with
        | nil =>
          simp only [List.nil_append] at hb
          subst hb
          simp only [List.head?_cons, Option.some.injEq] at hf
          subst hf
          rw [h] at hv
          simp only [Option.some.injEq] at hv
          exact ⟨rfl, hv, rfl⟩
        | cons b bad =>
          simp only [List.cons_append, List.cons.injEq] at hb
          have := hn b (by simp)
          rw [← hb.1, h] at this
          simp at this
    | none =>
      simp only
      rw [firstReadable_some env l files v first]
      constructor
      · rintro ⟨bad, rfl, hn, hf, hv⟩
        exact ⟨e :: bad, rfl, by simpa [h] using hn, hf, hv⟩
      · rintro ⟨bad, hb, hn, hf, hv⟩
        cases bad with
        | nil =>
          simp only [List.nil_append] at hb
          subst hb
          simp only [List.head?_cons, Option.some.injEq] at hf
          subst hf
          rw [h] at hv
          simp at hv
        | cons b bad =>
          simp only [List.cons_append, List.cons.injEq] at hb
          exact ⟨bad, hb.2, fun e he => hn e (by simp [he]), hf, hv⟩

theorem interpTime_error {spline : Spliner} {data : List (Rat × Option Rat × Option Rat)} {x : Exc}
    (h : interpTime spline data = .error x) : x = .other := by
  unfold interpTime at h
  simp only at h
  split at h
  · revert h
    generalize timedSamples data = samples
    generalize chunkLimits _ _ _ = ps
    induction ps with
    | nil => simp [interpChunks]
    | cons p ps ih =>
      rw [interpChunks]
      cases hc : interpChunk spline samples p with
      | error y =>
        simp only [Except.error.injEq]
        rintro rfl
        unfold interpChunk at hc
        split at hc
        · simp at hc
        · simp only at hc
          split at hc
          · simp only [Except.error.injEq] at hc
            exact hc.symm
          · simp at hc
      | ok o =>
        cases o with
        | none => exact ih
        | some tr =>
          simp only
          cases hi : interpChunks spline samples ps with
          | error y =>
            rw [hi] at ih
            simpa using ih
          | ok trs => simp
  · simp only [Except.error.injEq] at h
    exact h.symm

theorem assignTimes_error {env : Env} {L : Several Entry} {x : Exc} (h : assignTimes env L = .error x) :
    x = .corrupt ∨ x = .other := by
  unfold assignTimes at h
  split at h
  · simp only [Except.error.injEq] at h
    exact .inl h.symm
  · exact .inr (interpTime_error h)

theorem bitweightInfo_error {SN : List Nat} {adc : Int} {units : List Nat} {x : Exc}
    (h : bitweightInfo SN adc units = .error x) : x = .other ∨ x = .baseOther := by
  unfold bitweightInfo at h
  by_cases c : adc ≠ 0 ∧ adc ≠ 1
  · rw [if_pos c] at h
    simp only [Except.error.injEq] at h
    exact .inr h.symm
  · rw [if_neg c] at h
    simp only at h
    split at h
    · simp only [Except.error.injEq] at h
      exact .inl h.symm
    · split at h
      · rename_i y hy
        simp only [Except.error.injEq] at h
        subst h
        unfold gemSpecs at hy
        split at hy
        · simp only [Except.error.injEq] at hy
          exact .inl hy.symm
        · simp at hy
      · by_cases c1 : upper units = bytes "PA"
        · rw [if_pos c1] at h; simp at h
        · rw [if_neg c1] at h
          by_cases c2 : upper units = bytes "V"
          · rw [if_pos c2] at h; simp at h
          · rw [if_neg c2] at h
            by_cases c3 : lower units = bytes "counts"
            · rw [if_pos c3] at h; simp at h
            · rw [if_neg c3] at h
              simp only [Except.error.injEq] at h
              exact .inr h.symm

theorem readFilesAs_error {env : Env} {files : List Entry} {SN : List Nat} {rg : Bool} {x : Exc}
    (h : readFilesAs env files SN rg = .error x) :
    x = .corrupt ∨ x = .inadequateGPS ∨ x = .other ∨ x = .keyboardInterrupt ∨ x = .baseOther := by
  unfold readFilesAs at h
  split at h
  · simp only [Except.error.injEq] at h
    exact .inl h.symm
  · split at h
    · simp only [Except.error.injEq] at h
      exact .inr (.inr (.inl h.symm))
    · split at h
      · rename_i hx
        simp only [Except.error.injEq] at h
        subst h
        rcases C15_only_interrupts_escape _ _ _ _ _ hx with h | h <;> simp [h]
      · rename_i L _
        by_cases hd : L.data = []
        · rw [if_pos hd] at h
          simp only [Except.error.injEq] at h
          exact .inr (.inl h.symm)
        · rw [if_neg hd] at h
          simp only at h
          split at h
          · rename_i hx
            simp only [Except.error.injEq] at h
            subst h
            rcases assignTimes_error hx with h | h <;> simp [h]
          · split at h
            · rename_i hx
              simp only [Except.error.injEq] at h
              subst h
              rcases bitweightInfo_error hx with h | h <;> simp [h]
            · simp at h

/-- **C39, read_gem.** MissingRawFiles is raised exactly if no file is selected; CorruptRawFile if there are files but none has a
readable format version; the format exception if the first readable version is not one of the six known. -/
theorem C39_read_gem (env : Env) (dir : List Entry) (SN : List Nat) (nums : List Int) (rg : Bool) :
    (readGem env dir SN nums rg = .error .missingRaw ↔ findFiles dir SN nums = []) ∧
    (findFiles dir SN nums ≠ [] → (∀ e ∈ findFiles dir SN nums, env.version e = none) →
      readGem env dir SN nums rg = .error .corrupt) ∧
    (∀ bad files first v, findFiles dir SN nums = bad ++ first :: files → (∀ e ∈ bad, env.version e = none) →
      env.version first = some v → v ∉ ["0.8", "0.85", "0.85C", "0.9", "0.91", "1.10"] →
      readGem env dir SN nums rg = .error .other) := by
  have hcase : findFiles dir SN nums ≠ [] → readGem env dir SN nums rg = readFilesAs env (findFiles dir SN nums) SN rg := by
    intro h
    unfold readGem
    split
    · rename_i h'; exact absurd h' h
    · rfl
  refine ⟨⟨?_, ?_⟩, ?_, ?_⟩
  · intro h
    by_contra hne
    rw [hcase hne] at h
    rcases readFilesAs_error h with h | h | h | h | h <;> simp at h
  · intro h
    unfold readGem
    rw [h]
  · intro hne hv
    rw [hcase hne]
    unfold readFilesAs
    rw [(firstReadable_none env _).mpr hv]
  · intro bad files first v hf hbad hv hnot
    rw [hcase (by rw [hf]; simp)]
    unfold readFilesAs
    rw [(firstReadable_some env _ (first :: files) v first).mpr ⟨bad, hf, hbad, rfl, hv⟩]
    simp only
    have : severalVersion v = none := by
      unfold severalVersion
      simp only [List.mem_cons, List.not_mem_nil, or_false, not_or] at hnot
      obtain ⟨h1, h2, h3, h4, h5, h6⟩ := hnot
      rw [if_neg (by simp [h3, h4, h5, h6]), if_neg (by simp [h1, h2])]
    rw [this]

/-- A concrete directory of two files for which all of `read_gem` is computed: samples every 10 ms, fixes on the nominal
clock, the "spline" being the constant 7. -/
def demoEnv : Env :=
  ⟨⟨fun e offset _ _ => if e.size = 99 then .error .corrupt else .ok ⟨(List.range 5).map fun (k : Nat) => (offset + 10 * (k : Rat) + 10, some 7), [],
        [⟨⟨offset, some 0, some 2020, some 9, some 13, some 12, some 26, some 40, some 1, some 1⟩, 1600000000 + offset / 1000⟩]⟩,
      fun _ L _ => .ok ⟨none, none, (L.data.head?.map Prod.fst).getD 0, (L.data.getLast?.map Prod.fst).getD 0, 0, 0, 1 / 1000, 1600000000, 2, none, 2⟩,
      fun _ => .ok "012"⟩,
    fun e => if e.size = 50 then none else if e.size = 60 then some "2.0" else some "0.9", fun _ => 0, 2000000000,
    fun _ => some fun _ => 7⟩

/-- The files of the example: unreadable version, two good ones, one corrupt. -/
def demoFilesDir : List Entry :=
  [⟨bytes "FILE0001.012", 50, .raises⟩, ⟨bytes "FILE0002.012", 100, .str (bytes "012")⟩,
   ⟨bytes "FILE0003.012", 99, .str (bytes "012")⟩, ⟨bytes "FILE0004.012", 100, .str (bytes "012")⟩]

/-- Reading works: one trace, one problem; and the three failures of `C39_read_gem` occur. -/
example :
    ((readGem demoEnv demoFilesDir (bytes "012") [1, 2, 3, 4] true).map fun g => (g.stream, g.problems.map fun p => p.1.name)) =
      .ok ([⟨160000000001, [7, 7, 7, 7, 7, 7, 7, 7, 7]⟩], [bytes "FILE0003.012"]) ∧
    ((readGem demoEnv demoFilesDir (bytes "012") [5] true).map fun g => g.stream) = .error .missingRaw ∧
    ((readGem demoEnv demoFilesDir (bytes "012") [1] true).map fun g => g.stream) = .error .corrupt ∧
    ((readGem demoEnv [⟨bytes "FILE0001.012", 60, .raises⟩] (bytes "012") [1] true).map fun g => g.stream) = .error .other := by
  decide +kernel

/-- **C39, exceptions of read_gem.** The exceptions `read_gem` can raise, and which of them make `convert` skip the block. -/
theorem C39_read_gem_exceptions (env : Env) (dir : List Entry) (SN : List Nat) (nums : List Int) (rg : Bool) (x : Exc)
    (h : readGem env dir SN nums rg = .error x) :
    (x.skipsBlock = true ∧ (x = .missingRaw ∨ x = .corrupt ∨ x = .inadequateGPS)) ∨
    (x.skipsBlock = false ∧ (x = .other ∨ x = .keyboardInterrupt ∨ x = .baseOther)) := by
  unfold readGem at h
  split at h
  · simp only [Except.error.injEq] at h
    subst h
    exact .inl ⟨rfl, .inl rfl⟩
  · rcases readFilesAs_error h with rfl | rfl | rfl | rfl | rfl
    · exact .inl ⟨rfl, .inr (.inl rfl)⟩
    · exact .inl ⟨rfl, .inr (.inr rfl)⟩
    · exact .inr ⟨rfl, .inl rfl⟩
    · exact .inr ⟨rfl, .inr (.inl rfl)⟩
    · exact .inr ⟨rfl, .inr (.inr rfl)⟩

/-! ## C56 -/

/-- **C56, violated.** The format version of a file counts only if it is the first readable one of its block: whatever the versions
of the other files, they are read with the reader of the first. -/
theorem C56_violated (env : Env) (versions : Entry → Option String) (bad : List Entry) (first : Entry) (files : List Entry)
    (v : String) (SN : List Nat) (rg : Bool) (h1 : ∀ e ∈ bad, env.version e = none ∧ versions e = none)
    (h2 : env.version first = some v ∧ versions first = some v) :
    readFilesAs env (bad ++ first :: files) SN rg = readFilesAs { env with version := versions } (bad ++ first :: files) SN rg := by
  have e1 := (firstReadable_some env (bad ++ first :: files) (first :: files) v first).mpr
    ⟨bad, rfl, fun e he => (h1 e he).1, rfl, h2.1⟩
  have e2 := (firstReadable_some { env with version := versions } (bad ++ first :: files) (first :: files) v first).mpr
    ⟨bad, rfl, fun e he => (h1 e he).2, rfl, h2.2⟩
  unfold readFilesAs
  rw [e1, e2]
  rfl

/-- Two files of formats 0.9 and 0.85 are read as if both were 0.9. -/
example : ∃ env : Env, env.version ⟨bytes "FILE0002.012", 100, .raises⟩ = some "0.9" ∧ env.version ⟨bytes "FILE0003.012", 70, .raises⟩ = some "0.85" :=
  ⟨{ demoEnv with version := fun e => if e.size = 70 then some "0.85" else some "0.9" }, by decide +kernel⟩

end Gemlog
