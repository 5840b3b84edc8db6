import Verif.Props.ReadGem
import Verif.Props.Drift
import Verif.Props.Outliers
import Verif.Props.Convert

/-!
# C15, C19, C39, C55, C56, C64: more about reading a block of files
-/

namespace Gemlog

/-! ## C64: the header row of a file -/

/-- `o` is the median of the values, all of which are numbers. -/
def MedianOf (o : Option Rat) (values : List (Option Rat)) : Prop :=
  ∀ v : List Rat, values = v.map some → ∃ m, o = some m ∧ Stats.IsMedian m v

theorem mapM_id_some (v : List Rat) : (v.map some).mapM id = some v := by
  induction v with
  | nil => rfl
  | cons a v ih => simp [List.mapM_cons, ih]

theorem medianCol_medianOf (l : List (Option Rat)) (hne : l ≠ []) : MedianOf (medianCol l) l := by
  intro v hv
  subst hv
  refine ⟨medianRat v, ?_, medianRat_isMedian v (by simpa using hne)⟩
  unfold medianCol
  rw [mapM_id_some]

theorem calculateDrift_headerOf {fit : Fitter} {L : FileData} {rg : Bool} {info : HeaderInfo}
    (h : calculateDrift fit L rg = .ok info) : ∃ c m n, info = headerOf L c m n := by
  rw [calculateDrift_eq] at h
  split_ifs at h
  · split at h
    · simp only [Except.ok.injEq] at h
      exact ⟨_, _, _, h.symm⟩
    · simp at h
  · split at h
    · simp only [Except.ok.injEq] at h
      exact ⟨_, _, _, h.symm⟩
    · simp only [Except.ok.injEq] at h
      exact ⟨_, _, _, h.symm⟩
  · simp only [Except.ok.injEq] at h
    exact ⟨_, _, _, h.symm⟩

/-- **C64.** The header of a file: medians of the positions of its fixes, none without fixes; first and last count; number of
fixes. -/
theorem C64_header (fit : Fitter) (L : FileData) (rg : Bool) (info : HeaderInfo)
    (h : calculateDrift fit L rg = .ok info) :
    (L.gps ≠ [] → MedianOf info.lat (L.gps.map fun f => f.lat) ∧ MedianOf info.lon (L.gps.map fun f => f.lon)) ∧
    (L.gps = [] → info.lat = none ∧ info.lon = none) ∧ info.numGps = L.gps.length ∧
    (∀ first last, L.data.head? = some first → L.data.getLast? = some last →
      info.startMs = first.1 ∧ info.endMs = last.1) := by
  obtain ⟨c, m, n, rfl⟩ := calculateDrift_headerOf h
  refine ⟨?_, ?_, rfl, ?_⟩
  · intro hg
    unfold headerOf
    simp only [ne_eq, hg, not_false_eq_true, if_true]
    exact ⟨medianCol_medianOf _ (by simpa using hg), medianCol_medianOf _ (by simpa using hg)⟩
  · intro hg
    simp [headerOf, hg]
  · intro first last h1 h2
    simp [headerOf, h1, h2]

/-- A file with three fixes and its header. -/
example :
    let fixAt (ms t lat lon : Rat) : Fix := ⟨⟨ms, some 0, some 2020, some 1, some 1, some 0, some 0, some 0, some lat, some lon⟩, t⟩
    calculateDrift (fun _ _ => none) ⟨[(10, some 1), (20, some 2)], [], [fixAt 0 0 43 (-116), fixAt 1 1 44 (-115), fixAt 2 2 42 (-110)]⟩ false
      = .ok ⟨some 43, some (-115), 10, 20, 0, 0, 1024 / 1000000, 1 - 1024 / 1000000, 3, some (1 - 1024 / 1000000), 3⟩ := by
  decide +kernel

/-! ## C15: what `read_gem` returns -/

theorem readFilesAs_ok {env : Env} {files : List Entry} {SN : List Nat} {rg : Bool} {g : GemData}
    (h : readFilesAs env files SN rg = .ok g) :
    ∃ bad first rest v w L, files = bad ++ first :: rest ∧ (∀ e ∈ bad, env.version e = none) ∧ env.version first = some v ∧
      severalVersion v = some w ∧ readSeveral env.ops (first :: rest) w rg = .ok L ∧ L.data ≠ [] ∧
      g.header = L.header ∧ g.metadata = timedMetadata L.metadata L.header ∧
      g.gps = (if L.gps = [] then [zeroFix] else L.gps) ∧ g.problems = L.problems ∧
      interpTime env.spline (timedData L.data L.header) = .ok g.stream ∧
      ∃ b, bitweightInfo SN (env.adc first) (bytes "Pa") = .ok b ∧ g.specs = b.1 := by
  unfold readFilesAs at h
  split at h
  · simp at h
  · rename_i fs v first hf
    obtain ⟨bad, h1, h2, h3, h4⟩ := (firstReadable_some env _ _ _ _).mp hf
    obtain ⟨rest, rfl⟩ : ∃ rest, fs = first :: rest := by
      cases fs with
      | nil => simp at h3
      | cons a rest => simp only [List.head?_cons, Option.some.injEq] at h3; exact ⟨rest, by rw [h3]⟩
    split at h
    · simp at h
    · rename_i w hw
      split at h
      · simp at h
      · rename_i L hL
        by_cases hd : L.data = []
        · rw [if_pos hd] at h; simp at h
        · rw [if_neg hd] at h
          simp only at h
          split at h
          · simp at h
          · rename_i stream hs
            split at h
            · simp at h
            · rename_i b hb
              simp only [Except.ok.injEq] at h
              subst h
              refine ⟨bad, first, rest, v, w, L, h1, h2, h4, hw, hL, hd, ?_, ?_, ?_, ?_, ?_, b, hb, rfl⟩
              · by_cases hg : L.gps = [] <;> simp [hg]
              · by_cases hg : L.gps = [] <;> simp [hg]
              · by_cases hg : L.gps = [] <;> simp [hg]
              · by_cases hg : L.gps = [] <;> simp [hg]
              · unfold assignTimes at hs
                split at hs
                · simp at hs
                · by_cases hg : L.gps = [] <;> simpa [hg] using hs

/-- **C15, read_gem.** What `read_gem` returns for a directory: leading files without a readable format version are left out; every
other selected file, in order, is accepted or reported once (`hist`); header, GPS table (a row of zeros dated 1970-01-01 if there is no
fix), problems and the instrument's specifications are those of these files, and the stream is made of their samples. -/
theorem C15_read_gem (env : Env) (dir : List Entry) (SN : List Nat) (nums : List Int) (rg : Bool) (g : GemData)
    (h : readGem env dir SN nums rg = .ok g) :
    ∃ (bad : List Entry) (v : String) (hist : List (Entry × Except Exc FileData)),
      findFiles dir SN nums = bad ++ hist.map Prod.fst ∧ (∀ e ∈ bad, env.version e = none) ∧
      (∃ first, (hist.map Prod.fst).head? = some first ∧ env.version first = some v ∧
        ∃ b, bitweightInfo SN (env.adc first) (bytes "Pa") = .ok b ∧ g.specs = b.1) ∧
      (∃ w, PassedVersion v w ∧ History env.ops rg w 0 hist) ∧ List.Forall₂ (RowFor env.ops rg) hist g.header ∧
      g.problems = rejected hist ∧ (∃ P ∈ accepted hist, P.data ≠ []) ∧
      g.gps = (if ((accepted hist).map FileData.gps).flatten = []
          then [⟨⟨0, some 0, some 1970, some 1, some 1, some 0, some 0, some 0, some 0, some 0⟩, 0⟩] else ((accepted hist).map FileData.gps).flatten) ∧
      g.metadata = timedMetadata ((accepted hist).map FileData.metadata).flatten g.header ∧
      interpTime env.spline (timedData ((accepted hist).map FileData.data).flatten g.header) = .ok g.stream := by
  have h' : readFilesAs env (findFiles dir SN nums) SN rg = .ok g := by
    unfold readGem at h
    split at h
    · simp at h
    · exact h
  obtain ⟨bad, first, rest, v, w, L, e1, e2, e3, e4, e5, e6, e7, e8, e9, e10, e11, b, e12, e13⟩ := readFilesAs_ok h'
  obtain ⟨hist, k1, k2, k3, k4, k5, k6, k7⟩ := C15_used_or_reported env.ops rg w (first :: rest) L e5
  refine ⟨bad, v, hist, by rw [k1]; exact e1, e2, ⟨first, by rw [k1]; rfl, e3, b, e12, e13⟩, ⟨w, ?_, k2⟩, e7 ▸ k7, by rw [e10, k6], ?_,
    by rw [e9, k4]; rfl, by rw [e8, k5, e7], by rw [← k3, e7]; exact e11⟩
  · unfold severalVersion at e4
    unfold PassedVersion
    split_ifs at e4 with c1 c2
    · left
      simp only [List.mem_cons, List.not_mem_nil, or_false] at c1
      simp only [Option.some.injEq] at e4
      refine ⟨e4.symm, ?_⟩
      tauto
    · right
      simp only [Option.some.injEq] at e4
      exact ⟨e4.symm, by tauto⟩
  · by_contra hno
    push Not at hno
    apply e6
    rw [k3]
    rw [List.flatten_eq_nil_iff]
    intro l hl
    obtain ⟨P, hP, rfl⟩ := List.mem_map.mp hl
    exact hno P hP

/-- The concrete directory `demoFilesDir`: `read_gem` returns data, with one problem. -/
example : (readGem demoEnv demoFilesDir (bytes "012") [1, 2, 3, 4] true).toBool = true := by decide +kernel

/-! ## C56: the six formats -/

/-- **C56, formats.** The formats 0.85C, 0.9, 0.91 and 1.10 are all read the same way; in files of format 0.8 or 0.85 the reader
of that format is used; a block that starts with any other format is refused with the format exception. -/
theorem C56_formats (env : Env) (first : Entry) (files : List Entry) (SN : List Nat) (rg : Bool) (v : String)
    (hv : env.version first = some v) :
    (v = "0.85C" ∨ v = "0.9" ∨ v = "0.91" ∨ v = "1.10" → ∀ u, (u = "0.85C" ∨ u = "0.9" ∨ u = "0.91" ∨ u = "1.10") →
      readFilesAs env (first :: files) SN rg = readFilesAs { env with version := fun _ => some u } (first :: files) SN rg) ∧
    (∀ g, readFilesAs env (first :: files) SN rg = .ok g →
      ((v = "0.85C" ∨ v = "0.9" ∨ v = "0.91" ∨ v = "1.10") ∧
        ∃ L, readSeveral env.ops (first :: files) "0.9" rg = .ok L ∧ g.header = L.header ∧ g.problems = L.problems) ∨
      ((v = "0.8" ∨ v = "0.85") ∧
        ∃ L, readSeveral env.ops (first :: files) v rg = .ok L ∧ g.header = L.header ∧ g.problems = L.problems)) ∧
    (v ∉ ["0.8", "0.85", "0.85C", "0.9", "0.91", "1.10"] → readFilesAs env (first :: files) SN rg = .error .other) := by
  have hfr : firstReadable env (first :: files) = some (first :: files, v, first) :=
    (firstReadable_some env _ _ _ _).mpr ⟨[], rfl, by simp, rfl, hv⟩
  refine ⟨?_, ?_, ?_⟩
  · intro h1 u h2
    have hfu : firstReadable { env with version := fun _ => some u } (first :: files) = some (first :: files, u, first) :=
      (firstReadable_some { env with version := fun _ => some u } _ _ _ _).mpr ⟨[], rfl, by simp, rfl, rfl⟩
    have s1 : severalVersion v = some "0.9" := by rcases h1 with rfl | rfl | rfl | rfl <;> decide
    have s2 : severalVersion u = some "0.9" := by rcases h2 with rfl | rfl | rfl | rfl <;> decide
    unfold readFilesAs
    rw [hfr, hfu]
    simp only
    rw [s1, s2]
    rfl
  · intro g hg
    obtain ⟨bad, f, rest, v', w, L, e1, e2, e3, e4, e5, -, e7, -, -, e10, -⟩ := readFilesAs_ok hg
    have hb : bad = [] := by
      cases bad with
      | nil => rfl
      | cons b bad =>
        simp only [List.cons_append, List.cons.injEq] at e1
        have := e2 b (by simp)
        rw [← e1.1, hv] at this
        simp at this
    subst hb
    simp only [List.nil_append, List.cons.injEq] at e1
    obtain ⟨rfl, rfl⟩ := e1
    rw [hv] at e3
    simp only [Option.some.injEq] at e3
    subst e3
    unfold severalVersion at e4
    split_ifs at e4 with c1 c2
    · simp only [Option.some.injEq] at e4
      subst e4
      exact .inl ⟨by simpa using c1, L, e5, e7, e10⟩
    · simp only [Option.some.injEq] at e4
      subst e4
      exact .inr ⟨c2.symm, L, e5, e7, e10⟩
  · intro hnot
    unfold readFilesAs
    rw [hfr]
    simp only
    have : severalVersion v = none := by
      unfold severalVersion
      simp only [List.mem_cons, List.not_mem_nil, or_false, not_or] at hnot
      obtain ⟨h1, h2, h3, h4, h5, h6⟩ := hnot
      rw [if_neg (by simp [h3, h4, h5, h6]), if_neg (by simp [h1, h2])]
    rw [this]

/-- A file of each kind: 0.91 is read like 0.9, 2.0 is refused. -/
example :
    let e : Entry := ⟨bytes "FILE0002.012", 100, .str (bytes "012")⟩
    let at_ (v : String) : Env := { demoEnv with version := fun _ => some v }
    (readFilesAs (at_ "0.91") [e] (bytes "012") true).toBool = true ∧ (readFilesAs (at_ "0.8") [e] (bytes "012") true).toBool = true ∧
    ((readFilesAs (at_ "2.0") [e] (bytes "012") true).map fun g => g.stream) = .error .other := by
  decide +kernel

/-! ## C55: with unsteady fixes -/

/-- The clock between two fixes runs at its rate of 1000 counts in 1.024 s: to 100 ppm over more than 50 s, to 2000 ppm over a
shorter time. -/
def GoodStep (a b : Fix) : Prop :=
  a.t ≠ b.t ∧ (b.t - a.t > 50 → 9999 / 10 ≤ (b.msPPS - a.msPPS) / (b.t - a.t) * (1024 / 1000) ∧
      (b.msPPS - a.msPPS) / (b.t - a.t) * (1024 / 1000) ≤ 10001 / 10) ∧
    (b.t - a.t ≤ 50 → 998 ≤ (b.msPPS - a.msPPS) / (b.t - a.t) * (1024 / 1000) ∧
      (b.msPPS - a.msPPS) / (b.t - a.t) * (1024 / 1000) ≤ 1002)

theorem gpsBreak_iff (a b : Fix) : gpsBreak (a.t, a.msPPS) (b.t, b.msPPS) = false ↔ GoodStep a b := by
  unfold gpsBreak GoodStep
  simp only [Bool.or_eq_false_iff, Bool.and_eq_false_iff, decide_eq_false_iff_not, not_lt, gt_iff_lt, not_le]
  constructor
  · rintro ⟨⟨h1, h2⟩, h3⟩
    refine ⟨fun h => h1 (by linarith), fun h => ?_, fun h => ?_⟩
    · rcases h2 with h2 | h2
      · linarith
      · exact ⟨h2.2, h2.1⟩
    · rcases h3 with h3 | h3
      · linarith
      · exact ⟨h3.2, h3.1⟩
  · rintro ⟨h1, h2, h3⟩
    refine ⟨⟨fun h => h1 (by linarith), ?_⟩, ?_⟩
    · by_cases c : 50 < b.t - a.t
      · exact .inr ⟨(h2 c).2, (h2 c).1⟩
      · exact .inl (by linarith)
    · by_cases c : b.t - a.t ≤ 50
      · exact .inr ⟨(h3 c).2, (h3 c).1⟩
      · exact .inl (by linarith)

theorem extremeFix_some (better : Rat → Rat → Bool) : ∀ l : List (Rat × Rat), l ≠ [] → ∃ f, extremeFix better l = some f
  | [], h => absurd rfl h
  | a :: l, _ => by
    rw [extremeFix]
    cases extremeFix better l with
    | none => exact ⟨a, rfl⟩
    | some b =>
      simp only
      split_ifs
      · exact ⟨a, rfl⟩
      · exact ⟨b, rfl⟩

theorem maxOf_some {l : List Rat} (h : l ≠ []) : ∃ a, maxOf l = some a := by
  cases hm : maxOf l with
  | none => exact absurd ((maxOf_none l).mp hm) h
  | some a => exact ⟨a, rfl⟩

theorem minOf_some {l : List Rat} (h : l ≠ []) : ∃ a, minOf l = some a := by
  cases hm : minOf l with
  | none => exact absurd ((minOf_none l).mp hm) h
  | some a => exact ⟨a, rfl⟩

/-- One break between fixes in increasing time, not the first of at least three. -/
theorem gpsBreakStep_some {g : List (Rat × Rat)} (hg : g.Pairwise fun a b => a.1 < b.1) {s : BreakState}
    (hs : s.starts.length = s.ends.length) {i : Nat} (hi : i + 1 < g.length) (h0 : i ≠ 0 ∨ g.length < 3) :
    ∃ s', gpsBreakStep g s i = some s' ∧ s'.starts.length = s'.ends.length := by
  unfold gpsBreakStep
  simp only
  have hb : broadcast s.starts s.ends = some (s.starts.zip s.ends) := by
    unfold broadcast
    rw [if_pos hs]
  rw [hb]
  simp only
  split_ifs with hw
  · have hne : (pySlice g ((i : Int) - 1) (i + 2)).map Prod.snd ≠ [] := by
      intro h
      rw [List.map_eq_nil_iff, pySlice_window g i hi] at h
      omega
    obtain ⟨hi', e1⟩ := maxOf_some hne
    obtain ⟨lo', e2⟩ := minOf_some hne
    rw [e1, e2]
    simp only
    generalize hW : (List.range (s.starts.zip s.ends).length).filter (fun k =>
      decide ((g.getD i (0, 0)).2 ≤ ((s.starts.zip s.ends).getD k (0, 0)).1) &&
        decide ((g.getD (i + 1) (0, 0)).2 ≥ ((s.starts.zip s.ends).getD k (0, 0)).2)) = w
    obtain ⟨a, e3⟩ := maxOf_some (l := w.map (fun k => s.starts.getD k 0) ++ [hi']) (by simp)
    obtain ⟨b, e4⟩ := maxOf_some (l := w.map (fun k => s.ends.getD k 0) ++ [lo']) (by simp)
    rw [e3, e4]
    have hk : ∀ k ∈ w, k < s.starts.length ∧ k < s.ends.length := by
      intro k hk
      rw [← hW, List.mem_filter, List.mem_range, List.length_zip] at hk
      have := hk.1
      omega
    have e5 : setAll s.starts w a = some (s.starts.mapIdx fun i x => if i ∈ w then a else x) := by
      unfold setAll
      rw [if_pos]
      rw [List.all_eq_true]
      intro k h
      exact decide_eq_true (hk k h).1
    have e6 : setAll s.ends w b = some (s.ends.mapIdx fun i x => if i ∈ w then b else x) := by
      unfold setAll
      rw [if_pos]
      rw [List.all_eq_true]
      intro k h
      exact decide_eq_true (hk k h).2
    simp only
    rw [e5, e6]
    exact ⟨_, rfl, by simpa using hs⟩
  · have hlt : (g.getD i (0, 0)).1 < (g.getD (i + 1) (0, 0)).1 := by
      rw [List.getD_eq_getElem?_getD, List.getD_eq_getElem?_getD, List.getElem?_eq_getElem (by omega),
        List.getElem?_eq_getElem hi]
      exact List.pairwise_iff_getElem.mp hg i (i + 1) (by omega) hi (by omega)
    have m1 : g.getD i (0, 0) ∈ g := by
      rw [List.getD_eq_getElem?_getD, List.getElem?_eq_getElem (by omega)]
      exact List.getElem_mem _
    have m2 : g.getD (i + 1) (0, 0) ∈ g := by
      rw [List.getD_eq_getElem?_getD, List.getElem?_eq_getElem hi]
      exact List.getElem_mem _
    obtain ⟨f1, e1⟩ := extremeFix_some (fun x y => decide (x < y)) (g.filter fun f => decide (f.1 > (g.getD i (0, 0)).1))
      (List.ne_nil_of_mem (List.mem_filter.mpr ⟨m2, decide_eq_true hlt⟩))
    obtain ⟨f2, e2⟩ := extremeFix_some (fun x y => decide (x > y)) (g.filter fun f => decide (f.1 < (g.getD (i + 1) (0, 0)).1))
      (List.ne_nil_of_mem (List.mem_filter.mpr ⟨m1, decide_eq_true hlt⟩))
    rw [e1, e2]
    exact ⟨_, rfl, by simp [hs]⟩

theorem gpsBreakLoop_some {g : List (Rat × Rat)} (hg : g.Pairwise fun a b => a.1 < b.1) : ∀ (is : List Nat) (s : BreakState),
    s.starts.length = s.ends.length → (∀ i ∈ is, i + 1 < g.length ∧ (i ≠ 0 ∨ g.length < 3)) →
    ∃ r, gpsBreakLoop g is s = some r
  | [], s, _, _ => ⟨s, rfl⟩
  | i :: is, s, hs, hi => by
    obtain ⟨s', e, hs'⟩ := gpsBreakStep_some hg hs (hi i (by simp)).1 (hi i (by simp)).2
    rw [gpsBreakLoop, e]
    exact gpsBreakLoop_some hg is s' hs' fun j hj => hi j (by simp [hj])

/-- **C55, fixes.** The fixes that are not suspect being in increasing order of time, and the clock rate good between the first two of
them (or there being at most two), breaks elsewhere between the fixes never make a block unreadable: the assignment of
times fails in exactly the case of `C55_survives_gaps_partial`. Missing: a break between the first two fixes
(`C55_violated_first_fixes`), and fixes not in increasing order. -/
theorem C55_fixes_partial (now : Rat) (mD : List Rat) (gps : List Fix) (hne : mD ≠ []) (hg : gps ≠ [])
    (hinc : (goodFixes now gps).Pairwise fun a b => a.t < b.t)
    (hfirst : ∀ a b c l, goodFixes now gps = a :: b :: c :: l → GoodStep a b) :
    (findBreaks now mD gps).isSome ↔ ¬(Gap mD 0 ∧ Gap mD 1 ∧ (5 ≤ mD.length ∨ (mD.length = 4 ∧ ¬Gap mD 2))) := by
  have h1 := (trimmed mD hne).1
  have key := gapLimits_trimmed mD hne
  unfold findBreaks
  rw [if_neg hg]
  simp only
  cases hgl : gapLimits (trimLast (trimFirst (mD, dataBreakIdx mD))).1 (trimLast (trimFirst (mD, dataBreakIdx mD))).2 with
  | none =>
    rw [hgl] at key
    simp only [true_iff] at key
    simp [key]
  | some l =>
    rw [hgl] at key
    simp only [reduceCtorEq, false_iff] at key
    obtain ⟨lo, e1⟩ := minOf_some h1
    obtain ⟨hi, e2⟩ := maxOf_some h1
    rw [e1, e2]
    simp only
    have hpw : ((goodFixes now gps).map fun f => (f.t, f.msPPS)).Pairwise fun a b => a.1 < b.1 := by
      rw [List.pairwise_map]
      exact hinc
    obtain ⟨r, hr⟩ := gpsBreakLoop_some hpw (gpsBreakIdx ((goodFixes now gps).map fun f => (f.t, f.msPPS)))
      ⟨l.map Prod.fst, l.map Prod.snd, lo⟩ (by simp) (by
        intro i hi
        unfold gpsBreakIdx at hi
        rw [List.mem_filter, List.mem_range] at hi
        refine ⟨by omega, ?_⟩
        by_contra hc
        push Not at hc
        obtain ⟨rfl, hlen⟩ := hc
        match hG : goodFixes now gps, hlen with
        | a :: b :: c :: l', _ =>
          have := (gpsBreak_iff a b).mpr (hfirst a b c l' hG)
          rw [hG] at hi
          have h2 := hi.2
          simp only [List.map_cons, List.getD_cons_zero, List.getD_cons_succ] at h2
          rw [this] at h2
          simp at h2
        | [a, b], h => simp at h
        | [a], h => simp at h
        | [], h => simp at h)
    rw [hr]
    simp only [Option.isSome_some, true_iff]
    exact key

theorem le_foldl_max (x : Rat) : ∀ (l : List Rat) (a : Rat), (x ≤ a ∨ x ∈ l) → x ≤ l.foldl max a
  | [], a, h => by simpa using h
  | b :: l, a, h => by
    rw [List.foldl_cons]
    apply le_foldl_max x l
    rcases h with h | h
    · exact .inl (le_max_of_le_left h)
    · rcases List.mem_cons.mp h with rfl | h
      · exact .inl (le_max_right _ _)
      · exact .inr h

theorem foldl_min_le (x : Rat) : ∀ (l : List Rat) (a : Rat), (a ≤ x ∨ x ∈ l) → l.foldl min a ≤ x
  | [], a, h => by simpa using h
  | b :: l, a, h => by
    rw [List.foldl_cons]
    apply foldl_min_le x l
    rcases h with h | h
    · exact .inl (min_le_of_left_le h)
    · rcases List.mem_cons.mp h with rfl | h
      · exact .inl (min_le_right _ _)
      · exact .inr h

theorem le_maxOf {l : List Rat} {m x : Rat} (h : maxOf l = some m) (hx : x ∈ l) : x ≤ m := by
  cases l with
  | nil => simp at hx
  | cons a l =>
    simp only [maxOf, Option.some.injEq] at h
    subst h
    exact le_foldl_max x l a (by rcases List.mem_cons.mp hx with rfl | h <;> simp [*])

theorem minOf_le {l : List Rat} {m x : Rat} (h : minOf l = some m) (hx : x ∈ l) : m ≤ x := by
  cases l with
  | nil => simp at hx
  | cons a l =>
    simp only [minOf, Option.some.injEq] at h
    subst h
    exact foldl_min_le x l a (by rcases List.mem_cons.mp hx with rfl | h <;> simp [*])

theorem gapLimits_mem (mD : List Rat) : ∀ (is : List Nat) (l : List (Rat × Rat)), gapLimits mD is = some l → ∀ i ∈ is,
    ∃ p ∈ l, maxOf (pySlice mD ((i : Int) - 1) (i + 2)) = some p.1 ∧ minOf (pySlice mD ((i : Int) - 1) (i + 2)) = some p.2
  | [], _, _, i, hi => by simp at hi
  | j :: is, l, h, i, hi => by
    rw [gapLimits] at h
    split at h
    · rename_i a b l' ha hb hl
      simp only [Option.some.injEq] at h
      subst h
      rcases List.mem_cons.mp hi with rfl | hi
      · exact ⟨(a, b), by simp, ha, hb⟩
      · obtain ⟨p, hp, h1⟩ := gapLimits_mem mD is l' hl i hi
        exact ⟨p, by simp [hp], h1⟩
    · simp at h

/-- The window around a break holds both its sides, except at the very start. -/
theorem mem_pySlice {α : Type} {l : List α} {i : Nat} (hi : i ≠ 0) {x y : α} (hx : l[i]? = some x) (hy : l[i + 1]? = some y) :
    x ∈ pySlice l ((i : Int) - 1) (i + 2) ∧ y ∈ pySlice l ((i : Int) - 1) (i + 2) := by
  have hlt := (List.getElem?_eq_some_iff.mp hy).1
  unfold pySlice
  simp only
  rw [if_neg (by omega), if_neg (by omega)]
  have e1 : (min ((i : Int) + 2) (l.length : Int)).toNat = min (i + 2) l.length := by omega
  have e2 : (min ((i : Int) - 1) (l.length : Int)).toNat = i - 1 := by omega
  rw [e1, e2]
  constructor
  · apply List.mem_of_getElem? (i := 1)
    rw [List.getElem?_drop, List.getElem?_take, if_pos (by omega), show i - 1 + 1 = i by omega, hx]
  · apply List.mem_of_getElem? (i := 2)
    rw [List.getElem?_drop, List.getElem?_take, if_pos (by omega), show i - 1 + 2 = i + 1 by omega, hy]

/-- **C55, violated by fixes.** If the clock jumps between the first two of three or more fixes (a leap second taking effect, say) and
the samples have a gap between these two fixes, no sample of the whole block gets a time. -/
theorem C55_violated_first_fixes (env : Env) (L : Several Entry) (a b c : Fix) (l : List Fix)
    (hG : goodFixes env.now L.gps = a :: b :: c :: l) (hbad : ¬GoodStep a b)
    (h0 : ¬Gap (L.data.map Prod.fst) 0) (hend : ¬Gap (L.data.map Prod.fst) (L.data.length - 2)) (i : Nat) (x y : Rat)
    (hgap : Gap (L.data.map Prod.fst) i) (hx : (L.data.map Prod.fst)[i]? = some x) (hy : (L.data.map Prod.fst)[i + 1]? = some y)
    (hay : a.msPPS ≤ y) (hxb : x ≤ b.msPPS) : assignTimes env L = .error .corrupt := by
  apply assignTimes_corrupt
  generalize hmD : L.data.map Prod.fst = mD at *
  have hlen : mD.length = L.data.length := by rw [← hmD, List.length_map]
  have hi0 : i ≠ 0 := fun h => h0 (h ▸ hgap)
  unfold findBreaks
  split_ifs
  · rfl
  · have ht : trimLast (trimFirst (mD, dataBreakIdx mD)) = (mD, dataBreakIdx mD) := by
      have : trimFirst (mD, dataBreakIdx mD) = (mD, dataBreakIdx mD) := by
        unfold trimFirst
        rw [if_neg]
        simpa [mem_dataBreakIdx] using h0
      rw [this]
      unfold trimLast
      rw [if_neg]
      simp only [mem_dataBreakIdx, not_and]
      intro _
      rw [hlen]
      exact hend
    simp only
    rw [ht]
    simp only
    cases hgl : gapLimits mD (dataBreakIdx mD) with
    | none => simp
    | some lims =>
      obtain ⟨p, hp, hmax, hmin⟩ := gapLimits_mem mD _ lims hgl i ((mem_dataBreakIdx mD i).mpr hgap)
      obtain ⟨hxm, hym⟩ := mem_pySlice hi0 hx hy
      have hy1 := le_maxOf hmax hym
      have hx1 := minOf_le hmin hxm
      obtain ⟨lo, e1⟩ := minOf_some (l := mD) (by rintro rfl; simp at hx)
      obtain ⟨hi, e2⟩ := maxOf_some (l := mD) (by rintro rfl; simp at hx)
      rw [e1, e2]
      simp only
      rw [hG]
      have hbreak : gpsBreak (a.t, a.msPPS) (b.t, b.msPPS) = true := by
        cases h : gpsBreak (a.t, a.msPPS) (b.t, b.msPPS) with
        | true => rfl
        | false => exact absurd ((gpsBreak_iff a b).mp h) hbad
      have hidx : ∃ is, gpsBreakIdx ((a :: b :: c :: l).map fun f => (f.t, f.msPPS)) = 0 :: is := by
        unfold gpsBreakIdx
        simp only [List.length_map, List.length_cons, Nat.add_sub_cancel, List.range_succ_eq_map, List.filter_cons]
        rw [if_pos (by simpa using hbreak)]
        exact ⟨_, rfl⟩
      obtain ⟨is, hidx⟩ := hidx
      rw [hidx, gpsBreakLoop]
      have hstep : gpsBreakStep ((a :: b :: c :: l).map fun f => (f.t, f.msPPS))
          ⟨lims.map Prod.fst, lims.map Prod.snd, lo⟩ 0 = none := by
        unfold gpsBreakStep
        simp only
        have hb : broadcast (lims.map Prod.fst) (lims.map Prod.snd) = some lims := by
          unfold broadcast
          rw [if_pos (by simp), ← List.unzip_fst, ← List.unzip_snd, List.zip_unzip]
        rw [hb]
        simp only
        obtain ⟨k, hk, rfl⟩ := List.getElem_of_mem hp
        rw [if_pos]
        · have hw : pySlice ((a :: b :: c :: l).map fun f => (f.t, f.msPPS)) (((0 : Nat) : Int) - 1) (((0 : Nat) : Int) + 2) = [] :=
            (pySlice_window _ 0 (by simp)).mpr ⟨rfl, by simp⟩
          rw [hw]
          simp [maxOf]
        · apply List.ne_nil_of_mem (a := k)
          rw [List.mem_filter, List.mem_range]
          refine ⟨hk, ?_⟩
          simp only [List.map_cons, List.getD_cons_zero, List.getD_cons_succ, Bool.and_eq_true, decide_eq_true_eq, Nat.zero_add]
          rw [List.getD_eq_getElem?_getD, List.getElem?_eq_getElem hk]
          simp only [Option.getD_some]
          exact ⟨le_trans hay hy1, le_trans hx1 hxb⟩
      rw [hstep]

/-- Three fixes, with a leap second between the last two, and a gap between the samples: no problem. With the leap second between
the first two the block is lost. -/
example :
    let fixAt (ms t : Rat) : Fix := ⟨⟨ms, some 0, some 2020, some 1, some 1, some 0, some 0, some 0, some 1, some 1⟩, t⟩
    (findBreaks 100 [10, 20, 30, 2000, 2010, 2020] [fixAt 0 0, fixAt 1000 (1024 / 1000), fixAt 2000 (3048 / 1000)]).isSome = true ∧
    findBreaks 100 [10, 20, 30, 900, 910, 920] [fixAt 0 0, fixAt 1000 2, fixAt 2000 (3024 / 1000)] = none := by
  decide +kernel

/-! ## C19, C39: conversion requires GPS -/

theorem severalLoop_all_bad {F : Type} {ops : FileOps F} {rg : Bool} {version : String} : ∀ (files : List F) (acc : Several F),
    (∀ f ∈ files, ∀ start, ∃ row x, readOne ops rg version f start = (row, .error x) ∧ x.isException = true) →
    ∃ out, severalLoop ops rg version files acc = .ok out ∧ out.data = acc.data
  | [], acc, _ => ⟨acc, rfl, rfl⟩
  | f :: fs, acc, h => by
    obtain ⟨row, x, e, hx⟩ := h f (by simp) acc.startMillis
    rw [severalLoop]
    unfold severalStep
    rw [e]
    simp only
    rw [if_pos hx]
    obtain ⟨out, h1, h2⟩ := severalLoop_all_bad fs
      { acc with header := acc.header ++ [row], problems := acc.problems ++ [(f, x)] } fun f' hf' => h f' (by simp [hf'])
    exact ⟨out, h1, h2⟩

theorem firstBlock_all_skip {j : Job} (hb : 0 < j.blockdays) (h : ∀ block, ∃ x, j.read block = .error x ∧ x.skipsBlock = true) :
    ∀ (k : Nat) (n1 : Rat) (reads : List (List Int)), blocksLeft j n1 ≤ k → ∀ fuel, k < fuel →
      firstBlock j fuel n1 reads = .raised .missingRaw []
  | k, n1, reads, hk, 0, hf => absurd hf (Nat.not_lt_zero k)
  | k, n1, reads, hk, fuel + 1, hf => by
    rw [firstBlock]
    split_ifs with hle
    · obtain ⟨x, hx, hs⟩ := h (j.block n1)
      simp only
      rw [hx]
      simp only
      rw [if_pos hs]
      have hk1 := blocksLeft_lt hb hle
      exact firstBlock_all_skip hb h (k - 1) _ _ (by omega) fuel (by omega)
    · rfl

/-- Read with GPS required, the file is refused with an exception (not an interrupt): in the reader or in the fit of the clock. -/
structure RefusedWithGps (env : Env) (e : Entry) : Prop where
  read : ∀ start v x, env.ops.read e start true v = .error x → x.isException = true
  drift : ∀ start v L P, env.ops.read e start true v = .ok L → Placed start L P →
    ∃ x, env.ops.drift e P true = .error x ∧ x.isException = true

theorem readOne_refused {env : Env} {e : Entry} (h : RefusedWithGps env e) (version : String) (start : Rat) :
    ∃ row x, readOne env.ops true version e start = (row, .error x) ∧ x.isException = true := by
  obtain ⟨row, r, hro⟩ : ∃ row r, readOne env.ops true version e start = (row, r) := ⟨_, _, rfl⟩
  have ho := readOne_outcome env.ops true version e start
  rw [hro] at ho
  simp only at ho
  refine ⟨row, ?_⟩
  rw [hro]
  have hno : ∀ {v L P info}, env.ops.read e start true v = .ok L → Placed start L P → env.ops.drift e P true ≠ .ok info := by
    intro v L P info hL hp hd
    obtain ⟨y, hy, _⟩ := h.drift start v L P hL hp
    rw [hd] at hy
    simp at hy
  cases ho with
  | badVersion h' => exact ⟨_, rfl, rfl⟩
  | unreadable v hv x hx => exact ⟨_, rfl, h.read _ _ _ hx⟩
  | noData v hv L hL hn => exact ⟨_, rfl, rfl⟩
  | unsteady v hv L P hL hp hs => exact ⟨_, rfl, rfl⟩
  | badClock v hv L P hL hp hs x hd =>
    obtain ⟨y, hy, hx⟩ := h.drift start v L P hL hp
    rw [hd] at hy
    simp only [Except.error.injEq] at hy
    subst hy
    exact ⟨_, rfl, hx⟩
  | noSerial v hv L P hL hp hs info hd x hn => exact absurd hd (hno hL hp)
  | used v hv L P hL hp hs info hd sn hn => exact absurd hd (hno hL hp)

theorem readGem_refused {env : Env} {dir : List Entry} (hver : ∀ e ∈ dir, ∀ v, env.version e = some v →
    v ∈ ["0.8", "0.85", "0.85C", "0.9", "0.91", "1.10"]) (hno : ∀ e ∈ dir, RefusedWithGps env e) (SN : List Nat) (nums : List Int) :
    ∃ x, readGem env dir SN nums true = .error x ∧ x.skipsBlock = true := by
  have hmem : ∀ e ∈ findFiles dir SN nums, e ∈ dir := fun e he => ((mem_findFiles dir SN nums e).mp he).1
  unfold readGem
  split
  · exact ⟨_, rfl, rfl⟩
  · unfold readFilesAs
    split
    · exact ⟨_, rfl, rfl⟩
    · rename_i fs v first hf
      obtain ⟨bad, h1, h2, h3, h4⟩ := (firstReadable_some env _ _ _ _).mp hf
      have hfs : ∀ e ∈ fs, e ∈ dir := fun e he => hmem e (by rw [h1]; simp [he])
      have hfirst : first ∈ fs := List.mem_of_mem_head? h3
      have hv := hver first (hfs _ hfirst) v h4
      split
      · rename_i hs
        unfold severalVersion at hs
        split_ifs at hs with c1 c2
        simp only [List.mem_cons, List.not_mem_nil, or_false, not_or] at hv c1 c2
        tauto
      · rename_i w hw
        obtain ⟨out, e1, e2⟩ := severalLoop_all_bad (ops := env.ops) (rg := true) (version := w) fs ⟨[], [], [], [], [], 0⟩
          fun f hf' start => readOne_refused (hno f (hfs f hf')) w start
        unfold readSeveral
        rw [e1]
        simp only
        rw [if_pos e2]
        exact ⟨_, rfl, rfl⟩

theorem convertDir_refused (env : Env) (isDir : Bool) (dir : List Entry) (SN : List Nat) (nums : List (Option Int))
    (blockdays : Rat) (L : Int) (t1 : Option Int) (t2 : Int) (hb : 0 < blockdays) (hver : ∀ e ∈ dir, ∀ v, env.version e = some v →
    v ∈ ["0.8", "0.85", "0.85C", "0.9", "0.91", "1.10"]) (hno : ∀ e ∈ dir, RefusedWithGps env e) (ns : List Int)
    (hns : convertNums isDir dir SN nums = .ok ns) :
    ∃ N, ∀ fuel ≥ N, convertDir env isDir dir SN nums blockdays L t1 t2 fuel = .raised .missingRaw [] := by
  refine ⟨blocksLeft (jobOf env dir SN ns blockdays L t2) ((jobOf env dir SN ns blockdays L t2).nums.head?.getD 0 : Int) + 1, ?_⟩
  intro fuel hf
  unfold convertDir
  rw [hns]
  simp only
  unfold convertLoops
  rw [firstBlock_all_skip (j := jobOf env dir SN ns blockdays L t2) hb ?_
    (blocksLeft (jobOf env dir SN ns blockdays L t2) ((jobOf env dir SN ns blockdays L t2).nums.head?.getD 0 : Int)) _ _
    (le_refl _) fuel (by omega)]
  · rfl
  · intro block
    obtain ⟨x, hx, hs⟩ := readGem_refused hver hno SN block
    refine ⟨x, ?_, hs⟩
    unfold jobOf
    simp only
    rw [hx]
    rfl

/-- **C19, conversion.** Conversion always requires GPS: if no raw file has a single fix, then, whatever else they hold and whatever the
fitter, nothing is written, and `convert` ends with MissingRawFiles. -/
theorem C19_conversion_requires_gps (env : Env) (fit : Fitter) (hfit : ∀ e L rg, env.ops.drift e L rg = calculateDrift fit L rg)
    (isDir : Bool) (dir : List Entry) (SN : List Nat) (nums : List (Option Int)) (blockdays : Rat) (L : Int) (t1 : Option Int) (t2 : Int)
    (hb : 0 < blockdays)
    (hver : ∀ e ∈ dir, ∀ v, env.version e = some v → v ∈ ["0.8", "0.85", "0.85C", "0.9", "0.91", "1.10"])
    (hread : ∀ e ∈ dir, ∀ start v, (∃ x, env.ops.read e start true v = .error x ∧ x.isException = true) ∨
      ∃ F, env.ops.read e start true v = .ok F ∧ F.gps = [])
    (ns : List Int) (hns : convertNums isDir dir SN nums = .ok ns) :
    ∃ N, ∀ fuel ≥ N, convertDir env isDir dir SN nums blockdays L t1 t2 fuel = .raised .missingRaw [] := by
  apply convertDir_refused env isDir dir SN nums blockdays L t1 t2 hb hver _ ns hns
  intro e he
  constructor
  · intro start v x hx
    rcases hread e he start v with ⟨y, hy, h⟩ | ⟨F, hF, _⟩
    · rw [hx] at hy
      simp only [Except.error.injEq] at hy
      exact hy ▸ h
    · rw [hx] at hF
      simp at hF
  · intro start v F P hF hp
    have hg : F.gps = [] := by
      rcases hread e he start v with ⟨y, hy, h⟩ | ⟨F', hF', h⟩
      · rw [hF] at hy
        simp at hy
      · rw [hF] at hF'
        simp only [Except.ok.injEq] at hF'
        exact hF' ▸ h
    have hPg : P.gps = [] := by
      cases hp with
      | asRead h hne => exact hg
      | moved h => simp [movedBy, hg]
    refine ⟨.noGPS, ?_, rfl⟩
    rw [hfit, calculateDrift_eq, if_pos ⟨rfl, hPg⟩]

/-- A directory with two good files but no fixes; read without requiring GPS it would give data. -/
def noFixEnv : Env :=
  { demoEnv with ops := ⟨fun _ offset _ _ => .ok ⟨(List.range 5).map fun (k : Nat) => (offset + 10 * (k : Rat) + 10, some 7), [], []⟩,
      fun _ L rg => calculateDrift (fun _ _ => none) L rg, fun _ => .ok "012"⟩, version := fun _ => some "0.9" }

example : convertNums true demoFilesDir (bytes "012") [] = .ok [2, 3, 4] ∧
    ((readGem noFixEnv demoFilesDir (bytes "012") [2, 3, 4] false).map fun g => g.stream.length) = .ok 1 ∧
    (∀ e start v, ∃ F, noFixEnv.ops.read e start true v = .ok F ∧ F.gps = []) ∧
    convertDir noFixEnv true demoFilesDir (bytes "012") [] 1 3600000000 none 2000000000000000 20 = .raised .missingRaw [] := by
  refine ⟨by decide +kernel, by decide +kernel, fun e start v => ⟨_, rfl, rfl⟩, by decide +kernel⟩

end Gemlog
