import Verif.Model.Calib
import Verif.Props.Tables
import Verif.Props.WholeConvert
import Verif.Props.Specs

/-!
# C116: the scale factor in the converted files
-/

namespace Gemlog

/-- The factor from counts to `units` for an instrument and the gain code of a raw file: low gain (1) doubles it. -/
def TrueScale (specs : Specs) (gain : Int) (units : List Nat) (c : Rat) : Prop :=
  (gain = 0 ∧ ((units = bytes "Pa" ∧ c = specs.bitweightPa) ∨ (units = bytes "V" ∧ c = specs.bitweightV))) ∨
  (gain = 1 ∧ ((units = bytes "Pa" ∧ c = 2 * specs.bitweightPa) ∨ (units = bytes "V" ∧ c = 2 * specs.bitweightV))) ∨
  ((units = bytes "Counts" ∨ units = bytes "counts") ∧ c = 1)

theorem readGem_specs {env : Env} {dir : List Entry} {SN : List Nat} {nums : List Int} {rg : Bool} {g : GemData}
    (h : readGem env dir SN nums rg = .ok g) :
    ∃ dropped e rest b, findFiles dir SN nums = dropped ++ e :: rest ∧ (∀ e' ∈ dropped, env.version e' = none) ∧
      bitweightInfo SN (env.adc e) (bytes "Pa") = .ok b ∧ g.specs = b.1 := by
  have hfr : ∀ (l fs : List Entry) (v : String) (e : Entry), firstReadable env l = some (fs, v, e) →
      ∃ dropped rest, l = dropped ++ e :: rest ∧ ∀ e' ∈ dropped, env.version e' = none := by
    intro l
    induction l with
    | nil => intro fs v e h; simp [firstReadable] at h
    | cons x l ih =>
      intro fs v e h
      rw [firstReadable] at h
      split at h
      · simp only [Option.some.injEq, Prod.mk.injEq] at h
        obtain ⟨_, _, rfl⟩ := h
        exact ⟨[], l, rfl, by simp⟩
      · rename_i hv
        obtain ⟨dr, rest, h1, h2⟩ := ih _ _ _ h
        refine ⟨x :: dr, rest, by rw [h1]; rfl, ?_⟩
        intro e' he'
        rcases List.mem_cons.mp he' with rfl | he'
        · exact hv
        · exact h2 e' he'
  have key : ∀ files, readFilesAs env files SN rg = .ok g →
      ∃ dropped e rest b, files = dropped ++ e :: rest ∧ (∀ e' ∈ dropped, env.version e' = none) ∧
        bitweightInfo SN (env.adc e) (bytes "Pa") = .ok b ∧ g.specs = b.1 := by
    intro files h
    unfold readFilesAs at h
    split at h
    · cases h
    · rename_i fs v e hf
      obtain ⟨dr, rest, h1, h2⟩ := hfr _ _ _ _ hf
      split at h
      · cases h
      · split at h
        · cases h
        · split at h
          · cases h
          · dsimp only at h
            split at h
            · cases h
            · split at h
              · cases h
              · rename_i b hb
                cases h
                exact ⟨dr, e, rest, b, h1, h2, hb, rfl⟩
  unfold readGem at h
  split at h
  · cases h
  · exact key _ h

theorem bitweightInfo_ok {SN : List Nat} {adc : Int} {b : Specs × Rat} (h : bitweightInfo SN adc (bytes "Pa") = .ok b) :
    (adc = 0 ∨ adc = 1) ∧ ∃ n s, pyInt SN = some n ∧ gemSpecs n = .ok s ∧
      b.1.bitweightPa = (if adc = 0 then 1 else 2) * s.bitweightPa ∧ b.1.bitweightV = (if adc = 0 then 1 else 2) * s.bitweightV := by
  unfold bitweightInfo at h
  split at h
  · cases h
  · rename_i ha
    refine ⟨by omega, ?_⟩
    dsimp only at h
    split at h
    · cases h
    · rename_i n hn
      split at h
      · cases h
      · rename_i s hs
        rw [if_pos (by decide +kernel)] at h
        cases h
        exact ⟨n, s, hn, hs, mul_comm _ _, mul_comm _ _⟩

/-- The scale chosen from the header is the true one for the gain code of the file the header comes from. -/
theorem scale_of_header {SN : List Nat} {n : Int} {specs : Specs} (hn : pyInt SN = some n) (hs : gemSpecs n = .ok specs) {adc : Int}
    {b : Specs × Rat} (hb : bitweightInfo SN adc (bytes "Pa") = .ok b) (units : List Nat) :
    (∃ c, convertBitweight none b.1 units = some c ∧ TrueScale specs adc units c) ∨
    (convertBitweight none b.1 units = none ∧ units ≠ bytes "Pa" ∧ units ≠ bytes "V" ∧ units ≠ bytes "Counts" ∧ units ≠ bytes "counts") := by
  obtain ⟨ha, n', s', h1, h2, h3, h4⟩ := bitweightInfo_ok hb
  rw [hn] at h1
  cases h1
  rw [hs] at h2
  cases h2
  unfold convertBitweight
  dsimp only
  by_cases u1 : units = bytes "Pa"
  · rw [if_pos u1]
    refine .inl ⟨_, rfl, ?_⟩
    rcases ha with ha | ha
    · exact .inl ⟨ha, .inl ⟨u1, by rw [h3, if_pos ha, one_mul]⟩⟩
    · exact .inr (.inl ⟨ha, .inl ⟨u1, by rw [h3, if_neg (by omega)]⟩⟩)
  rw [if_neg u1]
  by_cases u2 : units = bytes "V"
  · rw [if_pos u2]
    refine .inl ⟨_, rfl, ?_⟩
    rcases ha with ha | ha
    · exact .inl ⟨ha, .inr ⟨u2, by rw [h4, if_pos ha, one_mul]⟩⟩
    · exact .inr (.inl ⟨ha, .inr ⟨u2, by rw [h4, if_neg (by omega)]⟩⟩)
  rw [if_neg u2]
  by_cases u3 : units = bytes "Counts" ∨ units = bytes "counts"
  · rw [if_pos u3]
    exact .inl ⟨1, rfl, .inr (.inr ⟨u3, rfl⟩)⟩
  · rw [if_neg u3]
    rw [not_or] at u3
    exact .inr ⟨rfl, u1, u2, u3.1, u3.2⟩

/-- The blocks read begin with those read while looking for the first data. -/
theorem reads_begin {j : TableJob} {t1 : Option Int} {fuel : Nat} {s : CState} {n2 : Rat} {p : List Trace} {rd : List (List Int)}
    (hc : convertLoops j.job t1 fuel = .done s) (h2 : firstBlock j.job fuel (j.nums.head?.getD 0 : Int) [] = .done (n2, p, rd)) :
    ∃ after, s.reads = rd ++ after := by
  rw [convertLoops_eq, show firstBlock j.job fuel (j.job.nums.head?.getD 0 : Int) [] = _ from h2] at hc
  simp only [Run.bind] at hc
  unfold startRun at hc
  cases hst : startTime t1 p with
  | error x => simp [hst] at hc
  | ok q =>
    obtain ⟨p0, t0⟩ := q
    simp only [hst] at hc
    obtain ⟨s1, hs1, hc⟩ := run_bind_done hc
    obtain ⟨w, hw, hc⟩ := run_bind_done hc
    simp only [Run.done.injEq] at hc
    rcases mainLoopT_spec j fuel _ ⟨[], [], []⟩ with ⟨s', rd', _, e2, e3⟩ | ⟨x, o, _, e2⟩ | ⟨_, e2⟩
    · rw [hs1] at e2
      cases e2
      rw [← hc]
      exact ⟨rd', e3⟩
    · rw [hs1] at e2; cases e2
    · rw [hs1] at e2; cases e2

/-- What the scaled conversion is, when it ends. -/
theorem scaled_done {env : Env} {isDir : Bool} {dir : List Entry} {SN : List Nat} {nums : List (Option Int)} {blockdays : Rat} {L : Int}
    {t1 : Option Int} {t2 : Int} {given : Option Rat} {units : List Nat} {fuel : Nat} {out : List (Trace × Option Rat)}
    (h : convertScaled env isDir dir SN nums blockdays L t1 t2 given units fuel = .done out) :
    ∃ s g block, convertDir env isDir dir SN nums blockdays L t1 t2 fuel = .done s ∧ block ∈ s.reads ∧ readGem env dir SN block true = .ok g ∧
      g.stream ≠ [] ∧ (∃ before after, s.reads = before ++ block :: after ∧
        ∀ b ∈ before, ∀ g', readGem env dir SN b true = .ok g' → g'.stream = []) ∧
      out = s.w.out.map fun tr => (tr, convertBitweight given g.specs units) := by
  unfold convertScaled at h
  unfold convertDir
  cases hns : convertNums isDir dir SN nums with
  | error x => rw [hns] at h; cases h
  | ok ns =>
    rw [hns] at h
    dsimp only at h ⊢
    obtain ⟨j, hj⟩ : ∃ j, j = tableJobOf env dir SN ns blockdays L t2 := ⟨_, rfl⟩
    have hj' : jobOf env dir SN ns blockdays L t2 = j.job := by rw [hj]; rfl
    have hread : ∀ b, j.readAll b = readGem env dir SN b true := by intro b; rw [hj]; rfl
    rw [← hj] at h
    rw [hj']
    rcases firstBlockT_spec j fuel (j.nums.head?.getD 0) [] with ⟨n2, g, b, rd, h1, h2, h3, h4, h5⟩ | ⟨x, h1, h2⟩ | ⟨h1, h2⟩
    · rw [h1] at h
      simp only [Run.bind] at h
      cases hc : convertLoops j.job t1 fuel with
      | raised x o => rw [hc] at h; cases h
      | running => rw [hc] at h; cases h
      | done s =>
        rw [hc] at h
        simp only [Run.done.injEq] at h
        obtain ⟨after, hafter⟩ := reads_begin hc h2
        simp only [List.nil_append, List.append_assoc, List.singleton_append] at hafter
        refine ⟨s, g, b, rfl, by rw [hafter]; simp, by rw [← hread]; exact h4, h5, ⟨rd, after, hafter, ?_⟩, h.symm⟩
        intro b' hb' g' hg'
        by_contra hne
        obtain ⟨x, y, rfl⟩ := List.append_of_mem hb'
        rw [show x ++ b' :: y = x ++ ([b'] ++ y) from rfl, dataOf_append, dataOf_append, dataOf_ok (by rw [hread]; exact hg') hne] at h3
        simp at h3
    · rw [h1] at h; cases h
    · rw [h1] at h; cases h

theorem scaled_of_dir {env : Env} {isDir : Bool} {dir : List Entry} {SN : List Nat} {nums : List (Option Int)} {blockdays : Rat} {L : Int}
    {t1 : Option Int} {t2 : Int} {fuel : Nat} {s : CState} (h : convertDir env isDir dir SN nums blockdays L t1 t2 fuel = .done s)
    (given : Option Rat) (units : List Nat) : ∃ out, convertScaled env isDir dir SN nums blockdays L t1 t2 given units fuel = .done out := by
  unfold convertDir at h
  unfold convertScaled
  cases hns : convertNums isDir dir SN nums with
  | error x => rw [hns] at h; cases h
  | ok ns =>
    rw [hns] at h
    dsimp only at h ⊢
    rw [show jobOf env dir SN ns blockdays L t2 = (tableJobOf env dir SN ns blockdays L t2).job from rfl] at h
    rw [h]
    rw [convertLoops_eq] at h
    obtain ⟨r, hr, _⟩ := run_bind_done h
    rcases firstBlockT_spec (tableJobOf env dir SN ns blockdays L t2) fuel ((tableJobOf env dir SN ns blockdays L t2).nums.head?.getD 0) [] with
      ⟨n2, g, b, rd, h1, _⟩ | ⟨x, _, h2⟩ | ⟨_, h2⟩
    · rw [h1]
      exact ⟨_, rfl⟩
    · exact absurd (h2.symm.trans hr) (by simp)
    · exact absurd (h2.symm.trans hr) (by simp)

theorem spans_after : ∀ {r0 : BlockSpan} {rs : List BlockSpan}, (∀ r ∈ r0 :: rs, 1 / 100 ≤ r.stop - r.start) →
    ((r0 :: rs).IsChain fun x y => x.stop < y.start) → ∀ r ∈ rs, r0.stop < r.start
  | _, [], _, _ => by simp
  | r0, r1 :: rs, hl, hc => by
    obtain ⟨h1, h2⟩ := List.isChain_cons_cons.mp hc
    have ih := spans_after (fun r hr => hl r (List.mem_cons_of_mem _ hr)) h2
    have hl1 := hl r1 (by simp)
    intro r hr
    rcases List.mem_cons.mp hr with rfl | hr
    · exact h1
    · have := ih r hr
      linarith

/-- **C116.** For every folder and every choice of numbers, times and block length: when the conversion ends, it has written the segments of the conversion of
C29, each with the same factor. A factor given by the user is used as it is. Otherwise, if all raw files of the logger have the same gain, the factor of every
segment is the one for the instrument, the gain and the unit. -/
theorem C116_scale (env : Env) (isDir : Bool) (dir : List Entry) (SN : List Nat) (nums : List (Option Int)) (blockdays : Rat) (L : Int)
    (t1 : Option Int) (t2 : Int) (given : Option Rat) (units : List Nat) (fuel : Nat) (out : List (Trace × Option Rat))
    (hdone : convertScaled env isDir dir SN nums blockdays L t1 t2 given units fuel = .done out) :
    (∃ s, convertDir env isDir dir SN nums blockdays L t1 t2 fuel = .done s ∧ out.map Prod.fst = s.w.out) ∧
    (∀ b, given = some b → ∀ p ∈ out, p.2 = some b) ∧
    (given = none → units ∈ [bytes "Pa", bytes "V", bytes "Counts", bytes "counts"] →
      ∀ gain, (∀ block, ∀ e ∈ findFiles dir SN block, env.adc e = gain) →
      ∃ n specs, pyInt SN = some n ∧ gemSpecs n = .ok specs ∧ (gain = 0 ∨ gain = 1) ∧
        ∀ p ∈ out, ∃ c, p.2 = some c ∧ TrueScale specs gain units c) := by
  obtain ⟨s, g, block, h1, h2, h3, h4, h5, h6⟩ := scaled_done hdone
  refine ⟨⟨s, h1, by rw [h6, List.map_map]; exact List.map_id _⟩, ?_, ?_⟩
  · intro b hb p hp
    rw [h6] at hp
    obtain ⟨tr, _, rfl⟩ := List.mem_map.mp hp
    rw [hb]
    rfl
  · intro hg hu gain hgain
    obtain ⟨dr, e, rest, b, e1, _, e3, e4⟩ := readGem_specs h3
    obtain ⟨ha, n, specs, hn, hs, _⟩ := bitweightInfo_ok e3
    have hadc : env.adc e = gain := hgain block e (by rw [e1]; simp)
    rw [hadc] at e3 ha
    refine ⟨n, specs, hn, hs, ha, fun p hp => ?_⟩
    rw [h6] at hp
    obtain ⟨tr, _, rfl⟩ := List.mem_map.mp hp
    rw [hg, e4]
    rcases scale_of_header hn hs e3 units with hc | ⟨_, u1, u2, u3, u4⟩
    · exact hc
    · simp only [List.mem_cons, List.not_mem_nil, or_false] at hu
      tauto

/-- **C116, violated by a change of gain.** Let the blocks be as in C66, and let the files of a later block have another gain than the first file. Then the
conversion ends normally, and a segment with a sample recorded in that block carries the factor for the gain of the first file, which is wrong for the block by the factor
2 or 1/2. -/
theorem C116_violated_gain (d : RawDisk) (dir : List Entry) (SN : List Nat) (log : Entry → List Event) (nums : List (Option Int)) (ns : List Int)
    (hns : convertNums true dir SN nums = .ok ns) (n : Int) (hn : pyInt SN = some n) (specs : Specs) (hspecs : gemSpecs n = .ok specs)
    (hfit : Reproduces d.fit) (hfit1 : ReproducesLines d.fit) (blockdays : Rat) (l t2 : Int) (hb : 0 < blockdays) (hl : 0 < l)
    (r0 : BlockSpan) (rs : List BlockSpan) (b0 : List Int) (bs : List (List Int))
    (hbs : (jobOf d.env dir SN ns blockdays (10000 * l) t2).blocks = b0 :: bs)
    (hblocks : List.Forall₂ (fun block r => ∃ first rest, CleanBlock d dir SN log block r first rest) (b0 :: bs) (r0 :: rs))
    (horder : (r0 :: rs).IsChain fun x y => x.stop < y.start) (hpos : 1 ≤ r0.start) (hlong : 103 / 100 ≤ r0.stop - r0.start)
    (hfar : ∀ r ∈ r0 :: rs, 1000000 * r.stop + 10000 * l + ⌈86400000000 * blockdays⌉ + 1000000 ≤ t2)
    (first : Entry) (rest : List Entry) (hfirst : findFiles dir SN b0 = first :: rest)
    (block : List Int) (r : BlockSpan) (hbr : (block, r) ∈ bs.zip rs) (gain : Int) (hgain : ∀ e ∈ findFiles dir SN block, d.adc e = gain)
    (hother : gain ≠ d.adc first) (units : List Nat) (hu : units = bytes "Pa" ∨ units = bytes "V") :
    ∃ out, Settles (convertScaled d.env true dir SN nums blockdays (10000 * l) none t2 none units) (.done out) ∧
      ∃ p ∈ out, ∃ q ∈ stamps p.1.start p.1.data, r.start - 5 / 1000 ≤ (q.1 : Rat) / 100 ∧ (q.1 : Rat) / 100 ≤ r.stop - 5 / 1000 ∧
        ∃ c, p.2 = some c ∧ TrueScale specs (d.adc first) units c ∧ ¬ TrueScale specs gain units c ∧
          (TrueScale specs gain units (2 * c) ∨ TrueScale specs gain units (c / 2)) := by
  obtain ⟨tr0, trs, s, h, ht, hs, hreads, hm, hh1, hh2, hout, _⟩ := C66_convert d dir SN log nums ns hns n hn specs hspecs hfit hfit1 blockdays l t2 hb hl
    r0 rs (by rw [hbs]; exact hblocks) horder hpos hlong hfar
  have hlongs : ∀ r ∈ r0 :: rs, 1 / 100 ≤ r.stop - r.start := by
    intro r hr
    obtain ⟨b, _, _, _, h⟩ := forall₂_right hblocks r hr
    exact h.long
  obtain ⟨g0, tr0', f1, f2, _⟩ := cleanBlock_trace (List.forall₂_cons.mp hblocks).1 n hn specs hspecs hfit hfit1
  obtain ⟨first', rest', hc0⟩ := (List.forall₂_cons.mp hblocks).1
  obtain ⟨rfl, rfl⟩ : first = first' ∧ rest = rest' := by
    have := hfirst.symm.trans hc0.files
    simpa using this
  obtain ⟨v, hv, hver⟩ := hc0.version
  have hvers : d.env.version first ≠ none := by
    show formatVersion (d.content first) ≠ none
    rw [hc0.texts first (by simp), formatVersion_first hv hver]
    simp
  -- the header is that of the first file
  obtain ⟨b, hbw, hgs⟩ : ∃ b, bitweightInfo SN (d.adc first) (bytes "Pa") = .ok b ∧ g0.specs = b.1 := by
    obtain ⟨dr, e, rest', b, e1, e2, e3, e4⟩ := readGem_specs f1
    rw [hfirst] at e1
    cases dr with
    | nil =>
      simp only [List.nil_append, List.cons.injEq] at e1
      rw [← e1.1] at e3
      exact ⟨b, e3, e4⟩
    | cons x dr =>
      simp only [List.cons_append, List.cons.injEq] at e1
      exact absurd (e2 first (by rw [e1.1]; simp)) hvers
  have hset : Settles (convertScaled d.env true dir SN nums blockdays (10000 * l) none t2 none units)
      (.done (s.w.out.map fun tr => (tr, convertBitweight none g0.specs units))) := by
    obtain ⟨_, N, hN⟩ := hs
    refine ⟨by simp, N, fun m hm => ?_⟩
    obtain ⟨out, ho⟩ := scaled_of_dir (hN m hm) none units
    obtain ⟨s', g, block', k1, k2, k3, k4, ⟨before, after, k5, k6⟩, k7⟩ := scaled_done ho
    rw [hN m hm] at k1
    cases k1
    rw [hreads, hbs] at k5
    cases before with
    | cons x before =>
      simp only [List.cons_append, List.cons.injEq] at k5
      have := k6 x (by simp) g0 (by rw [← k5.1]; exact f1)
      rw [f2] at this
      cases this
    | nil =>
      simp only [List.nil_append, List.cons.injEq] at k5
      rw [← k5.1, f1] at k3
      cases k3
      rw [ho, k7]
  refine ⟨_, hset, ?_⟩
  -- a sample of the later block
  obtain ⟨hrs, hz⟩ := List.forall₂_iff_zip.mp (List.forall₂_cons.mp hblocks).2
  obtain ⟨first1, rest1, hc1⟩ := hz hbr
  have hr : r ∈ rs := (List.of_mem_zip hbr).2
  obtain ⟨tr, htr, hto⟩ : ∃ tr ∈ trs, TraceOver r tr := by
    obtain ⟨hlen, hz'⟩ := List.forall₂_iff_zip.mp (List.forall₂_cons.mp ht).2
    obtain ⟨i, hi, rfl⟩ := List.mem_iff_getElem.mp hr
    refine ⟨trs[i], List.getElem_mem _, hz' ?_⟩
    rw [← List.getElem_zip (h := by simp; omega)]
    exact List.getElem_mem _
  have hne := traceOver_ne hto (hlongs r (by simp [hr]))
  obtain ⟨x, xs, hx⟩ := List.exists_cons_of_ne_nil hne
  have hq : (tr.start, x) ∈ stamps tr.start tr.data := by rw [hx]; simp [stamps]
  have hqb := traceOver_bounds hto hq
  have hafter := spans_after hlongs horder r hr
  have ht0 := (List.forall₂_cons.mp ht).1.start
  unfold Trace.time at ht0
  rw [abs_le] at ht0
  have hin : (tr.start, x) ∈ samples s.w.out := by
    rw [hout]
    unfold from_
    rw [List.mem_filter]
    refine ⟨(fillIn_sublist _).subset ?_, ?_⟩
    · unfold samples
      exact List.mem_flatMap.mpr ⟨tr, List.mem_cons_of_mem _ htr, hq⟩
    · rw [decide_eq_true_eq]
      have h1 : (h : Rat) < 10000 * tr0.start + 1000000 := by exact_mod_cast hh2
      have h2 : (h : Rat) ≤ 10000 * tr.start := by
        have := hqb.1
        have := ht0.2
        push_cast at *
        linarith
      exact_mod_cast h2
  unfold samples at hin
  obtain ⟨tr1, htr1, hq1⟩ := List.mem_flatMap.mp hin
  refine ⟨(tr1, convertBitweight none g0.specs units), List.mem_map.mpr ⟨tr1, htr1, rfl⟩, _, hq1, hqb.1, hqb.2, ?_⟩
  have hg1 : gain = 0 ∨ gain = 1 := by
    rw [← hgain first1 (by rw [hc1.files]; simp)]
    exact hc1.gain
  obtain ⟨_, _, p1, p2⟩ := C41_bitweights n specs hspecs
  have u1 : bytes "Pa" ≠ bytes "V" := by decide +kernel
  have u2 : bytes "Pa" ≠ bytes "Counts" := by decide +kernel
  have u3 : bytes "Pa" ≠ bytes "counts" := by decide +kernel
  have u4 : bytes "V" ≠ bytes "Counts" := by decide +kernel
  have u5 : bytes "V" ≠ bytes "counts" := by decide +kernel
  rw [hgs]
  rcases scale_of_header hn hspecs hbw units with ⟨c, hcc, hct⟩ | ⟨_, w1, w2, _⟩
  · refine ⟨c, hcc, hct, ?_⟩
    have ha0 := hc0.gain
    generalize d.adc first = a at *
    unfold TrueScale at *
    rcases hu with rfl | rfl <;> rcases ha0 with rfl | rfl <;> rcases hg1 with rfl | rfl <;>
      simp only [u1, u2, u3, u4, u5, u1.symm, true_and, false_and, or_false, false_or, ne_eq, not_true, zero_ne_one, one_ne_zero] at * <;>
      subst hct
    · exact ⟨fun h => by linarith, .inl rfl⟩
    · exact ⟨fun h => by linarith, .inr (by ring)⟩
    · exact ⟨fun h => by linarith, .inl rfl⟩
    · exact ⟨fun h => by linarith, .inr (by ring)⟩
  · rcases hu with rfl | rfl
    · exact absurd rfl w1
    · exact absurd rfl w2

/-- **C116, violated for miniSEED.** The unit and the factor have no effect on what is read back from a miniSEED file: the factor read is 1 whatever was asked for,
which is not the factor to pascals or volts of any instrument at any gain. -/
theorem C116_violated_mseed (env : Env) (isDir : Bool) (dir : List Entry) (SN : List Nat) (nums : List (Option Int)) (blockdays : Rat) (L : Int)
    (t1 : Option Int) (t2 : Int) (given given' : Option Rat) (units units' : List Nat) (fuel : Nat) (out : List (Trace × Option Rat))
    (hdone : convertScaled env isDir dir SN nums blockdays L t1 t2 given units fuel = .done out) :
    (∃ out', convertScaled env isDir dir SN nums blockdays L t1 t2 given' units' fuel = .done out' ∧
      out'.map (readBack (bytes "MSEED")) = out.map (readBack (bytes "MSEED"))) ∧
    (∀ p ∈ out, (readBack (bytes "MSEED") p).2 = some 1) ∧
    (∀ n specs gain, gemSpecs n = .ok specs → ¬ TrueScale specs gain (bytes "Pa") 1 ∧ ¬ TrueScale specs gain (bytes "V") 1) ∧
    ∀ p ∈ out, readBack (bytes "SAC") p = p := by
  have hm : ∀ p, readBack (bytes "MSEED") p = (p.1, some 1) := fun p => by unfold readBack; rw [if_neg (by decide +kernel)]
  obtain ⟨s, g, block, h1, _, _, _, _, h6⟩ := scaled_done hdone
  obtain ⟨out', ho⟩ := scaled_of_dir h1 given' units'
  obtain ⟨s', g', _, h1', _, _, _, _, h6'⟩ := scaled_done ho
  rw [h1] at h1'
  cases h1'
  refine ⟨⟨out', ho, ?_⟩, fun p _ => by rw [hm], ?_, fun p _ => by unfold readBack; rw [if_pos (by decide +kernel)]⟩
  · rw [h6, h6', List.map_map, List.map_map]
    apply List.map_congr_left
    intro tr _
    simp only [Function.comp_apply, hm]
  · intro n specs gain hsp
    have hrow : ∀ row ∈ versionTable, (specsOf row.1).bitweightPa ≠ 1 ∧ 2 * (specsOf row.1).bitweightPa ≠ 1 ∧ (specsOf row.1).bitweightV ≠ 1 ∧
        2 * (specsOf row.1).bitweightV ≠ 1 := by decide +kernel
    unfold gemSpecs at hsp
    split at hsp
    · cases hsp
    · rename_i row hr
      cases hsp
      obtain ⟨e1, e2, e3, e4⟩ := hrow row (List.mem_of_mem_filter (List.mem_of_mem_head? hr))
      have u1 : bytes "Pa" ≠ bytes "V" := by decide +kernel
      have u2 : bytes "Pa" ≠ bytes "Counts" := by decide +kernel
      have u3 : bytes "Pa" ≠ bytes "counts" := by decide +kernel
      have u4 : bytes "V" ≠ bytes "Counts" := by decide +kernel
      have u5 : bytes "V" ≠ bytes "counts" := by decide +kernel
      constructor <;> unfold TrueScale <;> rintro (⟨_, ⟨_, h⟩ | ⟨_, h⟩⟩ | ⟨_, ⟨_, h⟩ | ⟨_, h⟩⟩ | ⟨_ | _, _⟩) <;>
        first | exact e1 h.symm | exact e2 h.symm | exact e3 h.symm | exact e4 h.symm | simp_all

/-- The disk of the example of C66, but with low gain in the second file. -/
noncomputable def gainDisk : RawDisk := { longDisk with adc := fun e => if e.name = bytes "FILE0001.012" then 0 else 1 }

theorem gain_block (s : Nat) (hs : s = 0 ∨ s = 2) (n : Int) (e : Entry) (hn : n = 1 ∧ s = 0 ∧ e = ⟨bytes "FILE0001.012", 500, .str (bytes "012")⟩ ∨
    n = 13 ∧ s = 2 ∧ e = ⟨bytes "FILE0013.012", 500, .str (bytes "012")⟩) :
    CleanBlock gainDisk longDir (bytes "012") longOf [n] (longSpan s) e [] := by
  obtain ⟨c1, c2, c3, c4, c5, _, c7, c8, c9, c10, c11⟩ := long_block s hs n e hn
  refine ⟨c1, c2, c3, c4, c5, ?_, c7, c8, c9, c10, c11⟩
  show (if e.name = bytes "FILE0001.012" then (0 : Int) else 1) = 0 ∨ (if e.name = bytes "FILE0001.012" then (0 : Int) else 1) = 1
  split
  · exact .inl rfl
  · exact .inr rfl

/-- The hypotheses of `C116_violated_gain` hold for two files, the second with low gain: a sample of the second carries the factor of high gain. -/
example : ∃ out, Settles (convertScaled gainDisk.env true longDir (bytes "012") [none] 1 (10000 * 360000) none 253402300799000000 none (bytes "Pa")) (.done out) ∧
    ∃ p ∈ out, ∃ q ∈ stamps p.1.start p.1.data, 1577836802 ≤ (q.1 : Rat) / 100 + 5 / 1000 := by
  obtain ⟨specs, hsp⟩ : ∃ specs, gemSpecs 12 = .ok specs := ⟨_, rfl⟩
  have hb : (jobOf gainDisk.env longDir (bytes "012") [1, 13] 1 (10000 * 360000) 253402300799000000).blocks = [[1], [13]] := by decide +kernel
  obtain ⟨out, h1, p, hp, q, hq, h2, _⟩ := C116_violated_gain gainDisk longDir (bytes "012") longOf [none] [1, 13] (by decide +kernel) 12
    (by decide +kernel) specs hsp idealFit_reproduces idealFit_line 1 360000 253402300799000000 (by norm_num) (by norm_num) (longSpan 0) [longSpan 2]
    [1] [[13]] hb
    (.cons ⟨_, _, gain_block 0 (.inl rfl) 1 _ (.inl ⟨rfl, rfl, rfl⟩)⟩ (.cons ⟨_, _, gain_block 2 (.inr rfl) 13 _ (.inr ⟨rfl, rfl, rfl⟩)⟩ .nil))
    (by unfold longSpan; simp only [List.isChain_cons_cons, List.isChain_singleton]; norm_num) (by unfold longSpan; norm_num)
    (by unfold longSpan; norm_num)
    (by
      intro r hr
      simp only [List.mem_cons, List.not_mem_nil, or_false] at hr
      rcases hr with rfl | rfl <;> unfold longSpan <;> norm_num)
    ⟨bytes "FILE0001.012", 500, .str (bytes "012")⟩ [] (gain_block 0 (.inl rfl) 1 _ (.inl ⟨rfl, rfl, rfl⟩)).files [13] (longSpan 2) (by simp) 1
    (by
      intro e he
      rw [(gain_block 2 (.inr rfl) 13 _ (.inr ⟨rfl, rfl, rfl⟩)).files] at he
      simp only [List.mem_singleton] at he
      rw [he]
      show (if bytes "FILE0013.012" = bytes "FILE0001.012" then (0 : Int) else 1) = 1
      rw [if_neg (by decide +kernel)])
    (by
      show (1 : Int) ≠ if bytes "FILE0001.012" = bytes "FILE0001.012" then (0 : Int) else 1
      rw [if_pos rfl]
      decide) (bytes "Pa") (.inl rfl)
  refine ⟨out, h1, p, hp, q, hq, ?_⟩
  unfold longSpan at h2
  norm_num at h2 ⊢
  linarith

/-- The hypotheses of `C116_scale` and `C116_violated_mseed` hold for the example of C66, where all files have high gain. -/
example : ∃ fuel out, convertScaled longDisk.env true longDir (bytes "012") [none] 1 (10000 * 360000) none 253402300799000000 none (bytes "Pa") fuel
      = .done out ∧ out ≠ [] ∧ ∀ p ∈ out, ∃ c, p.2 = some c := by
  obtain ⟨specs, hsp⟩ : ∃ specs, gemSpecs 12 = .ok specs := ⟨_, rfl⟩
  obtain ⟨tr0, trs, s, h, _, ⟨_, N, hN⟩, _, _, _, _, _, hc⟩ := C66_convert longDisk longDir (bytes "012") longOf [none] [1, 13] (by decide +kernel) 12
    (by decide +kernel) specs hsp idealFit_reproduces idealFit_line 1 360000 253402300799000000 (by norm_num) (by norm_num) (longSpan 0) [longSpan 2]
    (by
      have : (jobOf longDisk.env longDir (bytes "012") [1, 13] 1 (10000 * 360000) 253402300799000000).blocks = [[1], [13]] := by decide +kernel
      rw [this]
      exact .cons ⟨_, _, long_block 0 (.inl rfl) 1 _ (.inl ⟨rfl, rfl, rfl⟩)⟩
        (.cons ⟨_, _, long_block 2 (.inr rfl) 13 _ (.inr ⟨rfl, rfl, rfl⟩)⟩ .nil))
    (by unfold longSpan; simp only [List.isChain_cons_cons, List.isChain_singleton]; norm_num) (by unfold longSpan; norm_num)
    (by unfold longSpan; norm_num)
    (by
      intro r hr
      simp only [List.mem_cons, List.not_mem_nil, or_false] at hr
      rcases hr with rfl | rfl <;> unfold longSpan <;> norm_num)
  have hd := hN N (le_refl _)
  obtain ⟨out, ho⟩ := scaled_of_dir hd none (bytes "Pa")
  obtain ⟨⟨s', g1, g2⟩, _, g3⟩ := C116_scale _ _ _ _ _ _ _ _ _ _ _ _ out ho
  refine ⟨N, out, ho, ?_, ?_⟩
  · rintro rfl
    rw [hd] at g1
    cases g1
    obtain ⟨_, e, _⟩ := hc (by unfold longSpan; simp only [List.isChain_cons_cons, List.isChain_singleton]; norm_num)
    rw [← g2] at e
    simp [samples] at e
  · obtain ⟨_, _, _, _, _, h⟩ := g3 rfl (by simp) 0 (fun _ _ _ => rfl)
    exact fun p hp => ⟨_, (h p hp).choose_spec.1⟩

end Gemlog
