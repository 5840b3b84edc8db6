import Verif.Props.TwoStepsRaw
import Verif.Props.LimitsRead
import Verif.Props.LimitsEnd

/-!
# C124: the length of the output files decides only how the samples are divided
-/

namespace Gemlog

theorem ordinary_first {j : Job} (h : Ordinary j) : ∃ d1 rest, FirstData j d1 rest ∧ j.record j.blocks = d1 ++ rest := by
  obtain ⟨q, hq, -⟩ := h.reaches
  have hne : j.record j.blocks ≠ [] := by
    intro e
    unfold Job.recorded at hq
    rw [e] at hq
    simp [samples] at hq
  obtain ⟨before, b, after, e1, e2, e3⟩ := firstData_exists j j.blocks hne
  refine ⟨j.streamOf b, j.record after, ⟨⟨before, b, after, e1, e2, rfl, rfl⟩, e3⟩, ?_⟩
  unfold Job.record at e2 ⊢
  rw [e1, List.flatMap_append, e2, List.flatMap_cons]
  rfl

/-- **C124.** Without given limits, two conversions of the same files with different lengths of the output files write the same samples in the same order. -/
theorem C124_file_length (j : Job) (L : Int) (h : Ordinary j) (h' : Ordinary { j with L := L }) :
    ∃ s s', Settles (convertLoops j none) (.done s) ∧ Settles (convertLoops { j with L := L } none) (.done s') ∧ samples s.w.out = samples s'.w.out := by
  obtain ⟨s, a1, a2⟩ := ordinary_out h
  obtain ⟨s', b1, b2⟩ := ordinary_out h'
  exact ⟨s, s', a1, b1, by rw [a2, b2]; rfl⟩

/-- **C124, from the raw files.** Files recorded without defects, converted with two lengths of the output files. -/
theorem C124_raw (d : RawDisk) (dir : List Entry) (SN : List Nat) (log : Entry → List Event) (nums : List (Option Int)) (ns : List Int)
    (hns : convertNums true dir SN nums = .ok ns) (n : Int) (hn : pyInt SN = some n) (specs : Specs) (hspecs : gemSpecs n = .ok specs)
    (hfit : Reproduces d.fit) (hfit1 : ReproducesLines d.fit) (blockdays : Rat) (l l' t2 : Int) (hb : 0 < blockdays) (hl : 0 < l) (hl' : 0 < l')
    (r0 : BlockSpan) (rs : List BlockSpan)
    (hblocks : List.Forall₂ (fun block r => ∃ first rest, CleanBlock d dir SN log block r first rest)
      (jobOf d.env dir SN ns blockdays (10000 * l) t2).blocks (r0 :: rs))
    (horder : (r0 :: rs).IsChain fun x y => x.stop < y.start) (hpos : 1 ≤ r0.start) (hlong : 103 / 100 ≤ r0.stop - r0.start)
    (hfar : ∀ r ∈ r0 :: rs, 1000000 * r.stop + 10000 * max l l' + ⌈86400000000 * blockdays⌉ + 1000000 ≤ t2) :
    ∃ s s', Settles (convertDir d.env true dir SN nums blockdays (10000 * l) none t2) (.done s) ∧
      Settles (convertDir d.env true dir SN nums blockdays (10000 * l') none t2) (.done s') ∧ samples s.w.out = samples s'.w.out := by
  have y := clean_yields d dir SN log n hn specs hspecs hfit hfit1 hblocks
  have hflat : ((r0 :: rs).map fun r => [r]).flatten = r0 :: rs := by
    rw [← List.flatMap_def]
    simp
  have hlongs : ∀ r ∈ r0 :: rs, 1 / 100 ≤ r.stop - r.start := by
    intro r hr
    obtain ⟨b, _, _, _, h⟩ := forall₂_right hblocks r hr
    exact h.long
  have hm1 : (l : Rat) ≤ max (l : Rat) l' := le_max_left _ _
  have hm2 : (l' : Rat) ≤ max (l : Rat) l' := le_max_right _ _
  push_cast at hfar
  have o := spans_ordinary d.env dir SN ns blockdays l t2 hb hl _ r0 rs hflat y hlongs horder hpos hlong fun r hr => by linarith [hfar r hr]
  have o' := spans_ordinary d.env dir SN ns blockdays l' t2 hb hl' _ r0 rs hflat y hlongs horder hpos hlong fun r hr => by linarith [hfar r hr]
  rw [convertDir_loops hns, convertDir_loops hns]
  exact C124_file_length _ _ o o'

/-- **C124, with a given start.** Then the two write the same samples of the record: all those from the start on. Missing: what is filled in where a few samples are missing
(`C124_violated_filling`). -/
theorem C124_given_start_partial (j : Job) (L t1 : Int) (h : Ordinary j) (h' : Ordinary { j with L := L }) (h0 : 0 ≤ t1) (hreach : ∃ q ∈ j.recorded, t1 ≤ 10000 * q.1) :
    ∃ s s', Settles (convertLoops j (some t1)) (.done s) ∧ Settles (convertLoops { j with L := L } (some t1)) (.done s') ∧
      ∀ q ∈ j.recorded, (t1 ≤ 10000 * q.1 ↔ q ∈ samples s.w.out) ∧ (t1 ≤ 10000 * q.1 ↔ q ∈ samples s'.w.out) := by
  have key : ∀ i : Job, Ordinary i → (∃ q ∈ i.recorded, t1 ≤ 10000 * q.1) →
      ∃ s, Settles (convertLoops i (some t1)) (.done s) ∧ ∀ q ∈ i.recorded, (t1 ≤ 10000 * q.1 ↔ q ∈ samples s.w.out) := by
    intro i hi hr
    obtain ⟨d1, rest, hd, hrec⟩ := ordinary_first hi
    obtain ⟨l, hl, hL⟩ := hi.length
    have hR : i.recorded = samples (d1 ++ rest) := by unfold Job.recorded; rw [hrec]
    have ho := hi.order
    rw [hrec] at ho
    have hf := hi.far
    rw [hR] at hf hr
    obtain ⟨s, c1, c2, c3, -, -⟩ := C29_given_start i l t1 hi.block hl hL hi.skips d1 rest hd ho h0 hf hr
    refine ⟨s, c1, fun q hq => ⟨fun ht => c2.subset (mem_from.mpr ⟨by rw [← hR]; exact hq, ht⟩), fun hm => (mem_from.mp (c3.subset hm)).2⟩⟩
  obtain ⟨s, a1, a2⟩ := key j h hreach
  obtain ⟨s', b1, b2⟩ := key _ h' hreach
  exact ⟨s, s', a1, b1, fun q hq => ⟨a2 q hq, b2 q hq⟩⟩

/-- A block that reaches into the second day, with one sample missing at 00:00:00.11, and one more block. -/
def fillingJob (L : Int) : Job where
  nums := [0, 12]
  blockdays := 1
  L := L
  t2 := 253402300799000000
  read := fun b =>
    if b = [0] then .ok [⟨8639990, [1]⟩, ⟨8640010, [2]⟩, ⟨8640012, [3]⟩, ⟨8640050, [4]⟩]
    else if b = [12] then .ok [⟨8640060, [5]⟩]
    else .error .missingRaw

def isDone {α : Type} : Run α → Bool
  | .done _ => true
  | _ => false

/-- **C124 is violated with a given start**: with files of a tenth of a second the missing sample is left out, with files of a second it is filled in. -/
theorem C124_violated_filling : ∃ s s', convertLoops (fillingJob 100000) (some 0) 12 = .done s ∧ convertLoops (fillingJob 1000000) (some 0) 12 = .done s' ∧
    8640011 ∉ (samples s.w.out).map Prod.fst ∧ 8640011 ∈ (samples s'.w.out).map Prod.fst := by
  have h1 : ∃ s, convertLoops (fillingJob 100000) (some 0) 12 = .done s ∧ 8640011 ∉ (samples s.w.out).map Prod.fst := by
    cases h : convertLoops (fillingJob 100000) (some 0) 12 with
    | done s => exact ⟨s, rfl, by
        have : (samples (convertLoops (fillingJob 100000) (some 0) 12).written).map Prod.fst = [8639990, 8640010, 8640012, 8640050, 8640060] := by decide +kernel
        rw [h] at this
        change (samples s.w.out).map Prod.fst = _ at this
        rw [this]; decide⟩
    | running =>
      have : isDone (convertLoops (fillingJob 100000) (some 0) 12) = true := by decide +kernel
      rw [h] at this
      simp [isDone] at this
    | raised x o =>
      have : isDone (convertLoops (fillingJob 100000) (some 0) 12) = true := by decide +kernel
      rw [h] at this
      simp [isDone] at this
  have h2 : ∃ s, convertLoops (fillingJob 1000000) (some 0) 12 = .done s ∧ 8640011 ∈ (samples s.w.out).map Prod.fst := by
    cases h : convertLoops (fillingJob 1000000) (some 0) 12 with
    | done s => exact ⟨s, rfl, by
        have : (samples (convertLoops (fillingJob 1000000) (some 0) 12).written).map Prod.fst = [8639990, 8640010, 8640011, 8640012, 8640050, 8640060] := by decide +kernel
        rw [h] at this
        change (samples s.w.out).map Prod.fst = _ at this
        rw [this]; decide⟩
    | running =>
      have : isDone (convertLoops (fillingJob 1000000) (some 0) 12) = true := by decide +kernel
      rw [h] at this
      simp [isDone] at this
    | raised x o =>
      have : isDone (convertLoops (fillingJob 1000000) (some 0) 12) = true := by decide +kernel
      rw [h] at this
      simp [isDone] at this
  obtain ⟨s, a1, a2⟩ := h1
  obtain ⟨s', b1, b2⟩ := h2
  exact ⟨s, s', a1, b1, a2, b2⟩

/-- **C124 is violated with a given end.** Whatever the data and the reader: let `t2` lie in the window of the file length `L` that begins at `k * L`. A conversion that has read a sample which
is in this window, not before `t1` and not after `t2`, does not end normally. So whether the data before `t2` are converted depends on the length of the files: see the example. -/
theorem C124_violated_end (j : Job) (l c k t1 : Int) (hb : 0 < j.blockdays) (hl : 0 < l) (hL : j.L = 10000 * l) (ht2 : j.t2 = 10000 * c) (hk : j.t2 < (k + 1) * j.L)
    (ho : InOrder (j.record j.blocks)) (s : CState) (r : Int × Int) (hread : r ∈ samples (j.record s.reads)) (hstart : t1 ≤ 10000 * r.1)
    (hwin : k * j.L ≤ 10000 * r.1) (hend : 10000 * r.1 ≤ j.t2) (n : Nat) : convertLoops j (some t1) n ≠ .done s := by
  intro hrun
  obtain ⟨-, t0, hbeg, hall, -⟩ := C53_read_blocks_partial j l hb hl hL ho (some t1) n s hrun
  have h0 : t0 = t1 := hbeg
  have := C53_violated_window j l c k hl hL ht2 hk (some t1) n s hrun r (hall r hread (by omega) hend)
  omega

/-- Data up to 00:00:01.20, converted up to 00:00:01.50. -/
def limitedJob (L : Int) : Job where
  nums := [0]
  blockdays := 1
  L := L
  t2 := 1500000
  read := fun b => if b = [0] then .ok [⟨50, [1, 2]⟩, ⟨119, [3, 4]⟩] else .error .missingRaw

-- with files of half a second all data are converted; with files of a second the conversion fails
example : isDone (convertLoops (limitedJob 500000) (some 0) 12) = true ∧
    samples (convertLoops (limitedJob 500000) (some 0) 12).written = [(50, 1), (51, 2), (119, 3), (120, 4)] ∧
    isDone (convertLoops (limitedJob 1000000) (some 0) 12) = false ∧ convertLoops (limitedJob 1000000) (some 0) 12 ≠ .running := by decide +kernel

/-! ## Example: `demoJob` with files of a minute instead of two hours -/

theorem demoJob_minute : Ordinary { demoJob with L := 60000000 } :=
  ⟨by decide, ⟨6000, by decide, rfl⟩, demoJob_skips, ⟨by decide +kernel, by unfold Increasing; decide +kernel⟩, by decide +kernel, by decide +kernel,
    ⟨(9359900, 4), by decide +kernel, by decide +kernel⟩⟩

example : ∃ s s', Settles (convertLoops demoJob none) (.done s) ∧ Settles (convertLoops { demoJob with L := 60000000 } none) (.done s') ∧
    samples s.w.out = samples s'.w.out := C124_file_length demoJob 60000000 demoJob_ordinary demoJob_minute

end Gemlog
