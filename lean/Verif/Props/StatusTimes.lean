import Verif.Props.Tables

/-!
# C65, C67: the times of the status lines

Files that meet the hypotheses, with lines that have a time, are in `Props/HuddleRawExample.lean`; lines without one are in the example at the end.
-/

namespace Gemlog

/-! ## Specification -/

/-- A count lies between the first and the last sample of a file, both stamped 8.93 ms late. -/
def During (es : List Event) (T : Rat) : Prop := (sampleTimes es).headD 0 + 893 / 100 ≤ T ∧ T ≤ (sampleTimes es).getLastD 0 + 893 / 100

instance (es : List Event) (T : Rat) : Decidable (During es T) := inferInstanceAs (Decidable (_ ∧ _))

/-- The status lines of some files, recorded with the same clock: the count of the line, its values, and the time in UTC of the count if it lies in the time of the samples of
one of the files. -/
def timedLines (log : Entry → List Event) (offset rate : Rat) (files : List Entry) : List (Rat × List Rat × Option Rat) :=
  (files.flatMap fun e => (log e).filterMap Event.statusRow).map fun p =>
    (p.1, p.2, if ∃ e ∈ files, During (log e) p.1 then some (offset + rate * p.1) else none)

/-! ## Proof -/

theorem segments_outside (x : Rat) : ∀ (header : List HeaderRow) (y : Option Rat),
    (∀ row ∈ header, ¬ (row.info.startMs ≤ x ∧ x ≤ row.info.endMs)) → header.foldl (segmentStep x) y = y
  | [], _, _ => rfl
  | row :: header, y, h => by
    rw [List.foldl_cons]
    have : segmentStep x y row = y := by
      unfold segmentStep
      exact if_neg (h row (by simp))
    rw [this]
    exact segments_outside x header y fun r hr => h r (by simp [hr])

/-- **C65.** The times of the status lines: those in the time of the samples of a file have the true time of their count, the others have none. -/
theorem C65_status_times (d : RawDisk) (dir : List Entry) (SN : List Nat) (nums : List Int) (log : Entry → List Event) (a b : Rat)
    (first : Entry) (rest : List Entry) (hfind : findFiles dir SN nums = first :: rest)
    (htext : ∀ e ∈ first :: rest, d.content e = textOf (log e)) (hclean : CleanRecording a b ((first :: rest).map log))
    (v : String) (hv : v ∈ ["0.85C", "0.9", "0.91", "1.10"]) (hver : HasVersion v (log first))
    (hsn : ∀ e ∈ first :: rest, ∃ sn, d.readSN e = .ok sn) (hfit : Reproduces d.fit) (hfit1 : ReproducesLines d.fit)
    (g : GemData) (hg : readGem d.env dir SN nums true = .ok g) :
    g.metadata = (timedLines log a b (first :: rest)).map fun p => (p.1, p.2.1.map some, p.2.2) := by
  obtain ⟨hrate, hfollow, hfixes, hstart⟩ := hclean
  have hb1 : b ≤ 1 := by linarith [hrate.2.1]
  obtain ⟨rows, st, hloop, hrows⟩ := loop_clean d hrate.1 hb1 hfit hfit1 log (first :: rest) ⟨[], [], [], [], [], 0⟩ hfollow htext hsn
  simp only [List.nil_append] at hloop
  have hgood : ∀ row ∈ rows, ∀ x, timeOf row.info x = a + b * x := by
    intro row hrow
    obtain ⟨e, _, he⟩ := forall₂_right hrows row hrow
    exact he.1
  have htimes : ∀ x, applySegments rows x = if ∃ e ∈ first :: rest, During (log e) x then some (a + b * x) else none := by
    intro x
    split
    · rename_i hx
      obtain ⟨e, he, h1, h2⟩ := hx
      apply segments_clean _ _ _ hgood
      right
      obtain ⟨row, hrow, _, hr1, hr2⟩ := forall₂_right hrows.flip e he
      exact ⟨row, hrow, by rw [hr1]; exact h1, by rw [hr2]; exact h2⟩
    · rename_i hx
      apply segments_outside
      rintro row hrow ⟨h1, h2⟩
      obtain ⟨e, he, _, hr1, hr2⟩ := forall₂_right hrows row hrow
      exact hx ⟨e, he, by rw [hr1] at h1; exact h1, by rw [hr2] at h2; exact h2⟩
  have hmeta : g.metadata = timedMetadata ((first :: rest).flatMap fun e => (usedData a b (log e)).metadata) rows := by
    unfold readGem at hg
    rw [hfind] at hg
    simp only at hg
    unfold readFilesAs at hg
    have hfr : firstReadable d.env (first :: rest) = some (first :: rest, v, first) := by
      rw [firstReadable]
      have : d.env.version first = some v := by
        show formatVersion (d.content first) = _
        rw [htext first (by simp)]
        exact formatVersion_first hv hver
      rw [this]
    rw [hfr] at hg
    simp only at hg
    rw [severalVersion, if_pos hv] at hg
    simp only at hg
    unfold readSeveral at hg
    rw [hloop] at hg
    simp only at hg
    by_cases h1 : ((first :: rest).flatMap fun e => (usedData a b (log e)).data) = []
    · rw [if_pos h1] at hg; cases hg
    rw [if_neg h1] at hg
    generalize assignTimes d.env _ = stream at hg
    cases stream with
    | error x => cases hg
    | ok stream =>
      simp only at hg
      split at hg
      · cases hg
      · cases hg
        simp only
        split <;> rfl
  rw [hmeta]
  unfold timedMetadata timedLines
  rw [List.map_map]
  have e1 : ((first :: rest).flatMap fun e => (usedData a b (log e)).metadata) =
      ((first :: rest).flatMap fun e => (log e).filterMap Event.statusRow).map fun p => (p.1, p.2.map some) := by
    rw [List.map_flatMap]
    apply List.flatMap_congr
    intro e _
    exact statusRows (log e)
  rw [e1, List.map_map]
  apply List.map_congr_left
  intro p _
  simp only [Function.comp_apply, htimes]

/-- **C67.** When all blocks hold a recording without defects (the conditions of `C66_convert`), the metadata file has the true time of each status line, or none if the line
is not in the time of the samples of a file of its block. -/
theorem C67_status_times (d : RawDisk) (dir : List Entry) (SN : List Nat) (log : Entry → List Event) (nums : List (Option Int)) (ns : List Int)
    (hns : convertNums true dir SN nums = .ok ns) (n : Int) (hn : pyInt SN = some n) (specs : Specs) (hspecs : gemSpecs n = .ok specs)
    (hfit : Reproduces d.fit) (hfit1 : ReproducesLines d.fit) (blockdays : Rat) (l t2 : Int) (hb : 0 < blockdays) (hl : 0 < l)
    (r0 : BlockSpan) (rs : List BlockSpan)
    (hblocks : List.Forall₂ (fun block r => ∃ first rest, CleanBlock d dir SN log block r first rest)
      (jobOf d.env dir SN ns blockdays (10000 * l) t2).blocks (r0 :: rs))
    (horder : (r0 :: rs).IsChain fun x y => x.stop < y.start) (hpos : 1 ≤ r0.start) (hlong : 103 / 100 ≤ r0.stop - r0.start)
    (hfar : ∀ r ∈ r0 :: rs, 1000000 * r.stop + 10000 * l + ⌈86400000000 * blockdays⌉ + 1000000 ≤ t2) :
    ∃ s tb, Settles (convertT (tableJobOf d.env dir SN ns blockdays (10000 * l) t2) none) (.done (s, tb)) ∧
      tb.metadata = (((jobOf d.env dir SN ns blockdays (10000 * l) t2).blocks.zip (r0 :: rs)).flatMap fun q =>
        timedLines log q.2.offset q.2.rate (findFiles dir SN q.1)).map fun p => (p.1, p.2.1.map some, p.2.2) := by
  obtain ⟨tr0', trs', s, h', _, hset, hreads, _⟩ := C66_convert d dir SN log nums ns hns n hn specs hspecs hfit hfit1 blockdays l t2 hb hl r0 rs
    hblocks horder hpos hlong hfar
  obtain ⟨j, hj⟩ : ∃ j, j = tableJobOf d.env dir SN ns blockdays (10000 * l) t2 := ⟨_, rfl⟩
  have hjj : jobOf d.env dir SN ns blockdays (10000 * l) t2 = j.job := by rw [hj]; rfl
  have hset' : Settles (convertLoops j.job none) (.done s) := by
    have : convertDir d.env true dir SN nums blockdays (10000 * l) none t2 = convertLoops j.job none := by
      funext fuel
      unfold convertDir
      rw [hns, ← hjj]
    rwa [this] at hset
  have hsets := convertT_settles hset'
  rw [hjj] at hreads hblocks ⊢
  rw [hreads] at hsets
  have hread : ∀ block, j.readAll block = readGem d.env dir SN block true := by rw [hj]; intro _; rfl
  have key : ∀ {bs : List (List Int)} {qs : List BlockSpan},
      List.Forall₂ (fun block r => ∃ first rest, CleanBlock d dir SN log block r first rest) bs qs →
      (j.dataOf bs).flatMap GemData.metadata = ((bs.zip qs).flatMap fun q =>
        timedLines log q.2.offset q.2.rate (findFiles dir SN q.1)).map fun p => (p.1, p.2.1.map some, p.2.2) := by
    intro bs qs h
    induction h with
    | nil => rfl
    | @cons b q bs qs hr _ ih =>
      obtain ⟨g, tr, h1, h2, _⟩ := cleanBlock_trace hr n hn specs hspecs hfit hfit1
      rw [show b :: bs = [b] ++ bs from rfl, dataOf_append, dataOf_ok ((hread b).trans h1) (by rw [h2]; simp), List.flatMap_append, ih]
      obtain ⟨first, rest, hc⟩ := hr
      obtain ⟨v, hv, hver⟩ := hc.version
      rw [List.flatMap_singleton, C65_status_times d dir SN b log q.offset q.rate first rest hc.files hc.texts hc.clean v hv hver hc.serials hfit hfit1 g h1]
      simp only [List.singleton_append, List.zip_cons_cons, List.flatMap_cons, List.map_append]
      rw [hc.files]
  rw [← hj]
  refine ⟨s, _, hsets, ?_⟩
  rw [← key hblocks]
  unfold tablesFor
  generalize j.dataOf j.job.blocks = gs
  cases gs <;> rfl

/-- The status line of the example of `C66_convert` is written at the count 0, before the (late) time of the first sample: it has no time. -/
example : timedLines longOf (1577836800) (1024 / 1000000) [⟨bytes "FILE0001.012", 500, .str (bytes "012")⟩] =
    [(0, [4, 20, 0, 0, 1, 2, 3, 4, 1, 6, 7], none)] := by decide +kernel

end Gemlog
