import Verif.Props.RestartsConvert
import Verif.Props.StatusTimes

/-!
# C100: the times of the status lines of a logger that was switched off and on
-/

namespace Gemlog

/-! ## Specification -/

/-- The status lines of files with their own clocks, in order: the file, the count of the line in this file, and its values. -/
def clockedLines (files : List ClockedFile) : List (ClockedFile × Rat × List Rat) :=
  files.flatMap fun f => (f.events.filterMap Event.statusRow).map fun p => (f, p.1, p.2)

/-- What is found in the metadata for a status line: its values, and, if it lies in the time of the samples of its own file, the UTC time given by the clock of this file. Otherwise it has no
time, or its count is by chance, up to whole turns of the counter, one in the time of the samples of another file, and it has the time of this count. -/
def LineFound (files : List ClockedFile) (q : ClockedFile × Rat × List Rat) (m : Rat × List (Option Rat) × Option Rat) : Prop :=
  m.2.1 = q.2.2.map some ∧ (During q.1.events q.2.1 → m.2.2 = some (q.1.utc q.2.1)) ∧
    (m.2.2 = none ∨ ∃ f ∈ files, ∃ k : Int, During f.events (q.2.1 + 8192 * k) ∧ m.2.2 = some (f.utc (q.2.1 + 8192 * k)))

/-! ## Proof -/

theorem segments_during : ∀ {gs : List ClockedFile} {rows : List HeaderRow}, List.Forall₂ ClockedFile.Row gs rows → ∀ (start : Rat) (v : Option Rat),
    (∀ g ∈ gs, SoundFile g.offset g.rate g.events) → gs.IsChain NoCollision → Follow start gs →
    ∀ g ∈ gs, ∀ x, During g.events x → rows.foldl (segmentStep x) v = some (g.utc x) := by
  intro gs rows h
  induction h with
  | nil => intro _ _ _ _ _ g hg; simp at hg
  | @cons g0 row gs rows hrow hrest ih =>
    intro start v hs hc hf g hg x hx
    rw [List.foldl_cons]
    by_cases hgg : g ∈ gs
    · exact ih (endTime g0.events) _ (fun a ha => hs a (List.mem_cons_of_mem _ ha)) hc.tail hf.2 g hgg x hx
    · have hg0 : g = g0 := by
        rcases List.mem_cons.mp hg with h | h
        · exact h
        · exact absurd h hgg
      subst hg0
      obtain ⟨r1, r2, r3⟩ := hrow
      have o2 : x ≤ endTime g.events := hx.2
      have hstep : segmentStep x v row = some (g.utc x) := by
        unfold segmentStep
        rw [if_pos ⟨by rw [r2]; exact hx.1, by rw [r3]; exact o2⟩, ← show timeOf row.info x = g.utc x from r1 _]
        rfl
      rw [hstep]
      exact segments_after _ _ hrest g hs hc hf.2 o2 (fun _ => rfl)

theorem segments_either (x : Rat) : ∀ {gs : List ClockedFile} {rows : List HeaderRow}, List.Forall₂ ClockedFile.Row gs rows → ∀ v : Option Rat,
    rows.foldl (segmentStep x) v = v ∨ ∃ g ∈ gs, During g.events x ∧ rows.foldl (segmentStep x) v = some (g.utc x) := by
  intro gs rows h
  induction h with
  | nil => intro v; exact .inl rfl
  | @cons g row gs rows hrow _ ih =>
    intro v
    rw [List.foldl_cons]
    rcases ih (segmentStep x v row) with h | ⟨g', hg', h1, h2⟩
    · rw [h]
      obtain ⟨r1, r2, r3⟩ := hrow
      by_cases hin : During g.events x
      · right
        refine ⟨g, by simp, hin, ?_⟩
        unfold segmentStep
        rw [if_pos ⟨by rw [r2]; exact hin.1, by rw [r3]; exact hin.2⟩, ← show timeOf row.info x = g.utc x from r1 _]
        rfl
      · left
        unfold segmentStep
        rw [if_neg]
        rw [r2, r3]
        exact hin
    · exact .inr ⟨g', by simp [hg'], h1, h2⟩

theorem during_shifted {f : ClockedFile} (hne : sampleTimes f.events ≠ []) (k : Int) (T : Rat) :
    During (f.shifted k).events T ↔ During f.events (T - 8192 * k) := by
  unfold During
  rw [show (f.shifted k).events = f.events.map (Event.shift k) from rfl, shift_sampleTimes]
  have e1 : ((sampleTimes f.events).map (· + 8192 * (k : Rat))).headD 0 = (sampleTimes f.events).headD 0 + 8192 * k := by
    obtain ⟨x, l, h⟩ := List.exists_cons_of_ne_nil hne
    rw [h]; rfl
  have e2 : ((sampleTimes f.events).map (· + 8192 * (k : Rat))).getLastD 0 = (sampleTimes f.events).getLastD 0 + 8192 * k := by
    rw [List.getLastD_eq_getLast?, List.getLastD_eq_getLast?, List.getLast?_map, List.getLast?_eq_some_getLast hne]
    rfl
  rw [e1, e2]
  constructor <;> rintro ⟨h1, h2⟩ <;> constructor <;> linarith

theorem statusRow_shift (k : Int) (es : List Event) :
    (es.map (Event.shift k)).filterMap Event.statusRow = (es.filterMap Event.statusRow).map fun p => (p.1 + 8192 * (k : Rat), p.2) := by
  rw [List.filterMap_map, List.map_filterMap]
  apply List.filterMap_congr
  intro e _
  rcases e with ⟨T, line⟩
  cases line <;> rfl

/-- **C100, the times of the status lines.** Let the selected files be files without defects, each with its own clock and its own count. Then the metadata hold every status line, in order; each
line in the time of the samples of its file has the UTC time given by the clock of its own file. -/
theorem C100_status_times (d : RawDisk) (dir : List Entry) (SN : List Nat) (nums : List Int) (log : Entry → ClockedFile)
    (first : Entry) (rest : List Entry) (hfind : findFiles dir SN nums = first :: rest)
    (htext : ∀ e ∈ first :: rest, d.content e = textOf (log e).events) (hsound : SoundSessions d.now ((first :: rest).map log))
    (v : String) (hv : v ∈ ["0.85C", "0.9", "0.91", "1.10"]) (hver : HasVersion v (log first).events)
    (hsn : ∀ e ∈ first :: rest, ∃ sn, d.readSN e = .ok sn) (hfit : Reproduces d.fit) (hfit1 : ReproducesLines d.fit)
    (g : GemData) (hg : readGem d.env dir SN nums true = .ok g) :
    List.Forall₂ (LineFound ((first :: rest).map log)) (clockedLines ((first :: rest).map log)) g.metadata := by
  obtain ⟨⟨hs, hrate, hbeg, hfixes, hstart, htrust⟩, hdist⟩ := hsound
  have hmem : ∀ e ∈ first :: rest, log e ∈ (first :: rest).map log := fun e he => List.mem_map.mpr ⟨e, he, rfl⟩
  obtain ⟨gs, rows, st, hsame, hloop, hrows, hfollow⟩ := loop_sound d hfit hfit1 log (first :: rest) ⟨[], [], [], [], [], 0⟩
    (fun e he => ⟨hs _ (hmem e he), ⟨(hrate _ (hmem e he)).1, by linarith [(hrate _ (hmem e he)).2.1]⟩, hbeg _ (hmem e he)⟩) htext hsn
  simp only [List.nil_append] at hloop
  have hgs : ∀ g ∈ gs, SoundFile g.offset g.rate g.events := by
    intro g hg
    obtain ⟨f, hf, k, rfl⟩ := forall₂_right hsame g hg
    exact shifted_sound (hs f hf) k
  have hchain : gs.IsChain NoCollision := forall₂_isChain (R := NoCollision) (fun _ _ _ _ h1 h2 h3 => same_collision h1 h2 h3) hsame hdist
  have hmeta : g.metadata = timedMetadata (gs.flatMap fun g => g.used.metadata) rows := by
    unfold readGem at hg
    rw [hfind] at hg
    simp only at hg
    unfold readFilesAs at hg
    have hfr : firstReadable d.env (first :: rest) = some (first :: rest, v, first) := by
      rw [firstReadable]
      have : d.env.version first = some v := by
        show formatVersion (d.content first) = _
        rw [htext first (by simp)]
        exact formatVersion_first hv hver
      rw [this]
    rw [hfr] at hg
    simp only at hg
    rw [severalVersion, if_pos hv] at hg
    simp only at hg
    unfold readSeveral at hg
    rw [hloop] at hg
    simp only at hg
    by_cases h1 : (gs.flatMap fun g => g.used.data) = []
    · rw [if_pos h1] at hg; cases hg
    rw [if_neg h1] at hg
    generalize assignTimes d.env _ = stream at hg
    cases stream with
    | error x => cases hg
    | ok stream =>
      simp only at hg
      split at hg
      · cases hg
      · cases hg
        simp only
        split <;> rfl
  rw [hmeta]
  have key : ∀ {fs gs' : List ClockedFile}, List.Forall₂ SameFile fs gs' → (∀ f ∈ fs, f ∈ (first :: rest).map log) → (∀ g ∈ gs', g ∈ gs) →
      List.Forall₂ (LineFound ((first :: rest).map log)) (clockedLines fs) (timedMetadata (gs'.flatMap fun g => g.used.metadata) rows) := by
    intro fs gs' h
    induction h with
    | nil => intro _ _; exact .nil
    | @cons f g fs gs' h0 _ ih =>
      intro h1 h2
      have hih := ih (fun f hf => h1 f (by simp [hf])) (fun g hg => h2 g (by simp [hg]))
      unfold clockedLines timedMetadata at hih ⊢
      rw [List.flatMap_cons, List.flatMap_cons, List.map_append]
      refine List.rel_append ?_ hih
      obtain ⟨k, rfl⟩ := h0
      have hf := h1 f (by simp)
      have hsf := hs f hf
      have e : (f.shifted k).used.metadata = (f.events.filterMap Event.statusRow).map fun p => (p.1 + 8192 * (k : Rat), p.2.map some) := by
        have : (f.shifted k).used.metadata = _ := statusRows (f.shifted k).events
        rw [this, show (f.shifted k).events = f.events.map (Event.shift k) from rfl, statusRow_shift, List.map_map]
        rfl
      rw [e, List.map_map, List.forall₂_map_left_iff, List.forall₂_map_right_iff, List.forall₂_same]
      intro p _
      refine ⟨rfl, ?_, ?_⟩
      · intro hd
        show applySegments rows (p.1 + 8192 * k) = _
        unfold applySegments
        rw [segments_during hrows 0 none hgs hchain hfollow (f.shifted k) (h2 _ (by simp)) _ ?_, shifted_utc]
        rw [during_shifted hsf.samples]
        simpa using hd
      · show applySegments rows (p.1 + 8192 * k) = none ∨ ∃ f' ∈ _, ∃ k' : Int, _ ∧ applySegments rows (p.1 + 8192 * k) = _
        unfold applySegments
        rcases segments_either (p.1 + 8192 * k) hrows none with h | ⟨g', hg', hd, h⟩
        · exact .inl h
        · obtain ⟨f', hf', k', rfl⟩ := forall₂_right hsame g' hg'
          rw [during_shifted (hs f' hf').samples] at hd
          right
          refine ⟨f', hf', k - k', ?_, ?_⟩
          · push_cast
            rw [show p.1 + 8192 * ((k : Rat) - k') = p.1 + 8192 * k - 8192 * k' by ring]
            exact hd
          · rw [h, ← shifted_utc f' k']
            congr 2
            push_cast
            ring
  exact key hsame (fun _ h => h) (fun _ h => h)

/-! ## The metadata and GPS files of a conversion -/

/-- What is found for a fix in the GPS file: its time, latitude and longitude. -/
def fixFound (f : Fix) : Rat × Option Rat × Option Rat := (f.t, f.lat, f.lon)

/-- The fixes of the files of a block, at their true times. -/
def blockFixes (dir : List Entry) (SN : List Nat) (log : Entry → ClockedFile) (block : List Int) : List (Rat × Option Rat × Option Rat) :=
  ((findFiles dir SN block).flatMap fun e => (log e).fixes).map fun p => (p.1, some p.2.1, some p.2.2)

/-- The status lines of the files of a block, each together with all files of the block. -/
def blockLines (dir : List Entry) (SN : List Nat) (log : Entry → ClockedFile) (block : List Int) : List (List ClockedFile × ClockedFile × Rat × List Rat) :=
  (clockedLines ((findFiles dir SN block).map log)).map fun q => ((findFiles dir SN block).map log, q)

theorem block_data {d : RawDisk} {dir : List Entry} {SN : List Nat} {log : Entry → ClockedFile} (n : Int) (hn : pyInt SN = some n)
    (specs : Specs) (hspecs : gemSpecs n = .ok specs) (hfit : Reproduces d.fit) (hfit1 : ReproducesLines d.fit) (j : TableJob)
    (hj : ∀ block, j.readAll block = readGem d.env dir SN block true) {b : List Int} {ss : List Session} (h : BlockOfSessions d dir SN log b ss) :
    (ss = [] ∧ j.dataOf [b] = [] ∧ findFiles dir SN b = []) ∨
      ∃ g, j.dataOf [b] = [g] ∧ ss ≠ [] ∧ List.Forall₂ SessionTrace ss g.stream ∧ g.problems = [] ∧ g.gps.map fixFound = blockFixes dir SN log b ∧
        List.Forall₂ (fun q m => LineFound q.1 q.2 m) (blockLines dir SN log b) g.metadata := by
  rcases h with ⟨h1, rfl⟩ | ⟨first, rest, groups, h⟩
  · left
    refine ⟨rfl, dataOf_error (x := .missingRaw) ?_, h1⟩
    rw [hj]
    unfold readGem
    rw [h1]
  · right
    obtain ⟨v, hv, hver⟩ := h.version
    obtain ⟨g, g1, g2, g3, g4, _⟩ := C100_sessions d dir SN b log first rest h.files h.texts h.sound v hv hver h.serials n hn specs hspecs h.gain hfit hfit1
      groups h.grouped ss h.sessions h.gaps
    have hne : ss ≠ [] := by
      rintro rfl
      have h1 := h.sessions
      have h2 := h.grouped
      cases h1
      simp at h2
    refine ⟨g, dataOf_ok ((hj b).trans g1) ?_, hne, g2, g3, ?_, ?_⟩
    · intro hs
      rw [hs] at g2
      cases g2
      exact hne rfl
    · unfold blockFixes
      rw [h.files]
      exact g4
    · unfold blockLines
      rw [h.files, List.forall₂_map_left_iff]
      exact C100_status_times d dir SN b log first rest h.files h.texts h.sound v hv hver h.serials hfit hfit1 g g1

theorem blocks_data {d : RawDisk} {dir : List Entry} {SN : List Nat} {log : Entry → ClockedFile} (n : Int) (hn : pyInt SN = some n)
    (specs : Specs) (hspecs : gemSpecs n = .ok specs) (hfit : Reproduces d.fit) (hfit1 : ReproducesLines d.fit) (j : TableJob)
    (hj : ∀ block, j.readAll block = readGem d.env dir SN block true) {bs : List (List Int)} {sss : List (List Session)}
    (h : List.Forall₂ (BlockOfSessions d dir SN log) bs sss) :
    (j.dataOf bs).flatMap GemData.problems = [] ∧ ((j.dataOf bs).flatMap GemData.gps).map fixFound = bs.flatMap (blockFixes dir SN log) ∧
      List.Forall₂ (fun q m => LineFound q.1 q.2 m) (bs.flatMap (blockLines dir SN log)) ((j.dataOf bs).flatMap GemData.metadata) ∧
      ∀ s0 ss, sss.flatten = s0 :: ss → ∃ pre b post g s1 ss', bs = pre ++ b :: post ∧ (∀ x ∈ pre, findFiles dir SN x = []) ∧
        j.dataOf bs = g :: j.dataOf post ∧ g.gps.map fixFound = blockFixes dir SN log b ∧ List.Forall₂ SessionTrace (s0 :: s1) g.stream ∧
        List.Forall₂ (BlockOfSessions d dir SN log) post ss' ∧ (s0 :: s1) <+: s0 :: ss := by
  induction h with
  | nil => exact ⟨rfl, rfl, .nil, by intro s0 ss h; simp at h⟩
  | @cons b ss bs sss hb hbs ih =>
    obtain ⟨i1, i2, i3, i4⟩ := ih
    rw [show b :: bs = [b] ++ bs from rfl, dataOf_append]
    rcases block_data n hn specs hspecs hfit hfit1 j hj hb with ⟨rfl, h1, h2⟩ | ⟨g, h1, h2, h3, h4, h5, h6⟩
    · have e1 : blockFixes dir SN log b = [] := by unfold blockFixes; rw [h2]; rfl
      have e2 : blockLines dir SN log b = [] := by unfold blockLines clockedLines; rw [h2]; rfl
      rw [h1, List.nil_append]
      simp only [List.singleton_append, List.flatMap_cons, e1, e2, List.nil_append]
      refine ⟨i1, i2, i3, ?_⟩
      intro s0 ss hs
      obtain ⟨pre, b', post, g, s1, ss', k1, k2, k3, k4, k5, k6, k7⟩ := i4 s0 ss (by simpa using hs)
      refine ⟨b :: pre, b', post, g, s1, ss', by rw [k1]; rfl, ?_, k3, k4, k5, k6, k7⟩
      intro x hx
      rcases List.mem_cons.mp hx with rfl | hx
      · exact h2
      · exact k2 x hx
    · rw [h1]
      simp only [List.singleton_append, List.flatMap_cons, List.map_append]
      refine ⟨by rw [h4, i1]; rfl, by rw [h5, i2], List.rel_append h6 i3, ?_⟩
      intro s0 ss0 hs
      obtain ⟨x, l, rfl⟩ := List.exists_cons_of_ne_nil h2
      rw [List.flatten_cons, List.cons_append, List.cons.injEq] at hs
      obtain ⟨rfl, hs⟩ := hs
      exact ⟨[], b, bs, g, l, sss, rfl, by simp, rfl, h5, h3, hbs, by rw [← hs]; exact ⟨_, rfl⟩⟩

/-- **C100, the metadata and GPS files.** Under the conditions of `C100_convert` the metadata file holds every status line of every file, in order; each line in the time of the samples of its
own file has the UTC time given by the clock of this file. The GPS file holds every fix of every file, in order, at the time given by the clock of its file, but those of the first
block with files which are earlier than a second before the first whole second of its data. No problem is reported. -/
theorem C100_tables (d : RawDisk) (dir : List Entry) (SN : List Nat) (log : Entry → ClockedFile) (nums : List (Option Int)) (ns : List Int)
    (hns : convertNums true dir SN nums = .ok ns) (n : Int) (hn : pyInt SN = some n) (specs : Specs) (hspecs : gemSpecs n = .ok specs)
    (hfit : Reproduces d.fit) (hfit1 : ReproducesLines d.fit) (blockdays : Rat) (l t2 : Int) (hb : 0 < blockdays) (hl : 0 < l)
    (sss : List (List Session)) (s0 : Session) (ss : List Session) (hss : sss.flatten = s0 :: ss)
    (hblocks : List.Forall₂ (BlockOfSessions d dir SN log) (jobOf d.env dir SN ns blockdays (10000 * l) t2).blocks sss)
    (horder : (s0 :: ss).IsChain fun x y => x.stop < y.start) (hpos : 1 ≤ s0.start) (hlong : 103 / 100 ≤ s0.stop - s0.start)
    (hfar : ∀ r ∈ s0 :: ss, 1000000 * r.stop + 10000 * l + ⌈86400000000 * blockdays⌉ + 1000000 ≤ t2) :
    ∃ s tb, Settles (convertT (tableJobOf d.env dir SN ns blockdays (10000 * l) t2) none) (.done (s, tb)) ∧
      Settles (convertDir d.env true dir SN nums blockdays (10000 * l) none t2) (.done s) ∧ tb.problems = [] ∧
      List.Forall₂ (fun q m => LineFound q.1 q.2 m) ((jobOf d.env dir SN ns blockdays (10000 * l) t2).blocks.flatMap (blockLines dir SN log)) tb.metadata ∧
      ∃ (h : Int) (pre : List (List Int)) (b : List Int) (post : List (List Int)), h % 1000000 = 0 ∧ s0.start - 5 / 1000 ≤ (h : Rat) / 1000000 ∧
        (h : Rat) / 1000000 < s0.start + 1005 / 1000 ∧ (jobOf d.env dir SN ns blockdays (10000 * l) t2).blocks = pre ++ b :: post ∧
        (∀ x ∈ pre, findFiles dir SN x = []) ∧
        tb.gps.map fixFound = (blockFixes dir SN log b).filter (fun p => decide ((h : Rat) / 1000000 - 1 < p.1)) ++ post.flatMap (blockFixes dir SN log) := by
  obtain ⟨_, _, s, _, _, hset, hreads, _⟩ := C100_convert d dir SN log nums ns hns n hn specs hspecs hfit hfit1 blockdays l t2 hb hl sss s0 ss hss
    hblocks horder hpos hlong hfar
  obtain ⟨j, hj⟩ : ∃ j, j = tableJobOf d.env dir SN ns blockdays (10000 * l) t2 := ⟨_, rfl⟩
  have hjj : jobOf d.env dir SN ns blockdays (10000 * l) t2 = j.job := by rw [hj]; rfl
  have hset' : Settles (convertLoops j.job none) (.done s) := by
    have : convertDir d.env true dir SN nums blockdays (10000 * l) none t2 = convertLoops j.job none := by
      funext fuel
      unfold convertDir
      rw [hns, ← hjj]
    rwa [this] at hset
  have hsets := convertT_settles hset'
  rw [hjj] at hreads hblocks ⊢
  rw [hreads] at hsets
  have hread : ∀ block, j.readAll block = readGem d.env dir SN block true := by rw [hj]; intro _; rfl
  obtain ⟨p1, p2, p3, p4⟩ := blocks_data n hn specs hspecs hfit hfit1 j hread hblocks
  obtain ⟨pre, b, post, g, s1, ss', k1, k2, k3, k4, k5, k6, k7⟩ := p4 s0 ss hss
  have hpost := (blocks_data n hn specs hspecs hfit hfit1 j hread k6).2.1
  rw [← hj]
  refine ⟨s, _, hsets, hset, ?_⟩
  rw [k3] at p1 p2 p3 ⊢
  have hlongs : ∀ r ∈ (s0 :: s1).map Session.span, 1 / 100 ≤ r.stop - r.start := by
    intro r hr
    obtain ⟨x, hx, rfl⟩ := List.mem_map.mp hr
    exact sessions_long hblocks x (by rw [hss]; exact k7.subset hx)
  have hom : InOrder g.stream := by
    refine (traces_inOrder (spans_traces.mpr k5) hlongs ?_).1
    rw [List.isChain_map]
    exact horder.prefix k7
  obtain ⟨tr, trs, hg⟩ : ∃ tr trs, g.stream = tr :: trs := by
    generalize g.stream = st at k5
    cases k5 with
    | cons _ _ => exact ⟨_, _, rfl⟩
  have e2 : SessionTrace s0 tr := by
    rw [hg] at k5
    cases k5 with
    | cons h _ => exact h
  obtain ⟨x0, lx, hx0⟩ := List.exists_cons_of_ne_nil (hom.1 tr (by rw [hg]; simp))
  unfold tablesFor
  simp only
  rw [merged_start (k := tr.start) (x0 := x0) hom (by rw [hg, samples_cons, hx0, stamps]; rfl)]
  obtain ⟨h, hh⟩ : ∃ h : Int, h = 1000000 * ⌈(10000 * tr.start : Rat) / 1000000⌉ := ⟨_, rfl⟩
  rw [← hh]
  refine ⟨p1, p3, h, pre, b, post, by omega, ?_, ?_, k1, k2, ?_⟩
  · rw [le_div_iff₀ (by norm_num)]
    have h1 := Int.le_ceil ((10000 * tr.start : Rat) / 1000000)
    have h2 := (abs_le.mp e2.start).1
    unfold Trace.time at h2
    push_cast at h2
    rw [hh]
    push_cast
    linarith
  · rw [div_lt_iff₀ (by norm_num)]
    have h1 := Int.ceil_lt_add_one ((10000 * tr.start : Rat) / 1000000)
    have h2 := (abs_le.mp e2.start).2
    unfold Trace.time at h2
    push_cast at h2
    rw [hh]
    push_cast
    linarith
  · rw [List.map_append, hpost]
    congr 1
    rw [← k4, List.filter_map]
    congr 1
    refine List.filter_congr fun f _ => ?_
    rw [Function.comp, decide_eq_decide]
    show _ ↔ (h : Rat) / 1000000 - 1 < f.t
    rw [show (h : Rat) / 1000000 - 1 = ((h : Rat) - 1000000) / 1000000 by ring, div_lt_iff₀ (by norm_num), mul_comm]

/-! ## Example -/

/-- The hypotheses hold for the three sessions of the example of `C100_convert`. -/
example := C100_tables sessDisk sessDir (bytes "012") sessOf [none] [1, 2, 30] sess_nums 12 (by decide +kernel)
    (specsOf (7 / 10)) (by decide +kernel) idealFit_reproduces idealFit_line 1 360000 endOfTime (by decide) (by decide)
    [[sessSpan 0, sessSpan 20], [], [sessSpan 40]] (sessSpan 0) [sessSpan 20, sessSpan 40] rfl
    (by
      have hb : (jobOf sessDisk.env sessDir (bytes "012") [1, 2, 30] 1 (10000 * 360000) endOfTime).blocks = [[1, 2], [], [30]] := by decide +kernel
      rw [hb]
      exact sess_blocks)
    (by unfold sessSpan; simp only [List.isChain_cons_cons, List.isChain_singleton]; norm_num) (by unfold sessSpan; norm_num)
    (by unfold sessSpan; norm_num)
    (by
      intro r hr
      simp only [List.mem_cons, List.not_mem_nil, or_false] at hr
      rcases hr with rfl | rfl | rfl <;> unfold sessSpan endOfTime <;> norm_num)

/-- A line in the time of the samples has a time by the first theorem; here a line at the count 960 of the second file. -/
example : During (sessFile 20).events 960 ∧ (sessFile 20).utc 960 = 1577836820 + 98304 / 100000 := by decide +kernel

end Gemlog
