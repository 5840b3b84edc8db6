import Verif.Props.Damaged
import Verif.Props.RestartsConvert

/-!
# C101: damaged files cost only their own data (conversion)
-/

namespace Gemlog

/-- The selected files of a block that are marked as bad are damaged; the others hold the sessions `ss` (or there are none). -/
structure BlockWithDamage (d : RawDisk) (dir : List Entry) (SN : List Nat) (log : Entry → ClockedFile) (bad : Entry → Bool) (block : List Int)
    (ss : List Session) : Prop where
  damaged : ∀ e ∈ findFiles dir SN block, bad e = true → Damaged d.env e
  good : BlockOfSessions d (without bad dir) SN log block ss
  whole : ∀ e ∈ findFiles dir SN block, bad e = false → WholeCounts (log e).events

theorem damage_yield {d : RawDisk} {dir : List Entry} {SN : List Nat} {log : Entry → ClockedFile} {bad : Entry → Bool} {block : List Int}
    {ss : List Session} (h : BlockWithDamage d dir SN log bad block ss) (n : Int) (hn : pyInt SN = some n) (specs : Specs)
    (hspecs : gemSpecs n = .ok specs) (hfit : Reproduces d.fit) (hfit1 : ReproducesLines d.fit) :
    BlockYields d.env dir SN block (ss.map Session.span) := by
  have hsel := findFiles_without bad dir SN block
  rcases h.good with ⟨h1, rfl⟩ | ⟨first, rest, groups, hs⟩
  · by_cases hne : findFiles dir SN block = []
    · refine .inr ⟨rfl, .missingRaw, ?_, by decide⟩
      unfold readGem
      rw [hne]
    · obtain ⟨x, x1, x2, _⟩ := C101_all_damaged d.env dir SN block hne (fun e he => h.damaged e he (by
        by_contra hc
        have : e ∈ without bad (findFiles dir SN block) := List.mem_filter.mpr ⟨he, by simpa using hc⟩
        rw [← hsel, h1] at this
        simp at this))
      exact .inr ⟨rfl, x, x1, x2⟩
  · obtain ⟨v, hv, hver⟩ := hs.version
    obtain ⟨g, g1, g2, _⟩ := C100_sessions d (without bad dir) SN block log first rest hs.files hs.texts hs.sound v hv hver hs.serials n hn specs hspecs
      hs.gain hfit hfit1 groups hs.grouped ss hs.sessions hs.gaps
    obtain ⟨g', k1, k2, _⟩ := C101_read_gem d.env dir SN block bad g g1 h.damaged
      (by
        intro e he
        rw [hs.files] at he
        simp only [List.head?_cons, Option.mem_def, Option.some.injEq] at he
        subst he
        refine ⟨v, hv, ?_⟩
        show formatVersion (d.content first) = some v
        rw [hs.texts first (by simp)]
        exact formatVersion_first hv hver)
      (by
        intro e he hb
        have hm : e ∈ first :: rest := by
          rw [← hs.files, hsel]
          exact List.mem_filter.mpr ⟨he, by simp [hb]⟩
        have hf : log e ∈ (first :: rest).map log := List.mem_map_of_mem hm
        have hr := hs.sound.rate (log e) hf
        exact sound_neverZero d e hr.1 (by linarith [hr.2.1]) hfit hfit1 (hs.sound.sound (log e) hf) (hs.sound.begins (log e) hf) (hs.texts e hm)
          (hs.serials e hm) (h.whole e he hb))
    exact .inl ⟨g', k1, by rw [k2]; exact spans_traces.mpr g2⟩

theorem damage_long {d : RawDisk} {dir : List Entry} {SN : List Nat} {log : Entry → ClockedFile} {bad : Entry → Bool} {bs : List (List Int)}
    {sss : List (List Session)} (h : List.Forall₂ (BlockWithDamage d dir SN log bad) bs sss) : ∀ s ∈ sss.flatten, 1 / 100 ≤ s.stop - s.start :=
  sessions_long (h.imp fun _ _ h => h.good)

/-- **C101.** Let some of the files of a directory be damaged (`bad`), and the others of each block hold one or more sessions, as in `C100_convert`, or be
none at all. Then the conversion ends normally, and there is one trace per session, such that the written samples are exactly those of the
traces, with gaps of one or two samples filled in, from the first whole second on. -/
theorem C101_convert (d : RawDisk) (dir : List Entry) (SN : List Nat) (log : Entry → ClockedFile) (bad : Entry → Bool) (nums : List (Option Int))
    (ns : List Int) (hns : convertNums true dir SN nums = .ok ns) (n : Int) (hn : pyInt SN = some n) (specs : Specs) (hspecs : gemSpecs n = .ok specs)
    (hfit : Reproduces d.fit) (hfit1 : ReproducesLines d.fit) (blockdays : Rat) (l t2 : Int) (hb : 0 < blockdays) (hl : 0 < l)
    (sss : List (List Session)) (s0 : Session) (ss : List Session) (hss : sss.flatten = s0 :: ss)
    (hblocks : List.Forall₂ (BlockWithDamage d dir SN log bad) (jobOf d.env dir SN ns blockdays (10000 * l) t2).blocks sss)
    (horder : (s0 :: ss).IsChain fun x y => x.stop < y.start) (hpos : 1 ≤ s0.start) (hlong : 103 / 100 ≤ s0.stop - s0.start)
    (hfar : ∀ r ∈ s0 :: ss, 1000000 * r.stop + 10000 * l + ⌈86400000000 * blockdays⌉ + 1000000 ≤ t2) :
    ∃ tr0 trs s h, List.Forall₂ SessionTrace (s0 :: ss) (tr0 :: trs) ∧
      Settles (convertDir d.env true dir SN nums blockdays (10000 * l) none t2) (.done s) ∧
      s.reads = (jobOf d.env dir SN ns blockdays (10000 * l) t2).blocks ∧
      h % 1000000 = 0 ∧ 10000 * tr0.start ≤ h ∧ h < 10000 * tr0.start + 1000000 ∧
      samples s.w.out = from_ h (fillIn (samples (tr0 :: trs))) := by
  have hlongs := damage_long hblocks
  rw [hss] at hlongs
  refine convert_sessions d dir SN nums ns hns blockdays l t2 hb hl sss s0 ss hss ?_ hlongs horder hpos hlong hfar
  rw [List.forall₂_map_right_iff]
  exact hblocks.imp fun b ss h => damage_yield h n hn specs hspecs hfit hfit1

/-- **C101.** `gemconvert` on a folder some of whose files are damaged, under the conditions of `C97_command` on the command line. Let `SN` be one of the wanted serial
numbers and let the files of each day hold, but for damaged ones, one or more sessions, or nothing, each session starting within 10 ms of the end of
the one before or at least a second after it. Then, however the conversions interleave, whatever becomes of the other instruments and whatever was
on the disk: when all have ended, the output folder holds files of `SN` which together have the samples of one trace per session, from
the first whole second on; and no other file of `SN` has changed. -/
theorem C101_command (ws : List Word) (hv : ∀ w ∈ ws, w.Valid) (hh : Word.flag 104 ∉ ws) (htest : Word.flag 116 ∉ ws)
    (hcodes : typedValue ws 99 = none) (hproc : 0 < typedProcesses ws) (m : Int) (hm : 0 < m)
    (hlength : LengthTyped (typedValue ws 108) m) (cli : CliEnv) (d : RawDisk) (dir : List Entry)
    (hdir : cli.listdir ((typedValue ws 105).getD (bytes "raw")) = some (dir.map Entry.name))
    (hthree : ∀ s, WantedSNs ws (dir.map Entry.name) s → s.length = 3)
    (SN : List Nat) (hwanted : WantedSNs ws (dir.map Entry.name) SN) (log : Entry → ClockedFile) (bad : Entry → Bool) (ns : List Int)
    (hns : convertNums true dir SN [none] = .ok ns) (n : Int) (hn : pyInt SN = some n) (specs : Specs) (hspecs : gemSpecs n = .ok specs)
    (hfit : Reproduces d.fit) (hfit1 : ReproducesLines d.fit) (sss : List (List Session)) (s0 : Session) (ss : List Session)
    (hss : sss.flatten = s0 :: ss)
    (hblocks : List.Forall₂ (BlockWithDamage d dir SN log bad) (jobOf d.env dir SN ns 1 (1000000 * m) endOfTime).blocks sss)
    (horder : (s0 :: ss).IsChain fun x y => x.stop < y.start ∧ (y.start - x.stop ≤ 1 / 100 ∨ 1 ≤ y.start - x.stop)) (hpos : 1 ≤ s0.start)
    (hlong : 103 / 100 ≤ s0.stop - s0.start)
    (hfar : ∀ r ∈ s0 :: ss, 1000000 * r.stop + 1000000 * m + 86400000000 + 1000000 ≤ endOfTime) :
    ∃ jobs, gemconvert cli (ws.flatMap Word.typed) = .run jobs (typedProcesses ws) ∧
      ∀ (js : List (Proc FilePiece)), List.Forall₂ (IsConversion d.env dir) jobs js →
      (∀ j ∈ js, ∀ a c, Instr.segment a c ∈ j.todo → Datable a) →
      ∀ (disk : Disk FilePiece), (∀ k, k ∈ disk.dirs) →
      ∀ sched, (∀ j ∈ (runSchedule sched (js, disk)).1, j.todo = []) →
      ∃ (tr0 : Trace) (trs out : List Trace) (h : Int), List.Forall₂ SessionTrace (s0 :: ss) (tr0 :: trs) ∧
        h % 1000000 = 0 ∧ 10000 * tr0.start ≤ h ∧ h < 10000 * tr0.start + 1000000 ∧
        samples out = from_ h (fillIn (samples (tr0 :: trs))) ∧
        (samples out).IsChain (fun x y => y.1 = x.1 + 1 ∨ x.1 + 100 ≤ y.1) ∧
        (∀ tr ∈ out, (runSchedule sched (js, disk)).2.get (.converted, convertedName (bytes "." ++ SN ++ bytes "..HDF")
          ((typedValue ws 102).getD (bytes "MSEED")) tr.start) = some [.wave tr]) ∧
        ∀ a, Datable a → (∀ tr ∈ out, tr.start / 100 ≠ a / 100) →
          (runSchedule sched (js, disk)).2.get (.converted, convertedName (bytes "." ++ SN ++ bytes "..HDF")
            ((typedValue ws 102).getD (bytes "MSEED")) a) =
          disk.get (.converted, convertedName (bytes "." ++ SN ++ bytes "..HDF") ((typedValue ws 102).getD (bytes "MSEED")) a) := by
  have hlongs := damage_long hblocks
  rw [hss] at hlongs
  refine command_sessions ws hv hh htest hcodes hproc m hm hlength cli d dir hdir hthree SN hwanted ns hns sss s0 ss hss ?_ hlongs horder hpos hlong hfar
  rw [List.forall₂_map_right_iff]
  exact hblocks.imp fun b ss h => damage_yield h n hn specs hspecs hfit hfit1

/-- **C101 violated.** If the first line of the first file of the first block is damaged such that it has some text, but not that of a known version, the whole conversion
is given up without any output, whatever the other files hold. -/
theorem C101_violated_version (env : Env) (dir : List Entry) (SN : List Nat) (nums : List (Option Int)) (ns : List Int)
    (hns : convertNums true dir SN nums = .ok ns) (blockdays : Rat) (L t2 : Int) (hb : 0 < blockdays) (t1 : Option Int) (block : List Int) (more : List (List Int))
    (hblocks : (jobOf env dir SN ns blockdays L t2).blocks = block :: more) (e : Entry) (files : List Entry) (hf : findFiles dir SN block = e :: files)
    (v : String) (hv : env.version e = some v) (hnot : v ∉ ["0.8", "0.85", "0.85C", "0.9", "0.91", "1.10"]) :
    Settles (convertDir env true dir SN nums blockdays L t1 t2) (.raised .other []) := by
  refine ⟨by simp, 1, ?_⟩
  intro fuel hfuel
  obtain ⟨fuel, rfl⟩ : ∃ k, fuel = k + 1 := ⟨fuel - 1, by omega⟩
  unfold convertDir
  rw [hns]
  simp only
  generalize hj : jobOf env dir SN ns blockdays L t2 = j at hblocks
  have hbd : j.blockdays = blockdays := by rw [← hj]; rfl
  unfold Job.blocks Job.blocksFrom at hblocks
  have hlen : 0 < (⌊((j.last : Rat) - (j.nums.head?.getD 0 : Int)) / (12 * j.blockdays)⌋ + 1).toNat := by
    have := congrArg List.length hblocks
    simp only [List.length_map, List.length_range, List.length_cons] at this
    omega
  have hle : ((j.nums.head?.getD 0 : Int) : Rat) ≤ j.last := by
    have h1 : 0 ≤ ⌊((j.last : Rat) - (j.nums.head?.getD 0 : Int)) / (12 * j.blockdays)⌋ := by omega
    rw [Int.floor_nonneg] at h1
    have h2 : (0 : Rat) < 12 * j.blockdays := by rw [hbd]; linarith
    by_contra hc
    exact absurd h1 (not_le.mpr (div_neg_of_neg_of_pos (by linarith) h2))
  obtain ⟨m, hm⟩ : ∃ m, (⌊((j.last : Rat) - (j.nums.head?.getD 0 : Int)) / (12 * j.blockdays)⌋ + 1).toNat = m + 1 := ⟨_, (Nat.succ_pred_eq_of_pos hlen).symm⟩
  rw [hm, List.range_succ_eq_map, List.map_cons, List.cons.injEq] at hblocks
  have hblock : j.block (j.nums.head?.getD 0 : Int) = block := by
    rw [← hblocks.1]
    simp
  have hread : j.read (j.block (j.nums.head?.getD 0 : Int)) = .error .other := by
    rw [hblock, ← hj]
    show (readGem env dir SN block true).map GemData.stream = _
    rw [(C39_read_gem env dir SN block true).2.2 [] files e v hf (by simp) hv hnot]
    rfl
  unfold convertLoops firstBlock
  rw [if_pos hle, hread]
  rfl

/-! ## An example: the three sessions of C100, and files that were cut off, one before them, one after the first two, and one alone on its day -/

def dmg0 : Entry := ⟨bytes "FILE0000.012", 500, .str (bytes "012")⟩
def dmg3 : Entry := ⟨bytes "FILE0003.012", 500, .str (bytes "012")⟩
def dmg45 : Entry := ⟨bytes "FILE0045.012", 500, .str (bytes "012")⟩

def dmgDir : List Entry := [dmg0, sess1, sess2, dmg3, sess3, dmg45]

def dmgBad (e : Entry) : Bool := decide (e ∈ [dmg0, dmg3, dmg45])

/-- What is left of a file. -/
def dmgLog : List Event :=
  [⟨0, .other (bytes "#GemCSV0.91")⟩, ⟨0, .other (bytes "#DmsSamp,ADC")⟩, ⟨0, .other (bytes "#GmsPPS")⟩, ⟨0, .other (bytes "S,012")⟩, longSample 0, longSample 1]

noncomputable def dmgDisk : RawDisk :=
  { sessDisk with content := fun e => if dmgBad e = true then textOf dmgLog ++ bytes "D4" else textOf (sessOf e).events }

theorem dmg_damaged (e : Entry) (he : dmgBad e = true) : Damaged dmgDisk.env e := by
  have hc : dmgDisk.content e = textOf dmgLog ++ bytes "D4" := by
    show (if dmgBad e = true then _ else _) = _
    rw [if_pos he]
  refine C101_cut_off dmgDisk e dmgLog (bytes "D4") hc "0.91" (by decide) ⟨_, _, rfl, congrArg LogLine.other (by decide +kernel)⟩ ?_ ?_ ?_ ?_ (.inl rfl)
  · decide +kernel
  · decide +kernel
  · decide +kernel
  · rw [hc]; decide +kernel

theorem dmg_without : without dmgBad dmgDir = sessDir := by decide +kernel

theorem dmg_whole (s : Nat) (hs : s = 0 ∨ s = 20 ∨ s = 40) : WholeCounts (sessFile s).events := by
  intro T hT
  have h : sampleTimes (sessFile s).events = (List.range 82).map fun i : Nat => (((24 * i : Nat) : Int) : Rat) := by
    rcases hs with rfl | rfl | rfl <;> decide +kernel
  rw [h] at hT
  obtain ⟨i, _, rfl⟩ := List.mem_map.mp hT
  exact ⟨_, rfl⟩

theorem dmg_content (e : Entry) (he : e ∈ sessDir) : dmgDisk.content e = textOf (sessOf e).events := by
  show (if dmgBad e = true then _ else _) = _
  rw [if_neg]
  revert e
  decide +kernel

theorem dmg_sessions {block block' : List Int} {ss : List Session} (h : BlockOfSessions sessDisk sessDir (bytes "012") sessOf block ss)
    (hb : findFiles sessDir (bytes "012") block' = findFiles sessDir (bytes "012") block) :
    BlockOfSessions dmgDisk sessDir (bytes "012") sessOf block' ss := by
  rcases h with h | ⟨first, rest, groups, h⟩
  · exact .inl ⟨hb.trans h.1, h.2⟩
  · refine .inr ⟨first, rest, groups, hb.trans h.files, h.grouped, ?_, h.sound, h.version, h.serials, h.gain, h.sessions, h.gaps⟩
    intro e he
    refine dmg_content e ?_
    rw [← h.files] at he
    exact ((mem_findFiles _ _ _ _).mp he).1

theorem dmg_block {block block' : List Int} {ss : List Session} (h : BlockOfSessions sessDisk sessDir (bytes "012") sessOf block ss)
    (hb : findFiles sessDir (bytes "012") block' = findFiles sessDir (bytes "012") block) :
    BlockWithDamage dmgDisk dmgDir (bytes "012") sessOf dmgBad block' ss := by
  refine ⟨fun e _ he => dmg_damaged e he, by rw [dmg_without]; exact dmg_sessions h hb, ?_⟩
  intro e he hg
  have hm : e ∈ sessDir := by
    rw [← dmg_without]
    exact List.mem_filter.mpr ⟨((mem_findFiles _ _ _ _).mp he).1, by rw [hg]; rfl⟩
  unfold sessDir at hm
  simp only [List.mem_cons, List.not_mem_nil, or_false] at hm
  rcases hm with rfl | rfl | rfl
  · rw [sessOf_1]; exact dmg_whole 0 (by omega)
  · rw [sessOf_2]; exact dmg_whole 20 (by omega)
  · rw [sessOf_3]; exact dmg_whole 40 (by omega)

theorem dmg_blocks : List.Forall₂ (BlockWithDamage dmgDisk dmgDir (bytes "012") sessOf dmgBad) [[0, 1, 2, 3], [], [30], [45]]
    [[sessSpan 0, sessSpan 20], [], [sessSpan 40], []] := by
  have hs := sess_blocks
  cases hs with
  | cons h1 hs =>
    cases hs with
    | cons h2 hs =>
      cases hs with
      | cons h3 hs =>
        exact .cons (dmg_block h1 (by decide +kernel)) (.cons (dmg_block h2 rfl) (.cons (dmg_block h3 rfl) (.cons (dmg_block h2 (by decide +kernel)) .nil)))

theorem dmg_nums : convertNums true dmgDir (bytes "012") [none] = .ok [0, 1, 2, 3, 30, 45] := by decide +kernel

/-- The hypotheses of `C101_convert` hold for these files, and so do those of `C101_read_gem` and `C101_all_damaged` for their blocks: the three sessions give three traces. -/
example : ∃ tr1 tr2 tr3 s, SessionTrace (sessSpan 0) tr1 ∧ SessionTrace (sessSpan 20) tr2 ∧ SessionTrace (sessSpan 40) tr3 ∧
    Settles (convertDir dmgDisk.env true dmgDir (bytes "012") [none] 1 (10000 * 360000) none endOfTime) (.done s) ∧
    s.reads = [[0, 1, 2, 3], [], [30], [45]] := by
  have hb : (jobOf dmgDisk.env dmgDir (bytes "012") [0, 1, 2, 3, 30, 45] 1 (10000 * 360000) endOfTime).blocks = [[0, 1, 2, 3], [], [30], [45]] := by
    decide +kernel
  obtain ⟨tr1, trs, s, h, c1, c2, c3, _⟩ := C101_convert dmgDisk dmgDir (bytes "012") sessOf dmgBad [none] [0, 1, 2, 3, 30, 45] dmg_nums 12 (by decide +kernel)
    (specsOf (7 / 10)) (by decide +kernel) idealFit_reproduces idealFit_line 1 360000 endOfTime (by decide) (by decide)
    [[sessSpan 0, sessSpan 20], [], [sessSpan 40], []] (sessSpan 0) [sessSpan 20, sessSpan 40] rfl (by rw [hb]; exact dmg_blocks)
    (by unfold sessSpan; simp only [List.isChain_cons_cons, List.isChain_singleton]; norm_num) (by unfold sessSpan; norm_num)
    (by unfold sessSpan; norm_num)
    (by
      intro r hr
      simp only [List.mem_cons, List.not_mem_nil, or_false] at hr
      rcases hr with rfl | rfl | rfl <;> unfold sessSpan endOfTime <;> norm_num)
  rw [hb] at c3
  cases c1 with
  | cons d1 d2 =>
    cases d2 with
    | cons d2 d3 =>
      cases d3 with
      | cons d3 d4 => exact ⟨tr1, _, _, s, d1, d2, d3, c2, c3⟩

def dmgCli : CliEnv := ⟨fun f => if f = bytes "raw" then some (dmgDir.map Entry.name) else none, fun _ => none⟩

/-- The hypotheses of `C101_command` on the command line and the folder hold for `gemconvert -l 1 -p 2` on these files. -/
example : ∃ jobs, gemconvert dmgCli (shortWords.flatMap Word.typed) = .run jobs 2 ∧
    ∀ (js : List (Proc FilePiece)), List.Forall₂ (IsConversion dmgDisk.env dmgDir) jobs js →
    (∀ j ∈ js, ∀ a c, Instr.segment a c ∈ j.todo → Datable a) → ∀ (disk : Disk FilePiece), (∀ k, k ∈ disk.dirs) →
    ∀ sched, (∀ j ∈ (runSchedule sched (js, disk)).1, j.todo = []) →
    ∃ (tr1 tr2 tr3 : Trace) (out : List Trace) (h : Int), SessionTrace (sessSpan 0) tr1 ∧ SessionTrace (sessSpan 20) tr2 ∧ SessionTrace (sessSpan 40) tr3 ∧
      samples out = from_ h (fillIn (samples [tr1, tr2, tr3])) ∧
      ∀ tr ∈ out, (runSchedule sched (js, disk)).2.get (.converted, convertedName (bytes "." ++ bytes "012" ++ bytes "..HDF") (bytes "MSEED") tr.start)
        = some [.wave tr] := by
  have hv : ∀ w ∈ shortWords, w.Valid := by
    intro w hw
    unfold shortWords at hw
    simp only [List.mem_cons, List.not_mem_nil, or_false] at hw
    rcases hw with rfl | rfl
    · show 108 ∈ bytes "isxcoflp"; decide +kernel
    · show 112 ∈ bytes "isxcoflp"; decide +kernel
  have hw : ∀ s, WantedSNs shortWords (dmgDir.map Entry.name) s ↔ s = bytes "012" := by
    intro s
    have h1 : typedValue shortWords 115 = none := by decide +kernel
    have h2 : typedValue shortWords 120 = none := by decide +kernel
    unfold WantedSNs
    rw [h1, h2]
    simp only [reduceCtorEq, false_and, exists_false, not_false_eq_true, and_true]
    constructor
    · rintro ⟨f, hf, rfl⟩
      revert f
      decide +kernel
    · rintro rfl
      exact ⟨bytes "FILE0001.012", by decide +kernel, by decide +kernel⟩
  have hb : (jobOf dmgDisk.env dmgDir (bytes "012") [0, 1, 2, 3, 30, 45] 1 (1000000 * 3600) endOfTime).blocks = [[0, 1, 2, 3], [], [30], [45]] := by decide +kernel
  obtain ⟨jobs, j1, j2⟩ := C101_command shortWords hv (by simp [shortWords]) (by simp [shortWords]) (by decide +kernel) (by decide +kernel) 3600 (by decide)
    shortWords_length dmgCli dmgDisk dmgDir (by decide +kernel) (fun s hs => by rw [(hw s).mp hs]; decide +kernel) (bytes "012") ((hw _).mpr rfl) sessOf dmgBad
    [0, 1, 2, 3, 30, 45] dmg_nums 12 (by decide +kernel) (specsOf (7 / 10)) (by decide +kernel) idealFit_reproduces idealFit_line
    [[sessSpan 0, sessSpan 20], [], [sessSpan 40], []] (sessSpan 0) [sessSpan 20, sessSpan 40] rfl (by rw [hb]; exact dmg_blocks)
    (by unfold sessSpan; simp only [List.isChain_cons_cons, List.isChain_singleton]; norm_num) (by unfold sessSpan; norm_num)
    (by unfold sessSpan; norm_num)
    (by
      intro r hr
      simp only [List.mem_cons, List.not_mem_nil, or_false] at hr
      rcases hr with rfl | rfl | rfl <;> unfold sessSpan endOfTime <;> norm_num)
  refine ⟨jobs, j1, fun js hjs hdat disk hdisk sched hend => ?_⟩
  obtain ⟨tr1, trs, out, h, c1, _, _, _, c5, _, c7, _⟩ := j2 js hjs hdat disk hdisk sched hend
  cases c1 with
  | cons d1 d2 =>
    cases d2 with
    | cons d2 d3 =>
      cases d3 with
      | cons d3 d4 =>
        cases d4
        exact ⟨tr1, _, _, out, h, d1, d2, d3, c5, c7⟩

/-- The file before the first session begins with something else. -/
noncomputable def dmgDisk2 : RawDisk :=
  { dmgDisk with content := fun e => if e = dmg0 then bytes "Gem data" ++ [10] else dmgDisk.content e }

/-- The hypotheses of `C101_violated_version` hold for these files. -/
example : Settles (convertDir dmgDisk2.env true dmgDir (bytes "012") [none] 1 3600000000 none endOfTime) (.raised .other []) := by
  refine C101_violated_version dmgDisk2.env dmgDir (bytes "012") [none] [0, 1, 2, 3, 30, 45] dmg_nums 1 3600000000 endOfTime (by decide) none
    [0, 1, 2, 3] [[], [30], [45]] (by decide +kernel) dmg0 [sess1, sess2, dmg3] (by decide +kernel) "a" ?_ (by decide)
  have hc : dmgDisk2.content dmg0 = bytes "Gem data" ++ [10] := by
    unfold dmgDisk2
    simp only [if_true]
  show formatVersion (dmgDisk2.content dmg0) = _
  rw [hc]
  decide +kernel

/-- The environment of C39's example, with a status row at count zero, and low gain but for refused files. -/
def zeroEnv : Env :=
  { demoEnv with
    ops := { demoEnv.ops with read := fun e start rg v => (demoEnv.ops.read e start rg v).map fun L => { L with metadata := [(0, [some 4])] } }
    adc := fun e => if e.size = 99 then 0 else 1 }

def zeroGood : Entry := ⟨bytes "FILE0002.012", 100, .str (bytes "012")⟩
def zeroBad (n : Nat) : Entry := ⟨if n = 1 then bytes "FILE0001.012" else bytes "FILE0003.012", 99, .str (bytes "012")⟩

theorem zero_refused (n : Nat) : Refused zeroEnv (zeroBad n) := fun _ => .inl ⟨.corrupt, rfl, rfl⟩

/-- The hypotheses of `C101_violated_metadata` are met, and the time of the row is not 0 without the refused file. -/
example : ((readGem zeroEnv [zeroGood] (bytes "012") [2] true).map fun g => g.metadata) = .ok [(0, [some 4], none)] ∧
    ∃ g, readGem zeroEnv [zeroGood, zeroBad 3] (bytes "012") [2, 3] true = .ok g ∧ g.metadata ≠ [] ∧ ∀ p ∈ g.metadata, p.1 = 0 → p.2.2 = some 0 := by
  have h : ((readGem zeroEnv [zeroGood, zeroBad 3] (bytes "012") [2, 3] true).map fun g => g.metadata) = .ok [(0, [some 4], some 0)] := by decide +kernel
  refine ⟨by decide +kernel, ?_⟩
  cases hg : readGem zeroEnv [zeroGood, zeroBad 3] (bytes "012") [2, 3] true with
  | error x => rw [hg] at h; simp [Except.map] at h
  | ok g =>
    rw [hg] at h
    simp only [Except.map, Except.ok.injEq] at h
    exact ⟨g, rfl, by rw [h]; simp, C101_violated_metadata zeroEnv [zeroGood, zeroBad 3] (bytes "012") [2, 3] g hg [] zeroGood (zeroBad 3) (by decide +kernel) "0.9" (by decide)
      (by decide +kernel) (zero_refused 3)⟩

/-- The hypotheses of `C101_violated_gain` are met. -/
example : ∃ g g', readGem zeroEnv (without (fun e => decide (e.size = 99)) [zeroBad 1, zeroGood]) (bytes "012") [1, 2] true = .ok g ∧
    readGem zeroEnv [zeroBad 1, zeroGood] (bytes "012") [1, 2] true = .ok g' ∧ g.specs.bitweightPa = 2 * g'.specs.bitweightPa := by
  have h1 : (readGem zeroEnv (without (fun e => decide (e.size = 99)) [zeroBad 1, zeroGood]) (bytes "012") [1, 2] true).toOption.isSome = true := by decide +kernel
  have h2 : (readGem zeroEnv [zeroBad 1, zeroGood] (bytes "012") [1, 2] true).toOption.isSome = true := by decide +kernel
  cases hg : readGem zeroEnv (without (fun e => decide (e.size = 99)) [zeroBad 1, zeroGood]) (bytes "012") [1, 2] true with
  | error x => rw [hg] at h1; simp [Except.toOption] at h1
  | ok g =>
    cases hg' : readGem zeroEnv [zeroBad 1, zeroGood] (bytes "012") [1, 2] true with
    | error x => rw [hg'] at h2; simp [Except.toOption] at h2
    | ok g' =>
      exact ⟨g, g', rfl, rfl, C101_violated_gain zeroEnv [zeroBad 1, zeroGood] (bytes "012") [1, 2] (fun e => decide (e.size = 99)) g g' hg hg' (zeroBad 1)
        (by decide +kernel) "0.9" (by decide +kernel) (by decide +kernel) (by decide +kernel)⟩

end Gemlog
