import Verif.Props.GapReport
import Verif.Props.DamagedConvert

/-!
# C128: the report of gaps for a folder with damaged files, and for the `gemconvert` command
-/

namespace Gemlog

/-- What obspy reads from a file of the output folder: the trace written there, under its identifier. -/
def readConverted (disk : Disk FilePiece) (id f : List Nat) : Option (List (List Nat × Trace)) :=
  match disk.get (.converted, f) with
  | some [.wave tr] => some [(id, tr)]
  | _ => none

/-- **C128, damaged files.** The same if some of the files are damaged (conditions of `C101_convert`): the report shows the sessions of the other files, so a damaged file shows
up as a gap. -/
theorem C128_damaged (d : RawDisk) (dir : List Entry) (SN : List Nat) (log : Entry → ClockedFile) (bad : Entry → Bool) (nums : List (Option Int)) (ns : List Int)
    (hns : convertNums true dir SN nums = .ok ns) (n : Int) (hn : pyInt SN = some n) (specs : Specs) (hspecs : gemSpecs n = .ok specs)
    (hfit : Reproduces d.fit) (hfit1 : ReproducesLines d.fit) (blockdays : Rat) (m t2 : Int) (hb : 0 < blockdays) (hm : 0 < m)
    (sss : List (List Session)) (s0 : Session) (ss : List Session) (hss : sss.flatten = s0 :: ss)
    (hblocks : List.Forall₂ (BlockWithDamage d dir SN log bad) (jobOf d.env dir SN ns blockdays (10000 * (100 * m)) t2).blocks sss)
    (horder : (s0 :: ss).IsChain fun x y => x.stop < y.start) (hpos : 1 ≤ s0.start) (hlong : 103 / 100 ≤ s0.stop - s0.start)
    (hfar : ∀ r ∈ s0 :: ss, 1000000 * r.stop + 10000 * (100 * m : Int) + ⌈86400000000 * blockdays⌉ + 1000000 ≤ t2)
    (hdate : ∀ r ∈ s0 :: ss, r.stop ≤ 253402300799)
    (g0 : List Session) (gs : List (List Session)) (hgs : (g0 :: gs).flatten = s0 :: ss)
    (hclose : ∀ g ∈ g0 :: gs, g ≠ [] ∧ g.IsChain fun x y => y.start - x.stop ≤ 1 / 100)
    (hpause : (g0 :: gs).IsChain fun g g' => ∀ x ∈ g.getLast?, ∀ y ∈ g'.head?, 1 ≤ y.start - x.stop) (id fmt : List Nat) :
    ∃ s, Settles (convertDir d.env true dir SN nums blockdays (10000 * (100 * m)) none t2) (.done s) ∧
      ∀ (folder : Dir Trace) (files : List (List Nat)), (∀ f, f ∈ files ↔ ∃ tr ∈ s.w.out, f = convertedName id fmt tr.start) →
        ∃ (first last : Int) (lines : List (Int × Int)),
          checkDiscontinuity (fun f => (folder.writeAll (segmentWrites id fmt s.w.out) f).map fun tr => [(id, tr)]) files =
            some (if gs = [] then [] else (id, first, last) :: lines.map fun l => (id, l.1, l.2)) ∧
          first % 100 = 0 ∧ s0.start - 5 / 1000 ≤ (first : Rat) / 100 ∧ (first : Rat) / 100 < s0.start + 1 + 5 / 1000 ∧ EndsWith g0 last ∧
          List.Forall₂ (fun g l => StartsWith g l.1 ∧ EndsWith g l.2) gs lines := by
  obtain ⟨tr0, trs, s, h, c1, c2, _, c4, c5, c6, c7⟩ := C101_convert d dir SN log bad nums ns hns n hn specs hspecs hfit hfit1 blockdays (100 * m) t2 hb
    (by omega) sss s0 ss hss hblocks horder hpos hlong hfar
  have hlongs := damage_long hblocks
  rw [hss] at hlongs
  exact ⟨s, c2, report_of_sessions d.env dir SN nums ns hns blockdays m t2 hm s0 ss horder hpos hlong hdate hlongs g0 gs hgs hclose hpause id fmt tr0 trs s h
    c1 c2 c4 c5 c6 c7⟩

/-- **C128, the command.** `gemconvert` on a folder of raw files, some of which may be damaged, under the conditions of `C97_command` on the command line. Let `SN` be one of the wanted serial
numbers, and the sessions of its files be in groups as in `C128_report`. Then, however the conversions interleave, whatever becomes of the other instruments and whatever was
on the disk: when all have ended, `check_discontinuity` on the files written for `SN`, in any order, reports one line per group as in `C128_report`. -/
theorem C128_command (ws : List Word) (hv : ∀ w ∈ ws, w.Valid) (hh : Word.flag 104 ∉ ws) (htest : Word.flag 116 ∉ ws)
    (hcodes : typedValue ws 99 = none) (hproc : 0 < typedProcesses ws) (m : Int) (hm : 0 < m)
    (hlength : LengthTyped (typedValue ws 108) m) (cli : CliEnv) (d : RawDisk) (dir : List Entry)
    (hdir : cli.listdir ((typedValue ws 105).getD (bytes "raw")) = some (dir.map Entry.name))
    (hthree : ∀ s, WantedSNs ws (dir.map Entry.name) s → s.length = 3)
    (SN : List Nat) (hwanted : WantedSNs ws (dir.map Entry.name) SN) (log : Entry → ClockedFile) (bad : Entry → Bool) (ns : List Int)
    (hns : convertNums true dir SN [none] = .ok ns) (n : Int) (hn : pyInt SN = some n) (specs : Specs) (hspecs : gemSpecs n = .ok specs)
    (hfit : Reproduces d.fit) (hfit1 : ReproducesLines d.fit) (sss : List (List Session)) (s0 : Session) (ss : List Session)
    (hss : sss.flatten = s0 :: ss)
    (hblocks : List.Forall₂ (BlockWithDamage d dir SN log bad) (jobOf d.env dir SN ns 1 (1000000 * m) endOfTime).blocks sss)
    (horder : (s0 :: ss).IsChain fun x y => x.stop < y.start) (hpos : 1 ≤ s0.start)
    (hlong : 103 / 100 ≤ s0.stop - s0.start)
    (hfar : ∀ r ∈ s0 :: ss, 1000000 * r.stop + 1000000 * m + 86400000000 + 1000000 ≤ endOfTime)
    (g0 : List Session) (gs : List (List Session)) (hgs : (g0 :: gs).flatten = s0 :: ss)
    (hclose : ∀ g ∈ g0 :: gs, g ≠ [] ∧ g.IsChain fun x y => y.start - x.stop ≤ 1 / 100)
    (hpause : (g0 :: gs).IsChain fun g g' => ∀ x ∈ g.getLast?, ∀ y ∈ g'.head?, 1 ≤ y.start - x.stop) :
    ∃ jobs, gemconvert cli (ws.flatMap Word.typed) = .run jobs (typedProcesses ws) ∧
      ∀ (js : List (Proc FilePiece)), List.Forall₂ (IsConversion d.env dir) jobs js →
      (∀ j ∈ js, ∀ a c, Instr.segment a c ∈ j.todo → Datable a) →
      ∀ (disk : Disk FilePiece), (∀ k, k ∈ disk.dirs) →
      ∀ sched, (∀ j ∈ (runSchedule sched (js, disk)).1, j.todo = []) →
      ∃ out : List Trace, (∀ tr ∈ out, (runSchedule sched (js, disk)).2.get (.converted, convertedName (bytes "." ++ SN ++ bytes "..HDF")
          ((typedValue ws 102).getD (bytes "MSEED")) tr.start) = some [.wave tr]) ∧
        (∀ a, Datable a → (∀ tr ∈ out, tr.start / 100 ≠ a / 100) →
          (runSchedule sched (js, disk)).2.get (.converted, convertedName (bytes "." ++ SN ++ bytes "..HDF") ((typedValue ws 102).getD (bytes "MSEED")) a) =
          disk.get (.converted, convertedName (bytes "." ++ SN ++ bytes "..HDF") ((typedValue ws 102).getD (bytes "MSEED")) a)) ∧
        ∀ files : List (List Nat), (∀ f, f ∈ files ↔ ∃ tr ∈ out, f = convertedName (bytes "." ++ SN ++ bytes "..HDF") ((typedValue ws 102).getD (bytes "MSEED")) tr.start) →
          ∃ (first last : Int) (lines : List (Int × Int)),
            checkDiscontinuity (readConverted (runSchedule sched (js, disk)).2 (bytes "." ++ SN ++ bytes "..HDF")) files =
              some (if gs = [] then [] else (bytes "." ++ SN ++ bytes "..HDF", first, last) :: lines.map fun l => (bytes "." ++ SN ++ bytes "..HDF", l.1, l.2)) ∧
            first % 100 = 0 ∧ s0.start - 5 / 1000 ≤ (first : Rat) / 100 ∧ (first : Rat) / 100 < s0.start + 1 + 5 / 1000 ∧ EndsWith g0 last ∧
            List.Forall₂ (fun g l => StartsWith g l.1 ∧ EndsWith g l.2) gs lines := by
  have hlongs := damage_long hblocks
  rw [hss] at hlongs
  have hL : (1000000 : Int) * m = 10000 * (100 * m) := by ring
  have hfar' : ∀ r ∈ s0 :: ss, 1000000 * r.stop + 10000 * ((100 * m : Int) : Rat) + ((⌈86400000000 * (1 : Rat)⌉ : Int) : Rat) + 1000000 ≤ endOfTime := by
    intro r hr
    have := hfar r hr
    rw [show ⌈86400000000 * (1 : Rat)⌉ = 86400000000 by decide +kernel]
    push_cast
    linarith
  rw [hL] at hblocks
  obtain ⟨tr0, trs, s, h, c1, c2, _, c4, c5, c6, c7⟩ := C101_convert d dir SN log bad [none] ns hns n hn specs hspecs hfit hfit1 1 (100 * m) endOfTime
    (by norm_num) (by omega) sss s0 ss hss hblocks horder hpos hlong hfar'
  obtain ⟨hgap, t, T, v3, hsam, v5, v6, v7, v8, w2⟩ := groups_found s0 ss horder hlong hlongs g0 gs hgs hclose hpause tr0 trs s.w.out h c1 c4 c5 c6 c7
  have hne : ∀ tr ∈ s.w.out, tr.data ≠ [] := by
    have c2' := c2
    rw [convertDir_loops hns] at c2'
    obtain ⟨_, N, hN⟩ := c2'
    have hrun := hN N (le_refl _)
    have hw : (convertLoops (jobOf d.env dir SN ns 1 (10000 * (100 * m)) endOfTime) none N).written = s.w.out := by rw [hrun]; rfl
    have hne := (written_parted (jobOf d.env dir SN ns 1 (10000 * (100 * m)) endOfTime) (l := 100 * m) (by omega) rfl none (by simp) N).1
    rwa [hw] at hne
  rw [← hL] at c2
  obtain ⟨jobs, j1, j2⟩ := command_files ws hv hh htest hcodes hproc m hm (lengthTyped_micros hlength) cli d.env dir hdir hthree SN hwanted ns hns s c2 hgap
  refine ⟨jobs, j1, fun js hjs hdat disk hdisk sched hend => ?_⟩
  obtain ⟨k1, k2⟩ := j2 js hjs hdat disk hdisk sched hend
  refine ⟨s.w.out, k1, k2, fun files hfiles => ⟨t.start, t.stop, T.map fun t => (t.start, t.stop), ?_, v5, v6, v7, v8, by
    rw [List.forall₂_map_right_iff]; exact w2⟩⟩
  rw [report_separate (name := fun tr => convertedName (bytes "." ++ SN ++ bytes "..HDF") ((typedValue ws 102).getD (bytes "MSEED")) tr.start) v3
    (fun q => by rw [hsam]) hne (fun tr htr => by unfold readConverted; rw [k1 tr htr]) hfiles, report_lines w2.length_eq]

/-- The hypotheses on the command line and the folder hold for `gemconvert -l 1 -p 2` on the files of `C101_command`'s example: three sessions and three damaged files give three lines. -/
example : ∃ jobs, gemconvert dmgCli (shortWords.flatMap Word.typed) = .run jobs 2 ∧
    ∀ (js : List (Proc FilePiece)), List.Forall₂ (IsConversion dmgDisk.env dmgDir) jobs js →
    (∀ j ∈ js, ∀ a c, Instr.segment a c ∈ j.todo → Datable a) → ∀ (disk : Disk FilePiece), (∀ k, k ∈ disk.dirs) →
    ∀ sched, (∀ j ∈ (runSchedule sched (js, disk)).1, j.todo = []) →
    ∃ files lines, checkDiscontinuity (readConverted (runSchedule sched (js, disk)).2 (bytes "." ++ bytes "012" ++ bytes "..HDF")) files = some lines ∧
      lines.length = 3 := by
  have hv : ∀ w ∈ shortWords, w.Valid := by
    intro w hw
    unfold shortWords at hw
    simp only [List.mem_cons, List.not_mem_nil, or_false] at hw
    rcases hw with rfl | rfl
    · show 108 ∈ bytes "isxcoflp"; decide +kernel
    · show 112 ∈ bytes "isxcoflp"; decide +kernel
  have hw : ∀ s, WantedSNs shortWords (dmgDir.map Entry.name) s ↔ s = bytes "012" := by
    intro s
    have h1 : typedValue shortWords 115 = none := by decide +kernel
    have h2 : typedValue shortWords 120 = none := by decide +kernel
    unfold WantedSNs
    rw [h1, h2]
    simp only [reduceCtorEq, false_and, exists_false, not_false_eq_true, and_true]
    constructor
    · rintro ⟨f, hf, rfl⟩
      revert f
      decide +kernel
    · rintro rfl
      exact ⟨bytes "FILE0001.012", by decide +kernel, by decide +kernel⟩
  have hb : (jobOf dmgDisk.env dmgDir (bytes "012") [0, 1, 2, 3, 30, 45] 1 (1000000 * 3600) endOfTime).blocks = [[0, 1, 2, 3], [], [30], [45]] := by decide +kernel
  obtain ⟨jobs, j1, j2⟩ := C128_command shortWords hv (by simp [shortWords]) (by simp [shortWords]) (by decide +kernel) (by decide +kernel) 3600 (by decide)
    shortWords_length dmgCli dmgDisk dmgDir (by decide +kernel) (fun s hs => by rw [(hw s).mp hs]; decide +kernel) (bytes "012") ((hw _).mpr rfl) sessOf dmgBad
    [0, 1, 2, 3, 30, 45] dmg_nums 12 (by decide +kernel) (specsOf (7 / 10)) (by decide +kernel) idealFit_reproduces idealFit_line
    [[sessSpan 0, sessSpan 20], [], [sessSpan 40], []] (sessSpan 0) [sessSpan 20, sessSpan 40] rfl (by rw [hb]; exact dmg_blocks)
    (by unfold sessSpan; simp only [List.isChain_cons_cons, List.isChain_singleton]; norm_num) (by unfold sessSpan; norm_num)
    (by unfold sessSpan; norm_num)
    (by
      intro r hr
      simp only [List.mem_cons, List.not_mem_nil, or_false] at hr
      rcases hr with rfl | rfl | rfl <;> unfold sessSpan endOfTime <;> norm_num)
    [sessSpan 0] [[sessSpan 20], [sessSpan 40]] rfl
    (by
      intro g hg
      simp only [List.mem_cons, List.not_mem_nil, or_false] at hg
      rcases hg with rfl | rfl | rfl <;> exact ⟨by simp, .singleton _⟩)
    (by
      simp only [List.isChain_cons_cons, List.isChain_singleton, List.getLast?_singleton, List.head?_cons, Option.mem_def, Option.some.injEq,
        forall_eq', and_true]
      unfold sessSpan
      norm_num)
  refine ⟨jobs, j1, fun js hjs hdat disk hdisk sched hend => ?_⟩
  obtain ⟨out, k1, _, k3⟩ := j2 js hjs hdat disk hdisk sched hend
  obtain ⟨first, last, lines, e, _, _, _, _, hl⟩ := k3 (out.map fun tr => convertedName (bytes "." ++ bytes "012" ++ bytes "..HDF") (bytes "MSEED") tr.start)
    (by
      intro f
      rw [List.mem_map]
      exact ⟨fun ⟨tr, h1, h2⟩ => ⟨tr, h1, h2.symm⟩, fun ⟨tr, h1, h2⟩ => ⟨tr, h1, h2.symm⟩⟩)
  refine ⟨_, _, e, ?_⟩
  have := hl.length_eq
  simp at this ⊢
  omega

/-- The hypotheses of `C128_damaged` hold for the same files. -/
example := C128_damaged dmgDisk dmgDir (bytes "012") sessOf dmgBad [none] [0, 1, 2, 3, 30, 45] dmg_nums 12 (by decide +kernel)
    (specsOf (7 / 10)) (by decide +kernel) idealFit_reproduces idealFit_line 1 3600 endOfTime (by decide) (by decide)
    [[sessSpan 0, sessSpan 20], [], [sessSpan 40], []] (sessSpan 0) [sessSpan 20, sessSpan 40] rfl
    (by
      have hb : (jobOf dmgDisk.env dmgDir (bytes "012") [0, 1, 2, 3, 30, 45] 1 (10000 * (100 * 3600)) endOfTime).blocks = [[0, 1, 2, 3], [], [30], [45]] := by
        decide +kernel
      rw [hb]
      exact dmg_blocks)
    (by unfold sessSpan; simp only [List.isChain_cons_cons, List.isChain_singleton]; norm_num) (by unfold sessSpan; norm_num)
    (by unfold sessSpan; norm_num)
    (by
      intro r hr
      simp only [List.mem_cons, List.not_mem_nil, or_false] at hr
      rcases hr with rfl | rfl | rfl <;> unfold sessSpan endOfTime <;> norm_num)
    (by
      intro r hr
      simp only [List.mem_cons, List.not_mem_nil, or_false] at hr
      rcases hr with rfl | rfl | rfl <;> unfold sessSpan <;> norm_num)
    [sessSpan 0] [[sessSpan 20], [sessSpan 40]] rfl
    (by
      intro g hg
      simp only [List.mem_cons, List.not_mem_nil, or_false] at hg
      rcases hg with rfl | rfl | rfl <;> exact ⟨by simp, .singleton _⟩)
    (by
      simp only [List.isChain_cons_cons, List.isChain_singleton, List.getLast?_singleton, List.head?_cons, Option.mem_def, Option.some.injEq,
        forall_eq', and_true]
      unfold sessSpan
      norm_num)
    (bytes ".012..HDF") (bytes "MSEED")

end Gemlog
