import Verif.Props.WholeConvert
import Verif.Props.Restarts
import Verif.Props.Command

/-!
# Conversion of recordings with restarts (C100)

Blocks of files that were written in several sessions, blocks without files, and the command `gemconvert` on such a folder.
-/

namespace Gemlog

/-- The files of a block, in `groups`, hold the texts of one session per group. -/
structure HoldsSessions (d : RawDisk) (dir : List Entry) (SN : List Nat) (log : Entry → ClockedFile) (block : List Int) (ss : List Session)
    (first : Entry) (rest : List Entry) (groups : List (List Entry)) : Prop where
  files : findFiles dir SN block = first :: rest
  grouped : groups.flatten = first :: rest
  texts : ∀ e ∈ first :: rest, d.content e = textOf (log e).events
  sound : SoundSessions d.now ((first :: rest).map log)
  version : ∃ v ∈ ["0.85C", "0.9", "0.91", "1.10"], HasVersion v (log first).events
  serials : ∀ e ∈ first :: rest, ∃ sn, d.readSN e = .ok sn
  gain : d.adc first = 0 ∨ d.adc first = 1
  sessions : List.Forall₂ (fun es s => RecordsSession d.spline (es.map log) s) groups ss
  gaps : ss.IsChain fun x y => x.stop + 25 / 1000 < y.start

/-- A block holds the sessions `ss`; without files it holds none. -/
def BlockOfSessions (d : RawDisk) (dir : List Entry) (SN : List Nat) (log : Entry → ClockedFile) (block : List Int) (ss : List Session) : Prop :=
  (findFiles dir SN block = [] ∧ ss = []) ∨ ∃ first rest groups, HoldsSessions d dir SN log block ss first rest groups

/-- A session as a span (helper; the clock of a span does not matter to its trace). -/
def Session.span (s : Session) : BlockSpan := ⟨0, 1, s.start, s.stop, s.curve⟩

theorem span_trace {s : Session} {tr : Trace} : TraceOver s.span tr ↔ SessionTrace s tr :=
  ⟨fun h => ⟨h.start, h.length, h.values⟩, fun h => ⟨h.start, h.length, h.values⟩⟩

theorem spans_traces {ss : List Session} {trs : List Trace} :
    List.Forall₂ TraceOver (ss.map Session.span) trs ↔ List.Forall₂ SessionTrace ss trs := by
  rw [List.forall₂_map_left_iff]
  exact ⟨fun h => h.imp fun _ _ => span_trace.mp, fun h => h.imp fun _ _ => span_trace.mpr⟩

theorem sessions_yield {d : RawDisk} {dir : List Entry} {SN : List Nat} {log : Entry → ClockedFile} {block : List Int} {ss : List Session}
    (h : BlockOfSessions d dir SN log block ss) (n : Int) (hn : pyInt SN = some n) (specs : Specs)
    (hspecs : gemSpecs n = .ok specs) (hfit : Reproduces d.fit) (hfit1 : ReproducesLines d.fit) :
    BlockYields d.env dir SN block (ss.map Session.span) := by
  rcases h with ⟨h1, rfl⟩ | ⟨first, rest, groups, h⟩
  · refine .inr ⟨rfl, .missingRaw, ?_, by decide⟩
    unfold readGem
    rw [h1]
  · obtain ⟨v, hv, hver⟩ := h.version
    obtain ⟨g, g1, g2, _⟩ := C100_sessions d dir SN block log first rest h.files h.texts h.sound v hv hver h.serials n hn specs hspecs h.gain hfit hfit1
      groups h.grouped ss h.sessions h.gaps
    exact .inl ⟨g, g1, spans_traces.mpr g2⟩

theorem sessions_long {d : RawDisk} {dir : List Entry} {SN : List Nat} {log : Entry → ClockedFile} {bs : List (List Int)} {sss : List (List Session)}
    (h : List.Forall₂ (BlockOfSessions d dir SN log) bs sss) : ∀ s ∈ sss.flatten, 1 / 100 ≤ s.stop - s.start := by
  intro s hs
  obtain ⟨ss, h1, h2⟩ := List.mem_flatten.mp hs
  obtain ⟨b, _, hb⟩ := forall₂_right h ss h1
  rcases hb with ⟨_, rfl⟩ | ⟨first, rest, groups, hb⟩
  · simp at h2
  · obtain ⟨es, _, h⟩ := forall₂_right hb.sessions s h2
    exact h.long

/-- Conversion when each block yields the traces of its sessions (helper for C100 and C101). -/
theorem convert_sessions (d : RawDisk) (dir : List Entry) (SN : List Nat) (nums : List (Option Int)) (ns : List Int)
    (hns : convertNums true dir SN nums = .ok ns) (blockdays : Rat) (l t2 : Int) (hb : 0 < blockdays) (hl : 0 < l)
    (sss : List (List Session)) (s0 : Session) (ss : List Session) (hss : sss.flatten = s0 :: ss)
    (hyield : List.Forall₂ (BlockYields d.env dir SN) (jobOf d.env dir SN ns blockdays (10000 * l) t2).blocks (sss.map fun ss => ss.map Session.span))
    (hlongs : ∀ s ∈ s0 :: ss, 1 / 100 ≤ s.stop - s.start)
    (horder : (s0 :: ss).IsChain fun x y => x.stop < y.start) (hpos : 1 ≤ s0.start) (hlong : 103 / 100 ≤ s0.stop - s0.start)
    (hfar : ∀ r ∈ s0 :: ss, 1000000 * r.stop + 10000 * l + ⌈86400000000 * blockdays⌉ + 1000000 ≤ t2) :
    ∃ tr0 trs s h, List.Forall₂ SessionTrace (s0 :: ss) (tr0 :: trs) ∧
      Settles (convertDir d.env true dir SN nums blockdays (10000 * l) none t2) (.done s) ∧
      s.reads = (jobOf d.env dir SN ns blockdays (10000 * l) t2).blocks ∧
      h % 1000000 = 0 ∧ 10000 * tr0.start ≤ h ∧ h < 10000 * tr0.start + 1000000 ∧
      samples s.w.out = from_ h (fillIn (samples (tr0 :: trs))) := by
  obtain ⟨tr0, trs, s, h, c1, c2, c3, c4, c5, c6, c7, _⟩ := convert_spans d.env dir SN nums ns hns blockdays l t2 hb hl _ s0.span (ss.map Session.span)
    (by rw [← List.map_flatten, hss]; rfl) hyield
    (by
      intro r hr
      rw [← List.map_cons, List.mem_map] at hr
      obtain ⟨s, hs, rfl⟩ := hr
      exact hlongs s hs)
    (by rw [← List.map_cons, List.isChain_map]; exact horder) hpos hlong
    (by
      intro r hr
      rw [← List.map_cons, List.mem_map] at hr
      obtain ⟨s, hs, rfl⟩ := hr
      exact hfar s hs)
  exact ⟨tr0, trs, s, h, spans_traces.mp (by exact c1), c2, c3, c4, c5, c6, c7⟩

/-- **C100.** Let each block of the selected files of a directory hold one or more sessions, each with its own clock and its own count, or no
files at all, and let each session start after the end of the one before. Then the conversion ends normally, every block is
read once, and there is one trace per session, such that the written samples are exactly those of the traces, with gaps of one or two samples
filled in, from the first whole second on. -/
theorem C100_convert (d : RawDisk) (dir : List Entry) (SN : List Nat) (log : Entry → ClockedFile) (nums : List (Option Int)) (ns : List Int)
    (hns : convertNums true dir SN nums = .ok ns) (n : Int) (hn : pyInt SN = some n) (specs : Specs) (hspecs : gemSpecs n = .ok specs)
    (hfit : Reproduces d.fit) (hfit1 : ReproducesLines d.fit) (blockdays : Rat) (l t2 : Int) (hb : 0 < blockdays) (hl : 0 < l)
    (sss : List (List Session)) (s0 : Session) (ss : List Session) (hss : sss.flatten = s0 :: ss)
    (hblocks : List.Forall₂ (BlockOfSessions d dir SN log) (jobOf d.env dir SN ns blockdays (10000 * l) t2).blocks sss)
    (horder : (s0 :: ss).IsChain fun x y => x.stop < y.start) (hpos : 1 ≤ s0.start) (hlong : 103 / 100 ≤ s0.stop - s0.start)
    (hfar : ∀ r ∈ s0 :: ss, 1000000 * r.stop + 10000 * l + ⌈86400000000 * blockdays⌉ + 1000000 ≤ t2) :
    ∃ tr0 trs s h, List.Forall₂ SessionTrace (s0 :: ss) (tr0 :: trs) ∧
      Settles (convertDir d.env true dir SN nums blockdays (10000 * l) none t2) (.done s) ∧
      s.reads = (jobOf d.env dir SN ns blockdays (10000 * l) t2).blocks ∧
      h % 1000000 = 0 ∧ 10000 * tr0.start ≤ h ∧ h < 10000 * tr0.start + 1000000 ∧
      samples s.w.out = from_ h (fillIn (samples (tr0 :: trs))) := by
  have hlongs := sessions_long hblocks
  rw [hss] at hlongs
  refine convert_sessions d dir SN nums ns hns blockdays l t2 hb hl sss s0 ss hss ?_ hlongs horder hpos hlong hfar
  rw [List.forall₂_map_right_iff]
  exact hblocks.imp fun b ss h => sessions_yield h n hn specs hspecs hfit hfit1

/-! ## The command -/

/-- Gaps between spans of at most 10 ms or at least a second are such gaps between samples. -/
theorem traces_apart : ∀ {rs : List BlockSpan} {trs : List Trace}, List.Forall₂ TraceOver rs trs → (∀ r ∈ rs, 1 / 100 ≤ r.stop - r.start) →
    (rs.IsChain fun x y => y.start - x.stop ≤ 1 / 100 ∨ 1 ≤ y.start - x.stop) →
    (samples trs).IsChain fun a b => b.1 - a.1 ≤ 3 ∨ 100 ≤ b.1 - a.1 := by
  intro rs trs h
  induction h with
  | nil => intro _ _; exact .nil
  | @cons r tr rs trs hr hrs ih =>
    intro hl hc
    have i1 := ih (fun r hr => hl r (by simp [hr])) hc.tail
    rw [samples_cons, List.isChain_append]
    refine ⟨(stamps_chain _ _).imp fun _ _ h => .inl h, i1, ?_⟩
    intro x hx y hy
    cases hrs with
    | nil => simp [samples] at hy
    | @cons r' tr' rs' trs' hr' _ =>
      have hc1 := (List.isChain_cons_cons.mp hc).1
      have hne := traceOver_ne hr (hl r (by simp))
      have hne' := traceOver_ne hr' (hl r' (by simp))
      obtain ⟨v, s, e⟩ := last_stamps hne
      have hb := traceOver_bounds hr (q := (tr.stop, v)) (by rw [e]; simp)
      rw [e] at hx
      simp only [List.getLast?_append, List.getLast?_singleton, Option.some_or, Option.mem_def, Option.some.injEq] at hx
      obtain ⟨z, l, hz⟩ := List.exists_cons_of_ne_nil hne'
      rw [samples_cons, hz, stamps] at hy
      simp only [List.cons_append, List.head?_cons, Option.mem_def, Option.some.injEq] at hy
      rw [← hx, ← hy]
      have h1 := traceOver_stop hr hne
      have h2 := hr'.start
      unfold Trace.time at h2
      rw [abs_le] at h2
      push_cast at h2
      rcases hc1 with hc1 | hc1
      · left
        have h3 : (tr'.start : Rat) - tr.stop < 4 := by linarith
        have h4 : tr'.start - tr.stop < 4 := by exact_mod_cast h3
        simp only
        omega
      · right
        have h3 : (100 : Rat) ≤ tr'.start - tr.stop := by linarith [hb.2]
        exact_mod_cast h3

/-- Filling gaps of up to two samples leaves gaps of at least a second, if there were no others. -/
theorem fillIn_apart : ∀ {s : List (Int × Int)}, Increasing s → (s.IsChain fun a b => b.1 - a.1 ≤ 3 ∨ 100 ≤ b.1 - a.1) → NoShortGap (fillIn s)
  | [], _, _ => .nil
  | [_], _, _ => .singleton _
  | a :: b :: l, hi, hc => by
    have h1 := (List.isChain_cons_cons.mp hc)
    have hlt : a.1 < b.1 := (List.pairwise_cons.mp hi).1 b (by simp)
    have ih := fillIn_apart (List.pairwise_cons.mp hi).2 h1.2
    have h0 := h1.1
    unfold NoShortGap at ih ⊢
    obtain ⟨t, ht⟩ := fillIn_cons b l
    rw [fillIn]
    rw [ht] at ih ⊢
    unfold between
    by_cases h2 : b.1 - a.1 = 2
    · rw [if_pos h2]
      simp only [List.cons_append, List.nil_append, List.isChain_cons_cons]
      exact ⟨.inl trivial, .inl (by omega), ih⟩
    · rw [if_neg h2]
      by_cases h3 : b.1 - a.1 = 3
      · rw [if_pos h3]
        simp only [List.cons_append, List.nil_append, List.isChain_cons_cons]
        exact ⟨.inl trivial, .inl (by omega), .inl (by omega), ih⟩
      · rw [if_neg h3]
        simp only [List.nil_append, List.isChain_cons_cons]
        exact ⟨by omega, ih⟩

/-- The command when each day yields the traces of its sessions (helper for C100 and C101). -/
theorem command_sessions (ws : List Word) (hv : ∀ w ∈ ws, w.Valid) (hh : Word.flag 104 ∉ ws) (htest : Word.flag 116 ∉ ws)
    (hcodes : typedValue ws 99 = none) (hproc : 0 < typedProcesses ws) (m : Int) (hm : 0 < m)
    (hlength : LengthTyped (typedValue ws 108) m) (cli : CliEnv) (d : RawDisk) (dir : List Entry)
    (hdir : cli.listdir ((typedValue ws 105).getD (bytes "raw")) = some (dir.map Entry.name))
    (hthree : ∀ s, WantedSNs ws (dir.map Entry.name) s → s.length = 3)
    (SN : List Nat) (hwanted : WantedSNs ws (dir.map Entry.name) SN) (ns : List Int)
    (hns : convertNums true dir SN [none] = .ok ns) (sss : List (List Session)) (s0 : Session) (ss : List Session)
    (hss : sss.flatten = s0 :: ss)
    (hyield : List.Forall₂ (BlockYields d.env dir SN) (jobOf d.env dir SN ns 1 (1000000 * m) endOfTime).blocks (sss.map fun ss => ss.map Session.span))
    (hlongs : ∀ s ∈ s0 :: ss, 1 / 100 ≤ s.stop - s.start)
    (horder : (s0 :: ss).IsChain fun x y => x.stop < y.start ∧ (y.start - x.stop ≤ 1 / 100 ∨ 1 ≤ y.start - x.stop)) (hpos : 1 ≤ s0.start)
    (hlong : 103 / 100 ≤ s0.stop - s0.start)
    (hfar : ∀ r ∈ s0 :: ss, 1000000 * r.stop + 1000000 * m + 86400000000 + 1000000 ≤ endOfTime) :
    ∃ jobs, gemconvert cli (ws.flatMap Word.typed) = .run jobs (typedProcesses ws) ∧
      ∀ (js : List (Proc FilePiece)), List.Forall₂ (IsConversion d.env dir) jobs js →
      (∀ j ∈ js, ∀ a c, Instr.segment a c ∈ j.todo → Datable a) →
      ∀ (disk : Disk FilePiece), (∀ k, k ∈ disk.dirs) →
      ∀ sched, (∀ j ∈ (runSchedule sched (js, disk)).1, j.todo = []) →
      ∃ (tr0 : Trace) (trs out : List Trace) (h : Int), List.Forall₂ SessionTrace (s0 :: ss) (tr0 :: trs) ∧
        h % 1000000 = 0 ∧ 10000 * tr0.start ≤ h ∧ h < 10000 * tr0.start + 1000000 ∧
        samples out = from_ h (fillIn (samples (tr0 :: trs))) ∧
        (samples out).IsChain (fun x y => y.1 = x.1 + 1 ∨ x.1 + 100 ≤ y.1) ∧
        (∀ tr ∈ out, (runSchedule sched (js, disk)).2.get (.converted, convertedName (bytes "." ++ SN ++ bytes "..HDF")
          ((typedValue ws 102).getD (bytes "MSEED")) tr.start) = some [.wave tr]) ∧
        ∀ a, Datable a → (∀ tr ∈ out, tr.start / 100 ≠ a / 100) →
          (runSchedule sched (js, disk)).2.get (.converted, convertedName (bytes "." ++ SN ++ bytes "..HDF")
            ((typedValue ws 102).getD (bytes "MSEED")) a) =
          disk.get (.converted, convertedName (bytes "." ++ SN ++ bytes "..HDF") ((typedValue ws 102).getD (bytes "MSEED")) a) := by
  have hL : (1000000 : Int) * m = 10000 * (100 * m) := by ring
  have hfar' : ∀ r ∈ s0 :: ss, 1000000 * r.stop + 10000 * ((100 * m : Int) : Rat) + ((⌈86400000000 * (1 : Rat)⌉ : Int) : Rat) + 1000000 ≤ endOfTime := by
    intro r hr
    have := hfar r hr
    rw [show ⌈86400000000 * (1 : Rat)⌉ = 86400000000 by decide +kernel]
    push_cast
    linarith
  rw [hL] at hyield
  obtain ⟨tr0, trs, s, h, c1, c2, _, c4, c5, c6, c7⟩ := convert_sessions d dir SN [none] ns hns 1 (100 * m) endOfTime
    (by norm_num) (by omega) sss s0 ss hss hyield hlongs (horder.imp fun _ _ h => h.1) hpos hlong hfar'
  rw [← hL] at c2
  have hgap : NoShortGap (samples s.w.out) := by
    have hall := spans_traces.mpr c1
    have hl' : ∀ r ∈ (s0 :: ss).map Session.span, 1 / 100 ≤ r.stop - r.start := by
      intro r hr
      obtain ⟨s, hs, rfl⟩ := List.mem_map.mp hr
      exact hlongs s hs
    have ho := (traces_inOrder hall hl' (by rw [List.isChain_map]; exact horder.imp fun _ _ h => h.1)).1
    have ha := traces_apart hall hl' (by rw [List.isChain_map]; exact horder.imp fun _ _ h => h.2)
    rw [c7]
    exact (fillIn_apart ho.2 ha).suffix (from_is_suffix (fillIn_increasing ho.2) h)
  obtain ⟨jobs, j1, j2⟩ := command_files ws hv hh htest hcodes hproc m hm (lengthTyped_micros hlength) cli d.env dir hdir hthree SN hwanted ns hns s c2 hgap
  exact ⟨jobs, j1, fun js hjs hdat disk hdisk sched hend =>
    ⟨tr0, trs, s.w.out, h, c1, c4, c5, c6, c7, hgap, j2 js hjs hdat disk hdisk sched hend⟩⟩

/-- **C100.** `gemconvert` on a folder of raw files with restarts, under the conditions of `C97_command` on the command line. Let `SN` be one of the wanted serial
numbers and let each day of its files hold one or more sessions or no files, each session starting within 10 ms of the end of the one before or
at least a second after it. Then, however the conversions interleave, whatever becomes of the other instruments and whatever was on
the disk: when all have ended, the output folder holds files of `SN` which together have the samples of one trace per session, from the first
whole second on; and no other file of `SN` has changed. -/
theorem C100_command (ws : List Word) (hv : ∀ w ∈ ws, w.Valid) (hh : Word.flag 104 ∉ ws) (htest : Word.flag 116 ∉ ws)
    (hcodes : typedValue ws 99 = none) (hproc : 0 < typedProcesses ws) (m : Int) (hm : 0 < m)
    (hlength : LengthTyped (typedValue ws 108) m) (cli : CliEnv) (d : RawDisk) (dir : List Entry)
    (hdir : cli.listdir ((typedValue ws 105).getD (bytes "raw")) = some (dir.map Entry.name))
    (hthree : ∀ s, WantedSNs ws (dir.map Entry.name) s → s.length = 3)
    (SN : List Nat) (hwanted : WantedSNs ws (dir.map Entry.name) SN) (log : Entry → ClockedFile) (ns : List Int)
    (hns : convertNums true dir SN [none] = .ok ns) (n : Int) (hn : pyInt SN = some n) (specs : Specs) (hspecs : gemSpecs n = .ok specs)
    (hfit : Reproduces d.fit) (hfit1 : ReproducesLines d.fit) (sss : List (List Session)) (s0 : Session) (ss : List Session)
    (hss : sss.flatten = s0 :: ss)
    (hblocks : List.Forall₂ (BlockOfSessions d dir SN log) (jobOf d.env dir SN ns 1 (1000000 * m) endOfTime).blocks sss)
    (horder : (s0 :: ss).IsChain fun x y => x.stop < y.start ∧ (y.start - x.stop ≤ 1 / 100 ∨ 1 ≤ y.start - x.stop)) (hpos : 1 ≤ s0.start)
    (hlong : 103 / 100 ≤ s0.stop - s0.start)
    (hfar : ∀ r ∈ s0 :: ss, 1000000 * r.stop + 1000000 * m + 86400000000 + 1000000 ≤ endOfTime) :
    ∃ jobs, gemconvert cli (ws.flatMap Word.typed) = .run jobs (typedProcesses ws) ∧
      ∀ (js : List (Proc FilePiece)), List.Forall₂ (IsConversion d.env dir) jobs js →
      (∀ j ∈ js, ∀ a c, Instr.segment a c ∈ j.todo → Datable a) →
      ∀ (disk : Disk FilePiece), (∀ k, k ∈ disk.dirs) →
      ∀ sched, (∀ j ∈ (runSchedule sched (js, disk)).1, j.todo = []) →
      ∃ (tr0 : Trace) (trs out : List Trace) (h : Int), List.Forall₂ SessionTrace (s0 :: ss) (tr0 :: trs) ∧
        h % 1000000 = 0 ∧ 10000 * tr0.start ≤ h ∧ h < 10000 * tr0.start + 1000000 ∧
        samples out = from_ h (fillIn (samples (tr0 :: trs))) ∧
        (samples out).IsChain (fun x y => y.1 = x.1 + 1 ∨ x.1 + 100 ≤ y.1) ∧
        (∀ tr ∈ out, (runSchedule sched (js, disk)).2.get (.converted, convertedName (bytes "." ++ SN ++ bytes "..HDF")
          ((typedValue ws 102).getD (bytes "MSEED")) tr.start) = some [.wave tr]) ∧
        ∀ a, Datable a → (∀ tr ∈ out, tr.start / 100 ≠ a / 100) →
          (runSchedule sched (js, disk)).2.get (.converted, convertedName (bytes "." ++ SN ++ bytes "..HDF")
            ((typedValue ws 102).getD (bytes "MSEED")) a) =
          disk.get (.converted, convertedName (bytes "." ++ SN ++ bytes "..HDF") ((typedValue ws 102).getD (bytes "MSEED")) a) := by
  have hlongs := sessions_long hblocks
  rw [hss] at hlongs
  refine command_sessions ws hv hh htest hcodes hproc m hm hlength cli d dir hdir hthree SN hwanted ns hns sss s0 ss hss ?_ hlongs horder hpos hlong hfar
  rw [List.forall₂_map_right_iff]
  exact hblocks.imp fun b ss h => sessions_yield h n hn specs hspecs hfit hfit1

/-! ## An example: three sessions, each counted from zero, two of them on one day, and a day without files -/

/-- A file of two seconds, counted from second `s` of 2020. -/
def sessFile (s : Nat) : ClockedFile := ⟨1577836800 + s, 1024 / 1000000, longLog s⟩

def sess1 : Entry := ⟨bytes "FILE0001.012", 500, .str (bytes "012")⟩
def sess2 : Entry := ⟨bytes "FILE0002.012", 500, .str (bytes "012")⟩
def sess3 : Entry := ⟨bytes "FILE0030.012", 500, .str (bytes "012")⟩

def sessDir : List Entry := [sess1, sess2, sess3]

def sessOf (e : Entry) : ClockedFile :=
  if e.name = bytes "FILE0001.012" then sessFile 0 else if e.name = bytes "FILE0002.012" then sessFile 20 else sessFile 40

noncomputable def sessDisk : RawDisk :=
  ⟨fun e => textOf (sessOf e).events, fun _ _ => .error .other, fun _ _ => .error .other, fun _ => .ok "012", fun _ => 0, [], [], false, 1800000000,
    idealFit, flatSpline⟩

def sessSpan (s : Nat) : Session :=
  ⟨1577836800 + s + 1024 / 1000000 * (893 / 100), 1577836800 + s + 1024 / 1000000 * (1944 + 893 / 100), fun _ => 7⟩

theorem sessOf_1 : sessOf sess1 = sessFile 0 := by unfold sessOf; rw [if_pos (by decide +kernel)]
theorem sessOf_2 : sessOf sess2 = sessFile 20 := by unfold sessOf; rw [if_neg (by decide +kernel), if_pos (by decide +kernel)]
theorem sessOf_3 : sessOf sess3 = sessFile 40 := by unfold sessOf; rw [if_neg (by decide +kernel), if_neg (by decide +kernel)]

theorem sess_records (s : Nat) (hs : s = 0 ∨ s = 20 ∨ s = 40) : RecordsSession flatSpline [sessFile s] (sessSpan s) := by
  refine ⟨?_, ?_, ?_, ?_, ?_⟩
  · rcases hs with rfl | rfl | rfl <;> decide +kernel
  · rcases hs with rfl | rfl | rfl <;> decide +kernel
  · unfold sessSpan; norm_num
  · rcases hs with rfl | rfl | rfl <;> decide +kernel
  · have hne : ¬ ([sessFile s].flatMap ClockedFile.record).length < 2 := by rcases hs with rfl | rfl | rfl <;> decide +kernel
    unfold flatSpline
    rw [List.length_map, if_neg hne]
    rfl

theorem sess_version (s : Nat) : HasVersion "0.91" (sessFile s).events := ⟨_, _, rfl, congrArg LogLine.other (by decide +kernel)⟩

theorem sess_file (s : Nat) (hs : s = 0 ∨ s = 20 ∨ s = 40) : SoundFile (sessFile s).offset (sessFile s).rate (sessFile s).events :=
  long_sound s (by omega)

theorem sess_trusted (s : Nat) (hs : s = 0 ∨ s = 20 ∨ s = 40) : ∃ e₁ e₂ l, (sessFile s).events.filter Event.isFix = e₁ :: e₂ :: l ∧
    e₁.Since2015 ∧ e₂.Since2015 ∧ (sessFile s).utc e₂.T ≤ 1800000000 ∧ (sessFile s).utc e₂.T - (sessFile s).utc e₁.T ≤ 86400 := by
  have h : (sessFile s).events.filter Event.isFix = longFixes s := by
    show (longLog s).filter Event.isFix = _
    unfold longLog
    rw [List.filter_append, List.filter_append, (List.filter_eq_nil_iff (l := (List.range 82).map longSample)).mpr]
    · rfl
    · intro e he
      obtain ⟨i, _, rfl⟩ := List.mem_map.mp he
      simp [longSample, Event.isFix]
  refine ⟨_, _, _, h, ?_, ?_, ?_, ?_⟩
  · show (2015 : Int) ≤ 2020; norm_num
  · show (2015 : Int) ≤ 2020; norm_num
  · rcases hs with rfl | rfl | rfl <;> decide +kernel
  · rcases hs with rfl | rfl | rfl <;> decide +kernel

theorem sess_start (s : Nat) (hs : s = 0 ∨ s = 20 ∨ s = 40) : ∃ x y z l, sampleTimes (sessFile s).events = x :: y :: z :: l ∧ (y - x ≤ 25 ∨ z - y ≤ 25) := by
  refine ⟨0, 24, 48, (List.range 79).map fun i : Nat => ((24 * (i + 3) : Nat) : Rat), ?_, .inl (by norm_num)⟩
  rcases hs with rfl | rfl | rfl <;> decide +kernel

theorem sess_day1 : SoundSessions 1800000000 [sessFile 0, sessFile 20] := by
  refine ⟨⟨?_, ?_, ?_, ?_, ?_, ?_⟩, ?_⟩
  · intro f hf
    simp only [List.mem_cons, List.not_mem_nil, or_false] at hf
    rcases hf with rfl | rfl
    · exact sess_file 0 (by omega)
    · exact sess_file 20 (by omega)
  · intro f hf
    simp only [List.mem_cons, List.not_mem_nil, or_false] at hf
    rcases hf with rfl | rfl <;> unfold sessFile <;> norm_num
  · intro f hf
    simp only [List.mem_cons, List.not_mem_nil, or_false] at hf
    rcases hf with rfl | rfl <;> decide +kernel
  · decide +kernel
  · intro f hf
    simp only [List.head?_cons, Option.mem_def, Option.some.injEq] at hf
    subst hf
    exact sess_start 0 (by omega)
  · intro f hf
    simp only [List.head?_cons, Option.mem_def, Option.some.injEq] at hf
    subst hf
    exact sess_trusted 0 (by omega)
  · rw [List.isChain_cons_cons]
    refine ⟨?_, List.isChain_singleton _⟩
    have h1 : (sampleTimes (sessFile 0).events).getLast? = some 1944 := by decide +kernel
    have h2 : (sampleTimes (sessFile 20).events).head? = some 0 := by decide +kernel
    unfold NoCollision
    rw [h1, h2]
    intro x hx y hy ⟨k, hk⟩
    simp only [Option.mem_def, Option.some.injEq] at hx hy
    subst hx hy
    exfalso
    have : (0 : Int) = 1944 + 8192 * k := by exact_mod_cast hk
    omega

theorem sess_day3 : SoundSessions 1800000000 [sessFile 40] := by
  refine ⟨⟨?_, ?_, ?_, ?_, ?_, ?_⟩, ?_⟩
  · intro f hf
    rw [List.mem_singleton] at hf
    subst hf
    exact sess_file 40 (by omega)
  · intro f hf
    rw [List.mem_singleton] at hf
    subst hf
    unfold sessFile; norm_num
  · intro f hf
    rw [List.mem_singleton] at hf
    subst hf
    decide +kernel
  · decide +kernel
  · intro f hf
    simp only [List.head?_cons, Option.mem_def, Option.some.injEq] at hf
    subst hf
    exact sess_start 40 (by omega)
  · intro f hf
    simp only [List.head?_cons, Option.mem_def, Option.some.injEq] at hf
    subst hf
    exact sess_trusted 40 (by omega)
  · exact List.isChain_singleton _

theorem sess_blocks : List.Forall₂ (BlockOfSessions sessDisk sessDir (bytes "012") sessOf) [[1, 2], [], [30]]
    [[sessSpan 0, sessSpan 20], [], [sessSpan 40]] := by
  refine .cons (.inr ⟨sess1, [sess2], [[sess1], [sess2]], ?_⟩) (.cons (.inl ⟨by decide +kernel, rfl⟩) (.cons (.inr ⟨sess3, [], [[sess3]], ?_⟩) .nil))
  · refine ⟨by decide +kernel, rfl, fun _ _ => rfl, ?_, ⟨"0.91", by decide, ?_⟩, fun _ _ => ⟨_, rfl⟩, .inl rfl, ?_, ?_⟩
    · rw [List.map_cons, List.map_singleton, sessOf_1, sessOf_2]; exact sess_day1
    · rw [sessOf_1]; exact sess_version 0
    · refine .cons ?_ (.cons ?_ .nil)
      · rw [List.map_singleton, sessOf_1]; exact sess_records 0 (by omega)
      · rw [List.map_singleton, sessOf_2]; exact sess_records 20 (by omega)
    · unfold sessSpan
      simp only [List.isChain_cons_cons, List.isChain_singleton]
      norm_num
  · refine ⟨by decide +kernel, rfl, fun _ _ => rfl, ?_, ⟨"0.91", by decide, ?_⟩, fun _ _ => ⟨_, rfl⟩, .inl rfl, ?_, List.isChain_singleton _⟩
    · rw [List.map_singleton, sessOf_3]; exact sess_day3
    · rw [sessOf_3]; exact sess_version 40
    · refine .cons ?_ .nil
      rw [List.map_singleton, sessOf_3]; exact sess_records 40 (by omega)

theorem sess_nums : convertNums true sessDir (bytes "012") [none] = .ok [1, 2, 30] := by decide +kernel

/-- The hypotheses of `C100_convert` hold for these files: three sessions of two seconds give three traces. -/
example : ∃ tr1 tr2 tr3 s, SessionTrace (sessSpan 0) tr1 ∧ SessionTrace (sessSpan 20) tr2 ∧ SessionTrace (sessSpan 40) tr3 ∧
    Settles (convertDir sessDisk.env true sessDir (bytes "012") [none] 1 (10000 * 360000) none endOfTime) (.done s) ∧
    s.reads = [[1, 2], [], [30]] := by
  have hb : (jobOf sessDisk.env sessDir (bytes "012") [1, 2, 30] 1 (10000 * 360000) endOfTime).blocks = [[1, 2], [], [30]] := by decide +kernel
  obtain ⟨tr1, trs, s, h, c1, c2, c3, _⟩ := C100_convert sessDisk sessDir (bytes "012") sessOf [none] [1, 2, 30] sess_nums 12 (by decide +kernel)
    (specsOf (7 / 10)) (by decide +kernel) idealFit_reproduces idealFit_line 1 360000 endOfTime (by decide) (by decide)
    [[sessSpan 0, sessSpan 20], [], [sessSpan 40]] (sessSpan 0) [sessSpan 20, sessSpan 40] rfl (by rw [hb]; exact sess_blocks)
    (by unfold sessSpan; simp only [List.isChain_cons_cons, List.isChain_singleton]; norm_num) (by unfold sessSpan; norm_num)
    (by unfold sessSpan; norm_num)
    (by
      intro r hr
      simp only [List.mem_cons, List.not_mem_nil, or_false] at hr
      rcases hr with rfl | rfl | rfl <;> unfold sessSpan endOfTime <;> norm_num)
  rw [hb] at c3
  cases c1 with
  | cons d1 d2 =>
    cases d2 with
    | cons d2 d3 =>
      cases d3 with
      | cons d3 d4 => exact ⟨tr1, _, _, s, d1, d2, d3, c2, c3⟩

def sessCli : CliEnv := ⟨fun f => if f = bytes "raw" then some (sessDir.map Entry.name) else none, fun _ => none⟩

/-- The hypotheses of `C100_command` on the command line and the folder hold for `gemconvert -l 1 -p 2` on these files. (That there are conversions
as in its conclusion is shown beside `C97_command`.) -/
example : ∃ jobs, gemconvert sessCli (shortWords.flatMap Word.typed) = .run jobs 2 ∧
    ∀ (js : List (Proc FilePiece)), List.Forall₂ (IsConversion sessDisk.env sessDir) jobs js →
    (∀ j ∈ js, ∀ a c, Instr.segment a c ∈ j.todo → Datable a) → ∀ (disk : Disk FilePiece), (∀ k, k ∈ disk.dirs) →
    ∀ sched, (∀ j ∈ (runSchedule sched (js, disk)).1, j.todo = []) →
    ∃ (tr1 tr2 tr3 : Trace) (out : List Trace) (h : Int), SessionTrace (sessSpan 0) tr1 ∧ SessionTrace (sessSpan 20) tr2 ∧ SessionTrace (sessSpan 40) tr3 ∧
      samples out = from_ h (fillIn (samples [tr1, tr2, tr3])) ∧
      ∀ tr ∈ out, (runSchedule sched (js, disk)).2.get (.converted, convertedName (bytes "." ++ bytes "012" ++ bytes "..HDF") (bytes "MSEED") tr.start)
        = some [.wave tr] := by
  have hv : ∀ w ∈ shortWords, w.Valid := by
    intro w hw
    unfold shortWords at hw
    simp only [List.mem_cons, List.not_mem_nil, or_false] at hw
    rcases hw with rfl | rfl
    · show 108 ∈ bytes "isxcoflp"; decide +kernel
    · show 112 ∈ bytes "isxcoflp"; decide +kernel
  have hw : ∀ s, WantedSNs shortWords (sessDir.map Entry.name) s ↔ s = bytes "012" := by
    intro s
    have h1 : typedValue shortWords 115 = none := by decide +kernel
    have h2 : typedValue shortWords 120 = none := by decide +kernel
    unfold WantedSNs
    rw [h1, h2]
    simp only [reduceCtorEq, false_and, exists_false, not_false_eq_true, and_true]
    constructor
    · rintro ⟨f, hf, rfl⟩
      revert f
      decide +kernel
    · rintro rfl
      exact ⟨bytes "FILE0001.012", by decide +kernel, by decide +kernel⟩
  have hb : (jobOf sessDisk.env sessDir (bytes "012") [1, 2, 30] 1 (1000000 * 3600) endOfTime).blocks = [[1, 2], [], [30]] := by decide +kernel
  obtain ⟨jobs, j1, j2⟩ := C100_command shortWords hv (by simp [shortWords]) (by simp [shortWords]) (by decide +kernel) (by decide +kernel) 3600 (by decide)
    shortWords_length sessCli sessDisk sessDir (by decide +kernel) (fun s hs => by rw [(hw s).mp hs]; decide +kernel) (bytes "012") ((hw _).mpr rfl) sessOf
    [1, 2, 30] sess_nums 12 (by decide +kernel) (specsOf (7 / 10)) (by decide +kernel) idealFit_reproduces idealFit_line
    [[sessSpan 0, sessSpan 20], [], [sessSpan 40]] (sessSpan 0) [sessSpan 20, sessSpan 40] rfl (by rw [hb]; exact sess_blocks)
    (by unfold sessSpan; simp only [List.isChain_cons_cons, List.isChain_singleton]; norm_num) (by unfold sessSpan; norm_num)
    (by unfold sessSpan; norm_num)
    (by
      intro r hr
      simp only [List.mem_cons, List.not_mem_nil, or_false] at hr
      rcases hr with rfl | rfl | rfl <;> unfold sessSpan endOfTime <;> norm_num)
  refine ⟨jobs, j1, fun js hjs hdat disk hdisk sched hend => ?_⟩
  obtain ⟨tr1, trs, out, h, c1, _, _, _, c5, _, c7, _⟩ := j2 js hjs hdat disk hdisk sched hend
  cases c1 with
  | cons d1 d2 =>
    cases d2 with
    | cons d2 d3 =>
      cases d3 with
      | cons d3 d4 =>
        cases d4
        exact ⟨tr1, _, _, out, h, d1, d2, d3, c5, c7⟩

/-! ## An example: a session that starts at the count at which the one before ended -/

def collFixes (s : Nat) : List Event :=
  [longFix s 4 ⟨false, 3906, bytes "25", by decide +kernel⟩, longFix s 5 ⟨false, 4882, bytes "8125", by decide +kernel⟩,
   longFix s 6 ⟨false, 5859, bytes "375", by decide +kernel⟩, longFix s 7 ⟨false, 6835, bytes "9375", by decide +kernel⟩,
   longFix s 8 ⟨false, 7812, bytes "5", by decide +kernel⟩, longFix s 9 ⟨false, 597, bytes "0625", by decide +kernel⟩,
   longFix s 10 ⟨false, 1573, bytes "625", by decide +kernel⟩, longFix s 11 ⟨false, 2550, bytes "1875", by decide +kernel⟩,
   longFix s 12 ⟨false, 3526, bytes "75", by decide +kernel⟩, longFix s 13 ⟨false, 4503, bytes "3125", by decide +kernel⟩]

/-- Two seconds of samples, from count 1944 on, and fixes; count 0 is second 20 of 2020. -/
def collLog : List Event :=
  [⟨0, .other (bytes "#GemCSV0.91")⟩] ++ (List.range' 81 82).map longSample ++
    (⟨3888, .status (.ofNat 3888) (.ofNat 4) (.ofNat 20) (.ofNat 0) (.ofNat 0) 1 2 3 4 1 6 7⟩ :: collFixes 20)

def collFile : ClockedFile := ⟨1577836820, 1024 / 1000000, collLog⟩

theorem coll_sound : SoundFile 1577836820 (1024 / 1000000) collLog := by
  have w : ∀ (T s : Rat) (k : Int), 0 ≤ s → s < 8192 → T = s + k * 8192 → WrappedReading 8192 T s := fun T s k h1 h2 h3 => ⟨h1, h2, k, h3⟩
  have hfix : ∀ prev, TimesPrinted prev
      (⟨3888, .status (.ofNat 3888) (.ofNat 4) (.ofNat 20) (.ofNat 0) (.ofNat 0) 1 2 3 4 1 6 7⟩ :: collFixes 20) := by
    intro prev
    unfold collFixes longFix
    simp only [TimesPrinted]
    refine ⟨w _ _ 0 ?_ ?_ ?_, w _ _ 0 ?_ ?_ ?_, w _ _ 0 ?_ ?_ ?_, w _ _ 0 ?_ ?_ ?_, w _ _ 0 ?_ ?_ ?_, w _ _ 0 ?_ ?_ ?_,
      w _ _ 1 ?_ ?_ ?_, w _ _ 1 ?_ ?_ ?_, w _ _ 1 ?_ ?_ ?_, w _ _ 1 ?_ ?_ ?_, w _ _ 1 ?_ ?_ ?_, trivial⟩ <;> decide +kernel
  refine ⟨?_, ?_, ?_, ?_, ?_, ?_, ?_, ?_, ?_, ?_, ?_⟩
  · decide +kernel
  · decide +kernel
  · unfold collLog
    rw [List.append_assoc, List.cons_append, List.nil_append]
    simp only [TimesPrinted]
    exact printed_samples hfix _ _ (by decide)
  · decide +kernel
  · decide +kernel
  · decide +kernel
  · decide +kernel
  · intro e he hf
    unfold collLog at he
    rcases List.mem_append.mp he with he | he
    · rcases List.mem_append.mp he with he | he
      · rw [List.mem_singleton] at he
        subst he
        exact absurd hf (by simp [Event.isFix])
      · obtain ⟨i, _, rfl⟩ := List.mem_map.mp he
        exact absurd hf (by simp [Event.isFix, longSample])
    · rcases List.mem_cons.mp he with rfl | he
      · exact absurd hf (by simp [Event.isFix])
      · have key : ∀ (k : Nat) (ms : Dec), k < 14 → ∃ t : Int, (longFix 20 k ms).FixAt t ∧ (t : Rat) = 1577836820 + 1024 / 1000000 * (longFix 20 k ms).T := by
          intro k ms hk
          obtain ⟨t, h1, h2⟩ := longFix_at 20 k (by omega) hk ms
          exact ⟨t, h1, by rw [h2]; norm_num⟩
        unfold collFixes at he
        simp only [List.mem_cons, List.not_mem_nil, or_false] at he
        rcases he with rfl | rfl | rfl | rfl | rfl | rfl | rfl | rfl | rfl | rfl <;> exact key _ _ (by decide)
  · decide +kernel
  · decide +kernel
  · decide +kernel

/-- A constant "spline" which, as that of scipy, fails unless the times increase. -/
def strictSpline : Spliner := fun pts => if (pts.map Prod.fst).IsChain (· < ·) ∧ 2 ≤ pts.length then some fun _ => 7 else none

def collDir : List Entry := [sess1, sess2]

def collOf (e : Entry) : ClockedFile := if e.name = bytes "FILE0001.012" then sessFile 0 else collFile

noncomputable def collDisk : RawDisk :=
  ⟨fun e => textOf (collOf e).events, fun _ _ => .error .other, fun _ _ => .error .other, fun _ => .ok "012", fun _ => 0, [], [], false, 1800000000,
    idealFit, strictSpline⟩

theorem collOf_1 : collOf sess1 = sessFile 0 := by unfold collOf; rw [if_pos (by decide +kernel)]
theorem collOf_2 : collOf sess2 = collFile := by unfold collOf; rw [if_neg (by decide +kernel)]

def collSpan : Session := ⟨1577836820 + 1024 / 1000000 * (1944 + 893 / 100), 1577836820 + 1024 / 1000000 * (3888 + 893 / 100), fun _ => 7⟩

/-- The hypotheses of `C100_violated_collision` can be met: of two sessions of two seconds, the second is lost, without a word. -/
example : ∃ g tr, readGem collDisk.env collDir (bytes "012") [1, 2] true = .ok g ∧ g.problems = [] ∧ g.stream = [tr] ∧
    SessionTrace ⟨1577836800 + 1024 / 1000000 * (893 / 100), 1577836800 + 1024 / 1000000 * (1920 + 893 / 100), fun _ => 7⟩ tr := by
  obtain ⟨g, h1, h2, h3⟩ := C100_violated_collision collDisk collDir (bytes "012") [1, 2] collOf sess1 sess2 (by decide +kernel) (fun _ _ => rfl)
    (by
      rw [List.map_cons, List.map_singleton, collOf_1, collOf_2]
      refine ⟨?_, ?_, ?_, ?_, ?_, ?_⟩
      · intro f hf
        simp only [List.mem_cons, List.not_mem_nil, or_false] at hf
        rcases hf with rfl | rfl
        · exact sess_file 0 (by omega)
        · exact coll_sound
      · intro f hf
        simp only [List.mem_cons, List.not_mem_nil, or_false] at hf
        rcases hf with rfl | rfl <;> norm_num [sessFile, collFile]
      · intro f hf
        simp only [List.mem_cons, List.not_mem_nil, or_false] at hf
        rcases hf with rfl | rfl <;> decide +kernel
      · decide +kernel
      · intro f hf
        simp only [List.head?_cons, Option.mem_def, Option.some.injEq] at hf
        subst hf
        exact sess_start 0 (by omega)
      · intro f hf
        simp only [List.head?_cons, Option.mem_def, Option.some.injEq] at hf
        subst hf
        exact sess_trusted 0 (by omega))
    "0.91" (by decide) (by rw [collOf_1]; exact sess_version 0) (fun _ _ => ⟨_, rfl⟩) 12 (by decide +kernel) (specsOf (7 / 10)) (by decide +kernel) (.inl rfl)
    idealFit_reproduces idealFit_line ⟨1577836800 + 1024 / 1000000 * (893 / 100), 1577836800 + 1024 / 1000000 * (1944 + 893 / 100), fun _ => 7⟩ collSpan
    (by
      rw [collOf_1]
      refine ⟨by decide +kernel, by decide +kernel, by norm_num, by decide +kernel, ?_⟩
      show strictSpline _ = _
      unfold strictSpline
      rw [if_pos (by decide +kernel)])
    (by
      rw [collOf_2]
      refine ⟨by decide +kernel, by decide +kernel, by norm_num [collSpan], by decide +kernel, ?_⟩
      show strictSpline _ = _
      unfold strictSpline
      rw [if_pos (by decide +kernel)]
      rfl)
    (by norm_num [collSpan])
    (by
      have a1 : (sampleTimes (sessFile 0).events).getLast? = some 1944 := by decide +kernel
      have a2 : (sampleTimes collFile.events).head? = some 1944 := by decide +kernel
      rw [collOf_1, collOf_2, a1, a2]
      intro x hx y hy
      simp only [Option.mem_def, Option.some.injEq] at hx hy
      exact ⟨0, by rw [← hx, ← hy]; norm_num⟩)
    (by rw [collOf_2]; unfold BeginsWithSample; decide +kernel)
    (by
      intro pts h
      show strictSpline pts = none
      unfold strictSpline
      rw [if_neg]
      rintro ⟨h', _⟩
      exact h (List.isChain_iff_pairwise.mp h'))
    (1577836800 + 1024 / 1000000 * (1920 + 893 / 100)) (by rw [collOf_1]; decide +kernel) (by norm_num) (fun _ => 7)
    (by
      rw [collOf_1]
      show strictSpline _ = _
      unfold strictSpline
      rw [if_pos (by decide +kernel)])
  generalize hst : g.stream = st at h3
  cases h3 with
  | @cons _ tr _ trs hT hrest =>
    cases hrest
    exact ⟨g, tr, h1, h2, hst, hT⟩

end Gemlog
