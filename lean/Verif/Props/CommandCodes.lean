import Verif.Props.Command

/-!
# C97: station codes

The `-c` option: with a table of codes the files carry network, station and location of the
instrument.
-/

namespace Gemlog

/-! ## The files of one instrument -/

theorem job_files (env : Env) (dir : List Entry) (jobs : List ConvArgs) (js : List (Proc FilePiece)) (hjs : List.Forall₂ (IsConversion env dir) jobs js)
    (hbatch : IsBatch js) (hdat : ∀ j ∈ js, ∀ a c, Instr.segment a c ∈ j.todo → Datable a) (arg : ConvArgs) (harg : arg ∈ jobs)
    (m : Int) (hm : 0 < m) (hl : lengthMicros arg.lengthHours = some (1000000 * (m : Rat))) (ns : List Int)
    (hns : convertNums true dir arg.sn [none] = .ok ns) (s : CState)
    (c2 : Settles (convertDir env true dir arg.sn [none] 1 (1000000 * m) none endOfTime) (.done s)) (hgap : NoShortGap (samples s.w.out))
    (disk : Disk FilePiece) (hdisk : ∀ k, k ∈ disk.dirs) (sched : List Nat) (hend : ∀ j ∈ (runSchedule sched (js, disk)).1, j.todo = []) :
    (∀ tr ∈ s.w.out, (runSchedule sched (js, disk)).2.get (.converted, convertedName (traceId arg) arg.format tr.start) = some [.wave tr]) ∧
    ∀ a, Datable a → (∀ tr ∈ s.w.out, tr.start / 100 ≠ a / 100) →
      (runSchedule sched (js, disk)).2.get (.converted, convertedName (traceId arg) arg.format a) =
      disk.get (.converted, convertedName (traceId arg) arg.format a) := by
  obtain ⟨j, hjm, hj⟩ : ∃ j ∈ js, IsConversion env dir arg j := by
    clear hdat hend hdisk hbatch
    induction hjs with
    | nil => simp at harg
    | @cons b j jobs js h1 h2 ih =>
      rcases List.mem_cons.mp harg with rfl | h
      · exact ⟨j, by simp, h1⟩
      · obtain ⟨i, i1, i2⟩ := ih h
        exact ⟨i, List.mem_cons_of_mem _ i1, i2⟩
  have hid : j.id = traceId arg := hj.id
  have hfmt : j.fmt = arg.format := hj.fmt
  obtain ⟨mm, g, rest, t1, t2⟩ : ∃ mm g rest, j.todo = procInstrs (.rows mm) (.rows g) rest ∧ Carries rest s.w.out := by
    rcases hj.todo with ⟨h, _⟩ | ⟨L, r, h1, h2, h3⟩
    · rw [hl] at h; cases h
    · rw [hl] at h1
      simp only [Option.some.injEq] at h1
      have : L = 1000000 * m := by exact_mod_cast h1.symm
      subst this
      have hr := settles_unique h2 c2
      rw [hr] at h3
      exact h3
  -- its segments have different names
  obtain ⟨_, N, hN⟩ := c2
  have hrun := hN N (le_refl _)
  unfold convertDir at hrun
  rw [hns] at hrun
  have hwr : (convertLoops (jobOf env dir arg.sn ns 1 (1000000 * m) endOfTime) none N).written = s.w.out := by
    simp only at hrun
    rw [hrun]
    rfl
  have hout : ∀ tr ∈ s.w.out, Datable tr.start := by
    intro tr htr
    rw [← t2.1, List.mem_filterMap] at htr
    obtain ⟨i, i1, i2⟩ := htr
    rcases t2.2 i i1 with ⟨k, t, rfl⟩ | ⟨tr', rfl⟩
    · simp [Instr.wave?] at i2
    · have : tr' = tr := by simpa [Instr.wave?] using i2
      subst this
      exact hdat j hjm _ _ (by rw [t1]; unfold procInstrs; exact List.mem_append_right _ i1)
  obtain ⟨hnd, _⟩ := C36_distinct_partial (jobOf env dir arg.sn ns 1 (1000000 * m) endOfTime) m hm rfl N
    (traceId arg) arg.format
    (by rw [hwr]; exact hgap) (by rw [hwr]; exact hout)
  rw [hwr] at hnd
  have hfinal : ∀ a, Datable a → (runSchedule sched (js, disk)).2.get (.converted, convertedName j.id j.fmt a) =
      Dir.writeAll (fun x => disk.get (.converted, x)) (waveWrites j.id j.fmt s.w.out) (convertedName j.id j.fmt a) := by
    intro a ha
    have ho : Owns j (.converted, convertedName j.id j.fmt a) := ⟨a, ha, rfl⟩
    rw [C46_any_schedule_partial js disk hbatch hdisk sched hend j hjm _ ho, alone_effect (hbatch.1 j hjm).1 disk _ ho,
      conversion_effect t1 t2]
  refine ⟨?_, ?_⟩
  · intro tr htr
    rw [← hid, ← hfmt, hfinal _ (hout tr htr)]
    have hnd' : ((waveWrites j.id j.fmt s.w.out).map Prod.fst).Nodup := by
      unfold waveWrites
      rw [List.map_map, hid, hfmt]
      exact hnd
    exact writeAll_kept _ _ hnd' (convertedName j.id j.fmt tr.start, [.wave tr]) (List.mem_map.mpr ⟨tr, htr, rfl⟩)
  · intro a ha hother
    rw [← hid, ← hfmt, hfinal a ha, writeAll_else]
    intro hmem
    unfold waveWrites at hmem
    rw [List.map_map] at hmem
    obtain ⟨tr, htr, e⟩ := List.mem_map.mp hmem
    exact hother tr htr (convertedName_injective _ _ (hout tr htr) ha e)


/-! ## Codes -/

/-- Network, station and location of the instrument `s` with the row `r` of the table: a station that is left empty is the serial number. -/
def CodeRow.channel (r : CodeRow) (s : List Nat) : List Nat × List Nat × List Nat :=
  (r.network, if r.station = [] then s else r.station, r.location)

/-- The name of a channel, as in `NET.STA.LOC.HDF`. -/
def channelName (c : List Nat × List Nat × List Nat) : List Nat :=
  c.1 ++ bytes "." ++ c.2.1 ++ bytes "." ++ c.2.2 ++ bytes "." ++ bytes "HDF"

/-- Codes without dots. -/
def NoDots (c : List Nat × List Nat × List Nat) : Prop := 46 ∉ c.1 ∧ 46 ∉ c.2.1 ∧ 46 ∉ c.2.2

theorem dot_split : ∀ {a b x y : List Nat}, 46 ∉ a → 46 ∉ b → a ++ 46 :: x = b ++ 46 :: y → a = b ∧ x = y := by
  intro a
  induction a with
  | nil =>
    intro b x y _ hb h
    cases b with
    | nil => exact ⟨rfl, by simpa using h⟩
    | cons c b =>
      simp only [List.nil_append, List.cons_append, List.cons.injEq] at h
      exact absurd (h.1 ▸ List.mem_cons_self ..) hb
  | cons c a ih =>
    intro b x y ha hb h
    cases b with
    | nil =>
      simp only [List.nil_append, List.cons_append, List.cons.injEq] at h
      exact absurd (h.1 ▸ List.mem_cons_self ..) ha
    | cons e b =>
      simp only [List.cons_append, List.cons.injEq] at h
      obtain ⟨h1, h2⟩ := ih (fun hm => ha (List.mem_cons_of_mem _ hm)) (fun hm => hb (List.mem_cons_of_mem _ hm)) h.2
      exact ⟨by rw [h.1, h1], h2⟩

theorem channelName_injective {c c' : List Nat × List Nat × List Nat} (h : NoDots c) (h' : NoDots c') (e : channelName c = channelName c') : c = c' := by
  obtain ⟨a, b, d⟩ := c
  obtain ⟨a', b', d'⟩ := c'
  unfold channelName at e
  have hd : bytes "." = [46] := by decide +kernel
  simp only [hd, List.append_assoc, List.singleton_append] at e
  obtain ⟨e1, e⟩ := dot_split h.1 h'.1 e
  obtain ⟨e2, e⟩ := dot_split h.2.1 h'.2.1 e
  obtain ⟨e3, _⟩ := dot_split h.2.2 h'.2.2 e
  simp only at e1 e2 e3
  rw [e1, e2, e3]

theorem traceId_codes (ws : List Word) (s : List Nat) (r : CodeRow) :
    traceId (jobFor ws s r.network r.station r.location) = channelName (r.channel s) := rfl

theorem firstRow_unique {table : List CodeRow} {n : Int} {r r' : CodeRow} (h : FirstRow table n r) (h' : FirstRow table n r') : r = r' := by
  have := ((find_firstRow table n r).mpr h).symm.trans ((find_firstRow table n r').mpr h')
  exact Option.some.inj this

/-- The row of the table for the instrument `s`. -/
def RowOf (table : List CodeRow) (s : List Nat) (r : CodeRow) : Prop := ∃ n, pyInt s = some n ∧ FirstRow table n r

theorem codes_batch {env : Env} {dir : List Entry} {ws : List Word} {table : List CodeRow} {jobs : List ConvArgs} {js : List (Proc FilePiece)}
    (hj : List.Forall₂ (IsConversion env dir) jobs js) (hs : (jobs.map ConvArgs.sn).Pairwise (· < ·))
    (hrow : ∀ a ∈ jobs, ∃ r, RowOf table a.sn r ∧ a = jobFor ws a.sn r.network r.station r.location)
    (h3 : ∀ a ∈ jobs, a.sn.length = 3) (hd : ∀ j ∈ js, ∀ a c, Instr.segment a c ∈ j.todo → Datable a)
    (hdots : ∀ a ∈ jobs, ∀ r, RowOf table a.sn r → NoDots (r.channel a.sn))
    (hdiff : ∀ a ∈ jobs, ∀ b ∈ jobs, ∀ r q, RowOf table a.sn r → RowOf table b.sn q → r.channel a.sn = q.channel b.sn → a.sn = b.sn) : IsBatch js := by
  induction hj with
  | nil => exact ⟨by simp, List.Pairwise.nil⟩
  | @cons a j jobs js h1 h2 ih =>
    rw [List.map_cons, List.pairwise_cons] at hs
    obtain ⟨i1, i2⟩ := ih hs.2 (fun b hb => hrow b (List.mem_cons_of_mem _ hb)) (fun b hb => h3 b (List.mem_cons_of_mem _ hb))
      (fun j hj => hd j (List.mem_cons_of_mem _ hj)) (fun b hb => hdots b (List.mem_cons_of_mem _ hb))
      (fun b hb c hc => hdiff b (List.mem_cons_of_mem _ hb) c (List.mem_cons_of_mem _ hc))
    refine ⟨?_, List.pairwise_cons.mpr ⟨?_, i2⟩⟩
    · intro i hi
      rcases List.mem_cons.mp hi with rfl | hi
      · exact ⟨isConversion_started h1 (hd _ (by simp)), by rw [h1.sn]; exact h3 a (by simp)⟩
      · exact i1 i hi
    · intro i hi
      obtain ⟨b, hb1, hb2⟩ := forall₂_right h2 i hi
      have hne : a.sn ≠ b.sn := ne_of_lt (hs.1 b.sn (List.mem_map.mpr ⟨b, hb1, rfl⟩))
      obtain ⟨r, r1, r2⟩ := hrow a (by simp)
      obtain ⟨q, q1, q2⟩ := hrow b (List.mem_cons_of_mem _ hb1)
      refine ⟨by rw [h1.sn, hb2.sn]; exact hne, ?_, ?_⟩
      · rw [h1.id, hb2.id, r2, q2, traceId_codes, traceId_codes]
        intro e
        refine hne (hdiff a (by simp) b (List.mem_cons_of_mem _ hb1) r q r1 q1 ?_)
        exact channelName_injective (hdots a (by simp) r r1) (hdots b (List.mem_cons_of_mem _ hb1) q q1) e
      · rw [h1.fmt, hb2.fmt, r2, q2]
        rfl

/-- **C97, station codes.** As `C97_command`, with a table of codes (`-c`) whose serial numbers are numbers, and which gives the instruments to be converted
different channels, without dots: the files of each instrument that has a row in the table are named by its network, station and location (the serial number, if
the station is empty), and hold its record, whatever became of the others and whatever was on the disk before. The file length is a whole number of seconds: a
day, or the number of hours typed after `-l`. -/
theorem C97_codes (ws : List Word) (hv : ∀ w ∈ ws, w.Valid) (hh : Word.flag 104 ∉ ws) (htest : Word.flag 116 ∉ ws)
    (hproc : 0 < typedProcesses ws) (m : Int) (hm : 0 < m)
    (hlength : LengthTyped (typedValue ws 108) m) (cli : CliEnv) (d : RawDisk) (dir : List Entry)
    (hdir : cli.listdir ((typedValue ws 105).getD (bytes "raw")) = some (dir.map Entry.name))
    (codesfile : List Nat) (hcodes : typedValue ws 99 = some codesfile) (table : List CodeRow)
    (htab : cli.codes codesfile = some table) (hnum : ∀ r ∈ table, (pyInt r.sn).isSome)
    (hthree : ∀ s, WantedSNs ws (dir.map Entry.name) s → s.length = 3 ∧ (pyInt s).isSome)
    (hdots : ∀ s r, WantedSNs ws (dir.map Entry.name) s → RowOf table s r → NoDots (r.channel s))
    (hdiff : ∀ s s' r r', WantedSNs ws (dir.map Entry.name) s → WantedSNs ws (dir.map Entry.name) s' → RowOf table s r → RowOf table s' r' →
      r.channel s = r'.channel s' → s = s')
    (SN : List Nat) (hwanted : WantedSNs ws (dir.map Entry.name) SN) (row : CodeRow) (hrow : RowOf table SN row) (log : Entry → List Event) (ns : List Int)
    (hns : convertNums true dir SN [none] = .ok ns) (n : Int) (hn : pyInt SN = some n) (specs : Specs) (hspecs : gemSpecs n = .ok specs)
    (hfit : Reproduces d.fit) (hfit1 : ReproducesLines d.fit) (r0 : BlockSpan) (rs : List BlockSpan)
    (hblocks : List.Forall₂ (fun block r => ∃ first rest, CleanBlock d dir SN log block r first rest)
      (jobOf d.env dir SN ns 1 (1000000 * m) endOfTime).blocks (r0 :: rs))
    (horder : (r0 :: rs).IsChain fun x y => x.stop < y.start ∧ y.start - x.stop ≤ 1 / 100) (hpos : 1 ≤ r0.start)
    (hlong : 103 / 100 ≤ r0.stop - r0.start)
    (hfar : ∀ r ∈ r0 :: rs, 1000000 * r.stop + 1000000 * m + 86400000000 + 1000000 ≤ endOfTime) :
    ∃ jobs, gemconvert cli (ws.flatMap Word.typed) = .run jobs (typedProcesses ws) ∧
      ∀ (js : List (Proc FilePiece)), List.Forall₂ (IsConversion d.env dir) jobs js →
      (∀ j ∈ js, ∀ a c, Instr.segment a c ∈ j.todo → Datable a) →
      ∀ (disk : Disk FilePiece), (∀ k, k ∈ disk.dirs) →
      ∀ sched, (∀ j ∈ (runSchedule sched (js, disk)).1, j.todo = []) →
      ∃ (tr0 : Trace) (trs out : List Trace) (h : Int), List.Forall₂ TraceOver (r0 :: rs) (tr0 :: trs) ∧
        h % 1000000 = 0 ∧ 10000 * tr0.start ≤ h ∧ h < 10000 * tr0.start + 1000000 ∧
        samples out = from_ h (fillIn (samples (tr0 :: trs))) ∧
        (samples out).IsChain (fun x y => y.1 = x.1 + 1) ∧ (samples out).head?.map Prod.fst = some (h / 10000) ∧
        (∃ q r, (samples out).getLast? = some q ∧ (r0 :: rs).getLast? = some r ∧
          r.stop - 25 / 1000 < (q.1 : Rat) / 100 ∧ (q.1 : Rat) / 100 ≤ r.stop - 5 / 1000) ∧
        (∀ tr ∈ out, (runSchedule sched (js, disk)).2.get (.converted, convertedName (channelName (row.channel SN))
          ((typedValue ws 102).getD (bytes "MSEED")) tr.start) = some [.wave tr]) ∧
        ∀ a, Datable a → (∀ tr ∈ out, tr.start / 100 ≠ a / 100) →
          (runSchedule sched (js, disk)).2.get (.converted, convertedName (channelName (row.channel SN))
            ((typedValue ws 102).getD (bytes "MSEED")) a) =
          disk.get (.converted, convertedName (channelName (row.channel SN)) ((typedValue ws 102).getD (bytes "MSEED")) a) := by
  have hL : (1000000 : Int) * m = 10000 * (100 * m) := by ring
  have hfar' : ∀ r ∈ r0 :: rs, 1000000 * r.stop + 10000 * ((100 * m : Int) : Rat) + ((⌈86400000000 * (1 : Rat)⌉ : Int) : Rat) + 1000000 ≤ endOfTime := by
    intro r hr
    have := hfar r hr
    rw [show ⌈86400000000 * (1 : Rat)⌉ = 86400000000 by decide +kernel]
    push_cast
    linarith
  rw [hL] at hblocks
  obtain ⟨tr0, trs, s, h, c1, c2, _, c4, c5, c6, c7, c8⟩ := C66_convert d dir SN log [none] ns hns n hn specs hspecs hfit hfit1 1 (100 * m) endOfTime
    (by norm_num) (by omega) r0 rs hblocks (horder.imp fun _ _ h => h.1) hpos hlong hfar'
  obtain ⟨c9, c10, c11⟩ := c8 (horder.imp fun _ _ h => h.2)
  rw [← hL] at c2
  obtain ⟨sns, jobs, j1, ⟨j2, j3⟩, j4, j5⟩ := C47_codes_partial ws hv hh htest hproc cli _ hdir codesfile hcodes table htab hnum fun s hs => (hthree s hs).2
  have hmem : ∀ a ∈ jobs, WantedSNs ws (dir.map Entry.name) a.sn := by
    intro a ha
    exact ((j3 a.sn).mp (by rw [← j4]; exact List.mem_map.mpr ⟨a, ha, rfl⟩)).1
  obtain ⟨arg, harg, hsn⟩ : ∃ a ∈ jobs, a.sn = SN := by
    obtain ⟨k, hk, before, after, e, hr, _⟩ := hrow
    have : SN ∈ jobs.map ConvArgs.sn := by
      rw [j4, j3]
      exact ⟨hwanted, row, by rw [e]; simp, by rw [hr, hk]⟩
    obtain ⟨a, ha, e⟩ := List.mem_map.mp this
    exact ⟨a, ha, e⟩
  have hargs : arg = jobFor ws SN row.network row.station row.location := by
    obtain ⟨k, r, k1, k2, k3⟩ := j5 arg harg
    obtain ⟨k', k1', k2'⟩ := hrow
    rw [hsn] at k1 k3
    rw [k1] at k1'
    cases k1'
    rw [← firstRow_unique k2 k2']
    exact k3
  refine ⟨jobs, j1, fun js hjs hdat disk hdisk sched hend => ⟨tr0, trs, s.w.out, h, c1, c4, c5, c6, c7, c9, c10, c11, ?_⟩⟩
  have hbatch : IsBatch js := by
    refine codes_batch (ws := ws) (table := table) hjs (by rw [j4]; exact j2) ?_ (fun a ha => (hthree _ (hmem a ha)).1) hdat (fun a ha r hr => hdots _ r (hmem a ha) hr)
      (fun a ha b hb r q hr hq => hdiff _ _ r q (hmem a ha) (hmem b hb) hr hq)
    intro a ha
    obtain ⟨k, r, k1, k2, k3⟩ := j5 a ha
    exact ⟨r, ⟨k, k1, k2⟩, k3⟩
  have := job_files d.env dir jobs js hjs hbatch hdat arg harg m hm (by rw [hargs]; exact lengthTyped_micros hlength) ns (by rw [hsn]; exact hns) s
    (by rw [hsn]; exact c2) (c9.imp fun _ _ h => .inl h) disk hdisk sched hend
  rw [hargs, traceId_codes] at this
  exact this

/-- `gemconvert -c codes.txt`, with a row for the instrument 012, and files of a day. -/
example : ∃ jobs, gemconvert ⟨shortCli.listdir, fun _ => some [⟨bytes "12", bytes "XP", bytes "AAA", bytes "01"⟩]⟩ [bytes "-c", bytes "codes.txt"] = .run jobs 1 ∧
    ∀ js : List (Proc FilePiece), List.Forall₂ (IsConversion longDisk.env longDir) jobs js → (∀ j ∈ js, ∀ a c, Instr.segment a c ∈ j.todo → Datable a) →
    ∀ (disk : Disk FilePiece), (∀ k, k ∈ disk.dirs) → ∀ sched, (∀ j ∈ (runSchedule sched (js, disk)).1, j.todo = []) →
      ∃ out : List Trace, samples out ≠ [] ∧ (samples out).IsChain (fun x y => y.1 = x.1 + 1) ∧ ∀ tr ∈ out,
        (runSchedule sched (js, disk)).2.get (.converted, convertedName (bytes "XP.AAA.01.HDF") (bytes "MSEED") tr.start) = some [.wave tr] := by
  have hv : ∀ w ∈ [Word.value 99 (bytes "codes.txt")], w.Valid := by
    intro w hw
    rw [List.mem_singleton.mp hw]
    show 99 ∈ bytes "isxcoflp"
    decide +kernel
  have hw : ∀ s, WantedSNs [Word.value 99 (bytes "codes.txt")] (longDir.map Entry.name) s ↔ s = bytes "012" := by
    intro s
    have h1 : typedValue [Word.value 99 (bytes "codes.txt")] 115 = none := by decide +kernel
    have h2 : typedValue [Word.value 99 (bytes "codes.txt")] 120 = none := by decide +kernel
    unfold WantedSNs
    rw [h1, h2]
    simp only [reduceCtorEq, false_and, exists_false, not_false_eq_true, and_true]
    constructor
    · rintro ⟨f, hf, rfl⟩
      revert f
      decide +kernel
    · rintro rfl
      exact ⟨bytes "FILE0001.012", by decide +kernel, by decide +kernel⟩
  have hblocks : List.Forall₂ (fun block r => ∃ first rest, CleanBlock longDisk longDir (bytes "012") longOf block r first rest)
      (jobOf longDisk.env longDir (bytes "012") [1, 13] 1 (1000000 * 86400) endOfTime).blocks [longSpan 0, longSpan 2] := by
    have : (jobOf longDisk.env longDir (bytes "012") [1, 13] 1 (1000000 * 86400) endOfTime).blocks = [[1], [13]] := by decide +kernel
    rw [this]
    exact .cons ⟨_, _, long_block 0 (.inl rfl) 1 _ (.inl ⟨rfl, rfl, rfl⟩)⟩
      (.cons ⟨_, _, long_block 2 (.inr rfl) 13 _ (.inr ⟨rfl, rfl, rfl⟩)⟩ .nil)
  have hrow : ∀ r, RowOf [⟨bytes "12", bytes "XP", bytes "AAA", bytes "01"⟩] (bytes "012") r ↔ r = ⟨bytes "12", bytes "XP", bytes "AAA", bytes "01"⟩ := by
    have h0 : FirstRow [⟨bytes "12", bytes "XP", bytes "AAA", bytes "01"⟩] 12 ⟨bytes "12", bytes "XP", bytes "AAA", bytes "01"⟩ :=
      ⟨[], [], rfl, by decide +kernel, by simp⟩
    have h1 : pyInt (bytes "012") = some 12 := by decide +kernel
    intro r
    constructor
    · rintro ⟨n, hn, hr⟩
      rw [h1] at hn
      cases hn
      exact firstRow_unique hr h0
    · rintro rfl
      exact ⟨12, h1, h0⟩
  obtain ⟨jobs, j1, j2⟩ := C97_codes [Word.value 99 (bytes "codes.txt")] hv (by simp) (by simp) (by decide +kernel) 86400 (by decide)
    (.inl ⟨by decide +kernel, by norm_num⟩) ⟨shortCli.listdir, fun _ => some [⟨bytes "12", bytes "XP", bytes "AAA", bytes "01"⟩]⟩ longDisk longDir
    (by decide +kernel) (bytes "codes.txt") (by decide +kernel) [⟨bytes "12", bytes "XP", bytes "AAA", bytes "01"⟩] rfl (by decide +kernel)
    (fun s hs => by rw [(hw s).mp hs]; decide +kernel)
    (fun s r hs hr => by rw [(hw s).mp hs] at hr ⊢; rw [(hrow r).mp hr]; unfold NoDots; decide +kernel)
    (fun s s' r r' hs hs' _ _ _ => by rw [(hw s).mp hs, (hw s').mp hs'])
    (bytes "012") ((hw _).mpr rfl) _ ((hrow _).mpr rfl) longOf [1, 13] (by decide +kernel) 12 (by decide +kernel) (specsOf (7 / 10)) (by decide +kernel)
    idealFit_reproduces idealFit_line (longSpan 0) [longSpan 2] hblocks
    (by unfold longSpan; simp only [List.isChain_cons_cons, List.isChain_singleton]; norm_num) (by unfold longSpan; norm_num) (by unfold longSpan; norm_num)
    (by
      intro r hr
      simp only [List.mem_cons, List.not_mem_nil, or_false] at hr
      rcases hr with rfl | rfl <;> unfold longSpan endOfTime <;> norm_num)
  refine ⟨jobs, j1, fun js hjs hdat disk hdisk sched hend => ?_⟩
  obtain ⟨_, _, out, h, _, _, _, _, _, e1, e0, _, e2, _⟩ := j2 js hjs hdat disk hdisk sched hend
  refine ⟨out, ?_, e1, e2⟩
  intro e
  rw [e] at e0
  cases e0

end Gemlog
