import Verif.Model.Command
import Verif.Props.NamesDistinct
import Verif.Props.Batch
import Verif.Props.Cli
import Verif.Props.WholeConvert
import Verif.Lemmas.Reference

/-!
# C97: from the command line to the files

`gemconvert`, given a folder with recordings without defects, leaves the whole record of each instrument in the output folder, whatever the
order in which several processes work, and whatever becomes of the other instruments.
-/

namespace Gemlog

/-! ## Files written under different names -/

theorem writeAll_kept {α : Type} (d : Dir α) (ws : List (List Nat × α)) (hnd : (ws.map Prod.fst).Nodup) :
    ∀ w ∈ ws, d.writeAll ws w.1 = some w.2 := by
  intro w hw
  rw [writeAll_get]
  have : ws.filter (fun x => decide (x.1 = w.1)) = [w] := by
    induction ws with
    | nil => simp at hw
    | cons a l ih =>
      rw [List.map_cons, List.nodup_cons] at hnd
      rcases List.mem_cons.mp hw with rfl | h
      · rw [List.filter_cons_of_pos (by simp), List.filter_eq_nil_iff.mpr]
        intro b hb h2
        simp only [decide_eq_true_eq] at h2
        exact hnd.1 (List.mem_map.mpr ⟨b, hb, h2⟩)
      · rw [List.filter_cons_of_neg, ih hnd.2 h]
        simp only [decide_eq_true_eq]
        intro h2
        exact hnd.1 (List.mem_map.mpr ⟨w, h, h2.symm⟩)
  rw [this]
  rfl

theorem writeAll_else {α : Type} (d : Dir α) (ws : List (List Nat × α)) (x : List Nat) (hx : x ∉ ws.map Prod.fst) :
    d.writeAll ws x = d x := by
  rw [writeAll_get, List.filter_eq_nil_iff.mpr]
  · rfl
  · intro w hw h
    simp only [decide_eq_true_eq] at h
    exact hx (List.mem_map.mpr ⟨w, hw, h⟩)

/-! ## What a conversion leaves in the output folder -/

/-- The writes of the segments. -/
def waveWrites (id fmt : List Nat) (out : List Trace) : List (List Nat × List FilePiece) :=
  out.map fun tr => (convertedName id fmt tr.start, [.wave tr])

theorem get_put {γ : Type} (d : Disk γ) (key key' : Folder × List Nat) (c : List γ) :
    (d.put key c).get key' = if key = key' then some c else d.get key' := by
  unfold Disk.put Disk.get
  rw [List.find?_cons]
  by_cases h : key = key'
  · simp [h]
  · simp [h]

theorem carries_effect (rest : List (Instr FilePiece)) (id fmt : List Nat) :
    ∀ (j : Proc FilePiece) (d : Disk FilePiece) (out : List Trace), j.id = id → j.fmt = fmt → Carries rest out → ∀ x,
      (effect rest j d).get (.converted, x) = Dir.writeAll (fun x => d.get (.converted, x)) (waveWrites id fmt out) x := by
  induction rest with
  | nil =>
    rintro j d out _ _ ⟨h, _⟩ x
    rw [← h]
    rfl
  | cons i rest ih =>
    rintro j d out hid hfmt ⟨h1, h2⟩ x
    have h2' : ∀ x ∈ rest, (∃ k t, x = .extend k (.rows t)) ∨ ∃ tr, x = .segment tr.start (.wave tr) :=
      fun x hx => h2 x (List.mem_cons_of_mem _ hx)
    rcases h2 i (by simp) with ⟨k, t, rfl⟩ | ⟨tr, rfl⟩
    · rw [List.filterMap_cons_none rfl] at h1
      rw [effect]
      · rw [ih _ _ out ?_ ?_ ⟨h1, h2'⟩ x]
        · congr 1
          funext y
          unfold act
          simp only
          cases hf : ({ j with todo := rest } : Proc FilePiece).file k with
          | none => rfl
          | some f =>
            simp only
            rw [get_put, if_neg]
            intro e
            simp only [Prod.mk.injEq] at e
            rw [e.1] at hf
            simp [Proc.file] at hf
        · unfold act; simp only; split <;> exact hid
        · unfold act; simp only; split <;> exact hfmt
      all_goals simp
    · rw [List.filterMap_cons_some (f := Instr.wave?) (b := tr) rfl] at h1
      rw [effect]
      · rw [ih (act (Instr.segment tr.start (FilePiece.wave tr)) { j with todo := rest } d).1 _ _ hid hfmt ⟨rfl, h2'⟩ x, ← h1]
        have e : (fun x => (act (Instr.segment tr.start (FilePiece.wave tr)) { j with todo := rest } d).2.get (.converted, x)) =
            Dir.write (fun x => d.get (.converted, x)) (convertedName id fmt tr.start) [.wave tr] := by
          funext y
          unfold act Dir.write
          simp only
          rw [get_put, hid, hfmt]
          by_cases hy : y = convertedName id fmt tr.start
          · rw [if_pos hy, if_pos (by rw [hy])]
          · rw [if_neg hy, if_neg (by intro e; simp only [Prod.mk.injEq] at e; exact hy e.2.symm)]
        rw [e]
        rfl
      all_goals simp

/-- The whole conversion leaves its segments in the output folder. -/
theorem conversion_effect {j : Proc FilePiece} {m g : List Nat} {rest : List (Instr FilePiece)} {out : List Trace}
    (ht : j.todo = procInstrs (.rows m) (.rows g) rest) (hc : Carries rest out) (d : Disk FilePiece) (x : List Nat) :
    (effect j.todo j d).get (.converted, x) =
      Dir.writeAll (fun x => d.get (.converted, x)) (waveWrites j.id j.fmt out) x := by
  have key : ∀ (j : Proc FilePiece) (d : Disk FilePiece), ∃ j' d', effect (procInstrs (.rows m) (.rows g) rest) j d = effect rest j' d' ∧
      j'.id = j.id ∧ j'.fmt = j.fmt ∧ ∀ y, d'.get (.converted, y) = d.get (.converted, y) := by
    intro j d
    unfold procInstrs
    simp only [List.cons_append, List.nil_append, effect]
    refine ⟨_, _, rfl, ?_, ?_, ?_⟩
    · simp only [act]; split <;> split <;> rfl
    · simp only [act]; split <;> split <;> rfl
    · intro y
      simp only [act]
      split <;> split <;> simp [get_put]
  obtain ⟨j', d', h1, h2, h3, h4⟩ := key j d
  rw [ht, h1, carries_effect rest j.id j.fmt j' d' out h2 h3 hc x]
  congr 1
  funext y
  exact h4 y

/-! ## The length of the files -/

/-- The file length is `m` seconds: without `-l` a day, otherwise the decimal number typed, in hours. -/
def LengthTyped (typed : Option (List Nat)) (m : Int) : Prop :=
  (typed = none ∧ m = 24 * 60 * 60) ∨ ∃ x : Dec, typed = some x.text ∧ x.val * 60 * 60 = m

theorem lengthTyped_micros {typed : Option (List Nat)} {m : Int} (h : LengthTyped typed m) :
    lengthMicros typed = some (1000000 * (m : Rat)) := by
  rcases h with ⟨rfl, rfl⟩ | ⟨x, rfl, h⟩
  · unfold lengthMicros
    norm_num
  · unfold lengthMicros
    simp only [pyFloat_dec, Option.map_some, Option.some.injEq]
    rw [← h]
    ring

/-! ## The command -/

theorem doneBy_instrs {todo : List (Instr FilePiece)} {r : Run CState} (h : DoneBy todo r) :
    todo = [.fail] ∨ ∃ m g rest, todo = procInstrs m g rest ∧
      ∀ x ∈ rest, x = .fail ∨ (∃ k c, x = .extend k c) ∨ ∃ a c, x = .segment a c := by
  cases r with
  | running => exact h.elim
  | done s =>
    obtain ⟨m, g, rest, h1, _, h2⟩ := h
    refine .inr ⟨_, _, rest, h1, ?_⟩
    intro x hx
    rcases h2 x hx with ⟨k, t, rfl⟩ | ⟨tr, rfl⟩
    · exact .inr (.inl ⟨_, _, rfl⟩)
    · exact .inr (.inr ⟨_, _, rfl⟩)
  | raised e out =>
    rcases h with ⟨h, _⟩ | ⟨m, g, rest, h1, _, h2⟩
    · exact .inl h
    · refine .inr ⟨_, _, _, h1, ?_⟩
      intro x hx
      rcases List.mem_append.mp hx with hx | hx
      · rcases h2 x hx with ⟨k, t, rfl⟩ | ⟨tr, rfl⟩
        · exact .inr (.inl ⟨_, _, rfl⟩)
        · exact .inr (.inr ⟨_, _, rfl⟩)
      · exact .inl (List.mem_singleton.mp hx)

theorem isConversion_started {env : Env} {dir : List Entry} {a : ConvArgs} {j : Proc FilePiece} (h : IsConversion env dir a j)
    (hd : ∀ a c, Instr.segment a c ∈ j.todo → Datable a) : Started j := by
  refine ⟨h.fresh.1, h.fresh.2, ?_⟩
  have key : j.todo = [.fail] ∨ ∃ m g rest, j.todo = procInstrs m g rest ∧
      ∀ x ∈ rest, x = .fail ∨ (∃ k c, x = .extend k c) ∨ ∃ a c, x = .segment a c := by
    rcases h.todo with ⟨_, h⟩ | ⟨L, r, _, _, h⟩
    · exact .inl h
    · exact doneBy_instrs h
  rcases key with h | ⟨m, g, rest, h1, h2⟩
  · exact .inl h
  · refine .inr ⟨m, g, rest, h1, ?_⟩
    intro x hx
    rcases h2 x hx with h | h | ⟨a, c, rfl⟩
    · exact .inl h
    · exact .inr (.inl h)
    · exact .inr (.inr ⟨a, c, rfl, hd a c (by rw [h1]; unfold procInstrs; simp [hx])⟩)

/-- The identifier without codes: the serial number between dots. -/
theorem traceId_plain (ws : List Word) (s : List Nat) : traceId (jobFor ws s [] [] []) = bytes "." ++ s ++ bytes "..HDF" := by
  unfold traceId jobFor
  simp only [if_pos]
  simp [show bytes "." = [46] by decide +kernel, show bytes "..HDF" = 46 :: 46 :: bytes "HDF" by decide +kernel]

theorem isBatch_of {env : Env} {dir : List Entry} {ws : List Word} {sns : List (List Nat)} {js : List (Proc FilePiece)}
    (hj : List.Forall₂ (IsConversion env dir) (sns.map fun s => jobFor ws s [] [] []) js) (hs : sns.Pairwise (· < ·))
    (h3 : ∀ s ∈ sns, s.length = 3) (hd : ∀ j ∈ js, ∀ a c, Instr.segment a c ∈ j.todo → Datable a) : IsBatch js := by
  rw [List.forall₂_map_left_iff] at hj
  induction hj with
  | nil => exact ⟨by simp, List.Pairwise.nil⟩
  | @cons s j sns js h1 h2 ih =>
    have hs' := List.pairwise_cons.mp hs
    obtain ⟨i1, i2⟩ := ih hs'.2 (fun s hs => h3 s (List.mem_cons_of_mem _ hs)) fun j hj => hd j (List.mem_cons_of_mem _ hj)
    refine ⟨?_, List.pairwise_cons.mpr ⟨?_, i2⟩⟩
    · intro i hi
      rcases List.mem_cons.mp hi with rfl | hi
      · refine ⟨isConversion_started h1 (hd _ (by simp)), ?_⟩
        rw [h1.sn]
        exact h3 s (by simp)
      · exact i1 i hi
    · intro i hi
      obtain ⟨s', hs1, hs2⟩ := forall₂_right h2 i hi
      have hne : s ≠ s' := ne_of_lt (hs'.1 s' hs1)
      refine ⟨?_, ?_, ?_⟩
      · rw [h1.sn, hs2.sn]; exact hne
      · rw [h1.id, hs2.id, traceId_plain, traceId_plain]
        intro e
        exact hne (List.append_cancel_left (List.append_cancel_right e))
      · rw [h1.fmt, hs2.fmt]
        rfl

/-- What the files of a serial number hold after `gemconvert` if its conversion settles and its record has no gap shorter than a second. -/
theorem command_files (ws : List Word) (hv : ∀ w ∈ ws, w.Valid) (hh : Word.flag 104 ∉ ws) (htest : Word.flag 116 ∉ ws)
    (hcodes : typedValue ws 99 = none) (hproc : 0 < typedProcesses ws) (m : Int) (hm : 0 < m)
    (hlength : lengthMicros (typedValue ws 108) = some (1000000 * (m : Rat))) (cli : CliEnv) (env : Env) (dir : List Entry)
    (hdir : cli.listdir ((typedValue ws 105).getD (bytes "raw")) = some (dir.map Entry.name))
    (hthree : ∀ s, WantedSNs ws (dir.map Entry.name) s → s.length = 3)
    (SN : List Nat) (hwanted : WantedSNs ws (dir.map Entry.name) SN) (ns : List Int)
    (hns : convertNums true dir SN [none] = .ok ns) (s : CState)
    (c2 : Settles (convertDir env true dir SN [none] 1 (1000000 * m) none endOfTime) (.done s)) (hgap : NoShortGap (samples s.w.out)) :
    ∃ jobs, gemconvert cli (ws.flatMap Word.typed) = .run jobs (typedProcesses ws) ∧
      ∀ (js : List (Proc FilePiece)), List.Forall₂ (IsConversion env dir) jobs js →
      (∀ j ∈ js, ∀ a c, Instr.segment a c ∈ j.todo → Datable a) →
      ∀ (disk : Disk FilePiece), (∀ k, k ∈ disk.dirs) →
      ∀ sched, (∀ j ∈ (runSchedule sched (js, disk)).1, j.todo = []) →
        (∀ tr ∈ s.w.out, (runSchedule sched (js, disk)).2.get (.converted, convertedName (bytes "." ++ SN ++ bytes "..HDF")
          ((typedValue ws 102).getD (bytes "MSEED")) tr.start) = some [.wave tr]) ∧
        ∀ a, Datable a → (∀ tr ∈ s.w.out, tr.start / 100 ≠ a / 100) →
          (runSchedule sched (js, disk)).2.get (.converted, convertedName (bytes "." ++ SN ++ bytes "..HDF")
            ((typedValue ws 102).getD (bytes "MSEED")) a) =
          disk.get (.converted, convertedName (bytes "." ++ SN ++ bytes "..HDF") ((typedValue ws 102).getD (bytes "MSEED")) a) := by
  have hne : ws ≠ [] ∨ dir.map Entry.name ≠ [] := by
    right
    intro h
    rw [List.map_eq_nil_iff] at h
    rw [h] at hns
    simp [convertNums] at hns
  obtain ⟨sns, s1, s2, _, s3⟩ := C59_command_line_partial ws hv hh cli _ hdir hne hcodes
  refine ⟨_, s3 htest hproc, ?_⟩
  intro js hjs hdat disk hdisk sched hend
  -- the conversion of the serial number
  obtain ⟨j, hjm, hj⟩ : ∃ j ∈ js, IsConversion env dir (jobFor ws SN [] [] []) j := by
    have hm' : SN ∈ sns := (s2 SN).mpr hwanted
    rw [List.forall₂_map_left_iff] at hjs
    clear hdat hend s1 s2 s3 hdisk
    clear * - hjs hm'
    induction hjs with
    | nil => simp at hm'
    | @cons s j sns js h1 h2 ih =>
      rcases List.mem_cons.mp hm' with rfl | hm'
      · exact ⟨j, by simp, h1⟩
      · obtain ⟨i, i1, i2⟩ := ih hm'
        exact ⟨i, List.mem_cons_of_mem _ i1, i2⟩
  have hbatch := isBatch_of hjs s1 (fun s hs => hthree s ((s2 s).mp hs)) hdat
  have hid : j.id = bytes "." ++ SN ++ bytes "..HDF" := by rw [hj.id, traceId_plain]
  have hfmt : j.fmt = (typedValue ws 102).getD (bytes "MSEED") := hj.fmt
  have hl : lengthMicros (jobFor ws SN [] [] []).lengthHours = some (1000000 * (m : Rat)) := hlength
  obtain ⟨mm, g, rest, t1, t2⟩ : ∃ mm g rest, j.todo = procInstrs (.rows mm) (.rows g) rest ∧ Carries rest s.w.out := by
    rcases hj.todo with ⟨h, _⟩ | ⟨L, r, h1, h2, h3⟩
    · rw [hl] at h; cases h
    · rw [hl] at h1
      simp only [Option.some.injEq] at h1
      have : L = 1000000 * m := by exact_mod_cast h1.symm
      subst this
      have hr := settles_unique h2 c2
      rw [hr] at h3
      exact h3
  -- its segments have different names
  obtain ⟨_, N, hN⟩ := c2
  have hrun := hN N (le_refl _)
  unfold convertDir at hrun
  rw [hns] at hrun
  have hwr : (convertLoops (jobOf env dir SN ns 1 (1000000 * m) endOfTime) none N).written = s.w.out := by
    simp only at hrun
    rw [hrun]
    rfl
  have hout : ∀ tr ∈ s.w.out, Datable tr.start := by
    intro tr htr
    rw [← t2.1, List.mem_filterMap] at htr
    obtain ⟨i, i1, i2⟩ := htr
    rcases t2.2 i i1 with ⟨k, t, rfl⟩ | ⟨tr', rfl⟩
    · simp [Instr.wave?] at i2
    · have : tr' = tr := by simpa [Instr.wave?] using i2
      subst this
      exact hdat j hjm _ _ (by rw [t1]; unfold procInstrs; exact List.mem_append_right _ i1)
  obtain ⟨hnd, _⟩ := C36_distinct_partial (jobOf env dir SN ns 1 (1000000 * m) endOfTime) m hm rfl N
    (bytes "." ++ SN ++ bytes "..HDF") ((typedValue ws 102).getD (bytes "MSEED"))
    (by rw [hwr]; exact hgap) (by rw [hwr]; exact hout)
  rw [hwr] at hnd
  have hfinal : ∀ a, Datable a → (runSchedule sched (js, disk)).2.get (.converted, convertedName j.id j.fmt a) =
      Dir.writeAll (fun x => disk.get (.converted, x)) (waveWrites j.id j.fmt s.w.out) (convertedName j.id j.fmt a) := by
    intro a ha
    have ho : Owns j (.converted, convertedName j.id j.fmt a) := ⟨a, ha, rfl⟩
    rw [C46_any_schedule_partial js disk hbatch hdisk sched hend j hjm _ ho, alone_effect (hbatch.1 j hjm).1 disk _ ho,
      conversion_effect t1 t2]
  refine ⟨?_, ?_⟩
  · intro tr htr
    rw [← hid, ← hfmt, hfinal _ (hout tr htr)]
    have hnd' : ((waveWrites j.id j.fmt s.w.out).map Prod.fst).Nodup := by
      unfold waveWrites
      rw [List.map_map, hid, hfmt]
      exact hnd
    exact writeAll_kept _ _ hnd' (convertedName j.id j.fmt tr.start, [.wave tr]) (List.mem_map.mpr ⟨tr, htr, rfl⟩)
  · intro a ha hother
    rw [← hid, ← hfmt, hfinal a ha, writeAll_else]
    intro hmem
    unfold waveWrites at hmem
    rw [List.map_map] at hmem
    obtain ⟨tr, htr, e⟩ := List.mem_map.mp hmem
    exact hother tr htr (convertedName_injective _ _ (hout tr htr) ha e)

/-- **C97.** Let `gemconvert` be called with documented short options (none of `-h`, `-t`, `-c`), with a file length that is a whole number of seconds (a day, or the hours typed after `-l`), on a folder of raw
files whose wanted serial numbers have three characters. Let `SN` be one of them, let each day of its files hold a recording without defects and without gaps, and let
these follow each other within 10 ms. Then the conversions are started, and if the output folders exist, then, however the conversions interleave, whatever becomes
of the other instruments and whatever was on the disk: when all have ended, the output folder holds files of `SN` which together have a sample for each 10 ms
from the first whole second to the end of the record, once, with the values of the record; and no other file of `SN` has changed. -/
theorem C97_command (ws : List Word) (hv : ∀ w ∈ ws, w.Valid) (hh : Word.flag 104 ∉ ws) (htest : Word.flag 116 ∉ ws)
    (hcodes : typedValue ws 99 = none) (hproc : 0 < typedProcesses ws) (m : Int) (hm : 0 < m)
    (hlength : LengthTyped (typedValue ws 108) m) (cli : CliEnv) (d : RawDisk) (dir : List Entry)
    (hdir : cli.listdir ((typedValue ws 105).getD (bytes "raw")) = some (dir.map Entry.name))
    (hthree : ∀ s, WantedSNs ws (dir.map Entry.name) s → s.length = 3)
    (SN : List Nat) (hwanted : WantedSNs ws (dir.map Entry.name) SN) (log : Entry → List Event) (ns : List Int)
    (hns : convertNums true dir SN [none] = .ok ns) (n : Int) (hn : pyInt SN = some n) (specs : Specs) (hspecs : gemSpecs n = .ok specs)
    (hfit : Reproduces d.fit) (hfit1 : ReproducesLines d.fit) (r0 : BlockSpan) (rs : List BlockSpan)
    (hblocks : List.Forall₂ (fun block r => ∃ first rest, CleanBlock d dir SN log block r first rest)
      (jobOf d.env dir SN ns 1 (1000000 * m) endOfTime).blocks (r0 :: rs))
    (horder : (r0 :: rs).IsChain fun x y => x.stop < y.start ∧ y.start - x.stop ≤ 1 / 100) (hpos : 1 ≤ r0.start)
    (hlong : 103 / 100 ≤ r0.stop - r0.start)
    (hfar : ∀ r ∈ r0 :: rs, 1000000 * r.stop + 1000000 * m + 86400000000 + 1000000 ≤ endOfTime) :
    ∃ jobs, gemconvert cli (ws.flatMap Word.typed) = .run jobs (typedProcesses ws) ∧
      ∀ (js : List (Proc FilePiece)), List.Forall₂ (IsConversion d.env dir) jobs js →
      (∀ j ∈ js, ∀ a c, Instr.segment a c ∈ j.todo → Datable a) →
      ∀ (disk : Disk FilePiece), (∀ k, k ∈ disk.dirs) →
      ∀ sched, (∀ j ∈ (runSchedule sched (js, disk)).1, j.todo = []) →
      ∃ (tr0 : Trace) (trs out : List Trace) (h : Int), List.Forall₂ TraceOver (r0 :: rs) (tr0 :: trs) ∧
        h % 1000000 = 0 ∧ 10000 * tr0.start ≤ h ∧ h < 10000 * tr0.start + 1000000 ∧
        samples out = from_ h (fillIn (samples (tr0 :: trs))) ∧
        (samples out).IsChain (fun x y => y.1 = x.1 + 1) ∧ (samples out).head?.map Prod.fst = some (h / 10000) ∧
        (∃ q r, (samples out).getLast? = some q ∧ (r0 :: rs).getLast? = some r ∧
          r.stop - 25 / 1000 < (q.1 : Rat) / 100 ∧ (q.1 : Rat) / 100 ≤ r.stop - 5 / 1000) ∧
        (∀ tr ∈ out, (runSchedule sched (js, disk)).2.get (.converted, convertedName (bytes "." ++ SN ++ bytes "..HDF")
          ((typedValue ws 102).getD (bytes "MSEED")) tr.start) = some [.wave tr]) ∧
        ∀ a, Datable a → (∀ tr ∈ out, tr.start / 100 ≠ a / 100) →
          (runSchedule sched (js, disk)).2.get (.converted, convertedName (bytes "." ++ SN ++ bytes "..HDF")
            ((typedValue ws 102).getD (bytes "MSEED")) a) =
          disk.get (.converted, convertedName (bytes "." ++ SN ++ bytes "..HDF") ((typedValue ws 102).getD (bytes "MSEED")) a) := by
  have hL : (1000000 : Int) * m = 10000 * (100 * m) := by ring
  have hfar' : ∀ r ∈ r0 :: rs, 1000000 * r.stop + 10000 * ((100 * m : Int) : Rat) + ((⌈86400000000 * (1 : Rat)⌉ : Int) : Rat) + 1000000 ≤ endOfTime := by
    intro r hr
    have := hfar r hr
    rw [show ⌈86400000000 * (1 : Rat)⌉ = 86400000000 by decide +kernel]
    push_cast
    linarith
  rw [hL] at hblocks
  obtain ⟨tr0, trs, s, h, c1, c2, _, c4, c5, c6, c7, c8⟩ := C66_convert d dir SN log [none] ns hns n hn specs hspecs hfit hfit1 1 (100 * m) endOfTime
    (by norm_num) (by omega) r0 rs hblocks (horder.imp fun _ _ h => h.1) hpos hlong hfar'
  obtain ⟨c9, c10, c11⟩ := c8 (horder.imp fun _ _ h => h.2)
  rw [← hL] at c2
  obtain ⟨jobs, j1, j2⟩ := command_files ws hv hh htest hcodes hproc m hm (lengthTyped_micros hlength) cli d.env dir hdir hthree SN hwanted ns hns s c2
    (c9.imp fun _ _ h => .inl h)
  exact ⟨jobs, j1, fun js hjs hdat disk hdisk sched hend =>
    ⟨tr0, trs, s.w.out, h, c1, c4, c5, c6, c7, c9, c10, c11, j2 js hjs hdat disk hdisk sched hend⟩⟩

/-! ## An example: `gemconvert -l 1 -p 2` -/

theorem consecutive_range {s : List (Int × Int)} (hc : s.IsChain fun x y => y.1 = x.1 + 1) {a : Int} {b : Int × Int}
    (ha : s.head?.map Prod.fst = some a) (hb : s.getLast? = some b) : ∀ q ∈ s, a ≤ q.1 ∧ q.1 ≤ b.1 := by
  have hp : s.Pairwise fun x y => x.1 < y.1 := by
    have : Trans (fun x y : Int × Int => x.1 < y.1) (fun x y : Int × Int => x.1 < y.1) (fun x y : Int × Int => x.1 < y.1) :=
      ⟨fun h1 h2 => lt_trans h1 h2⟩
    exact List.isChain_iff_pairwise.mp (hc.imp fun _ _ h => by omega)
  intro q hq
  constructor
  · cases s with
    | nil => simp at hq
    | cons x l =>
      simp only [List.head?_cons, Option.map_some, Option.some.injEq] at ha
      rcases List.mem_cons.mp hq with rfl | hq
      · omega
      · have := (List.pairwise_cons.mp hp).1 q hq
        omega
  · obtain ⟨l, rfl⟩ := List.getLast?_eq_some_iff.mp hb
    rcases List.mem_append.mp hq with hq | hq
    · exact ((List.pairwise_append.mp hp).2.2 q hq b (by simp)).le
    · rw [List.mem_singleton.mp hq]

/-- The conversion that ends with `s`. -/
def plainProc (a : ConvArgs) (s : CState) : Proc FilePiece :=
  { sn := a.sn, id := traceId a, fmt := a.format, gpsFile := none, metaFile := none,
    todo := procInstrs (.rows []) (.rows []) (s.w.out.map fun tr => .segment tr.start (.wave tr)) }

theorem plain_carries (out : List Trace) : Carries (out.map fun tr => .segment tr.start (.wave tr)) out := by
  refine ⟨?_, ?_⟩
  · rw [List.filterMap_map]
    exact (List.filterMap_congr fun _ _ => rfl).trans List.filterMap_some
  · intro x hx
    obtain ⟨tr, _, rfl⟩ := List.mem_map.mp hx
    exact .inr ⟨tr, rfl⟩

def shortWords : List Word := [.value 108 (bytes "1"), .value 112 (bytes "2")]

theorem shortWords_length : LengthTyped (typedValue shortWords 108) 3600 :=
  .inr ⟨⟨false, 1, [], by simp⟩, by decide +kernel, by decide +kernel⟩

def shortCli : CliEnv := ⟨fun f => if f = bytes "raw" then some (longDir.map Entry.name) else none, fun _ => none⟩

/-- All hypotheses of `C97_command` can be met, those on the conversions too: two blocks of an instrument, one hour per file, two processes. The conversion
is not empty, and the files left hold consecutive samples. -/
example : ∃ (js : List (Proc FilePiece)) (out : List Trace),
    gemconvert shortCli (shortWords.flatMap Word.typed) = .run [jobFor shortWords (bytes "012") [] [] []] 2 ∧
    List.Forall₂ (IsConversion longDisk.env longDir) [jobFor shortWords (bytes "012") [] [] []] js ∧
    (∀ j ∈ js, ∀ a c, Instr.segment a c ∈ j.todo → Datable a) ∧ out ≠ [] ∧
    ∀ (disk : Disk FilePiece), (∀ k, k ∈ disk.dirs) → ∀ sched, (∀ j ∈ (runSchedule sched (js, disk)).1, j.todo = []) →
      ∃ out : List Trace, (samples out).IsChain (fun x y => y.1 = x.1 + 1) ∧ ∀ tr ∈ out,
        (runSchedule sched (js, disk)).2.get (.converted, convertedName (bytes ".012..HDF") (bytes "MSEED") tr.start) = some [.wave tr] := by
  have hv : ∀ w ∈ shortWords, w.Valid := by
    intro w hw
    unfold shortWords at hw
    simp only [List.mem_cons, List.not_mem_nil, or_false] at hw
    rcases hw with rfl | rfl
    · show 108 ∈ bytes "isxcoflp"; decide +kernel
    · show 112 ∈ bytes "isxcoflp"; decide +kernel
  have hw : ∀ s, WantedSNs shortWords (longDir.map Entry.name) s ↔ s = bytes "012" := by
    intro s
    have h1 : typedValue shortWords 115 = none := by decide +kernel
    have h2 : typedValue shortWords 120 = none := by decide +kernel
    unfold WantedSNs
    rw [h1, h2]
    simp only [reduceCtorEq, false_and, exists_false, not_false_eq_true, and_true]
    constructor
    · rintro ⟨f, hf, rfl⟩
      revert f
      decide +kernel
    · rintro rfl
      exact ⟨bytes "FILE0001.012", by decide +kernel, by decide +kernel⟩
  have hblocks : List.Forall₂ (fun block r => ∃ first rest, CleanBlock longDisk longDir (bytes "012") longOf block r first rest)
      (jobOf longDisk.env longDir (bytes "012") [1, 13] 1 (1000000 * 3600) endOfTime).blocks [longSpan 0, longSpan 2] := by
    have : (jobOf longDisk.env longDir (bytes "012") [1, 13] 1 (1000000 * 3600) endOfTime).blocks = [[1], [13]] := by decide +kernel
    rw [this]
    exact .cons ⟨_, _, long_block 0 (.inl rfl) 1 _ (.inl ⟨rfl, rfl, rfl⟩)⟩
      (.cons ⟨_, _, long_block 2 (.inr rfl) 13 _ (.inr ⟨rfl, rfl, rfl⟩)⟩ .nil)
  have hns : convertNums true longDir (bytes "012") [none] = .ok [1, 13] := by decide +kernel
  have hn : pyInt (bytes "012") = some 12 := by decide +kernel
  have hspecs : gemSpecs 12 = .ok (specsOf (7 / 10)) := by decide +kernel
  have horder : [longSpan 0, longSpan 2].IsChain fun x y => x.stop < y.start ∧ y.start - x.stop ≤ 1 / 100 := by
    unfold longSpan
    simp only [List.isChain_cons_cons, List.isChain_singleton]
    norm_num
  have hpos : 1 ≤ (longSpan 0).start := by unfold longSpan; norm_num
  have hlong : 103 / 100 ≤ (longSpan 0).stop - (longSpan 0).start := by unfold longSpan; norm_num
  have hlen := shortWords_length
  obtain ⟨tr0, trs, s, h, c1, c2, _, c4, c5, c6, c7, c8⟩ := C66_convert longDisk longDir (bytes "012") longOf [none] [1, 13] hns 12 hn
    (specsOf (7 / 10)) hspecs idealFit_reproduces idealFit_line 1 360000 endOfTime (by decide) (by decide) (longSpan 0) [longSpan 2]
    hblocks (horder.imp fun _ _ h => h.1) hpos hlong
    (by
      intro r hr
      simp only [List.mem_cons, List.not_mem_nil, or_false] at hr
      rcases hr with rfl | rfl <;> unfold longSpan endOfTime <;> norm_num)
  obtain ⟨d1, d2, q, r, d3, d4, d5, d6⟩ := c8 (horder.imp fun _ _ h => h.2)
  have hr : r = longSpan 2 := by simpa using d4.symm
  subst hr
  have hrange := consecutive_range d1 d2 d3
  obtain ⟨_, N, hN⟩ := c2
  have hrun := hN N (le_refl _)
  unfold convertDir at hrun
  rw [hns] at hrun
  have hwr : (convertLoops (jobOf longDisk.env longDir (bytes "012") [1, 13] 1 (1000000 * 3600) endOfTime) none N).written = s.w.out := by
    have hrun' : convertLoops (jobOf longDisk.env longDir (bytes "012") [1, 13] 1 (1000000 * 3600) endOfTime) none N = .done s := hrun
    rw [hrun']
    rfl
  have hnonempty := (written_parted (jobOf longDisk.env longDir (bytes "012") [1, 13] 1 (1000000 * 3600) endOfTime) (l := 360000) (by decide) rfl none
    (by simp) N).1
  rw [hwr] at hnonempty
  have hdat : ∀ tr ∈ s.w.out, Datable tr.start := by
    intro tr htr
    obtain ⟨x, hx⟩ := start_mem_stamps (hnonempty tr htr)
    have hx' := hrange _ (List.mem_flatMap.mpr ⟨tr, htr, hx⟩)
    have hlow : (157783680000 : Int) ≤ h / 10000 := by
      cases c1 with
      | cons g _ =>
        have e := g.start
        unfold Trace.time longSpan at e
        rw [abs_le] at e
        have e1 := e.1
        push_cast at e1
        have : (157783680000 : Rat) ≤ tr0.start := by linarith
        have : (157783680000 : Int) ≤ tr0.start := by exact_mod_cast this
        omega
    have hup : q.1 < 157783680000 + 8640000 := by
      unfold longSpan at d6
      simp only at d6
      have : (q.1 : Rat) < 157783680000 + 8640000 := by push_cast at d6; linarith
      exact_mod_cast this
    have hday : tr.start / 100 / 86400 = 18262 := by
      simp only at hx'
      omega
    unfold Datable
    rw [hday]
    decide +kernel
  have hLL : (10000 * 360000 : Int) = 1000000 * 3600 := by norm_num
  rw [hLL] at hN
  have hconv : IsConversion longDisk.env longDir (jobFor shortWords (bytes "012") [] [] [])
      (plainProc (jobFor shortWords (bytes "012") [] [] []) s) := by
    refine ⟨rfl, rfl, rfl, ⟨rfl, rfl⟩, .inr ⟨1000000 * 3600, .done s, ?_, ⟨by simp, N, hN⟩, [], [], _, rfl, plain_carries _⟩⟩
    exact (lengthTyped_micros hlen).trans (by norm_num)
  have hdat' : ∀ j ∈ [plainProc (jobFor shortWords (bytes "012") [] [] []) s], ∀ a c, Instr.segment a c ∈ j.todo → Datable a := by
    intro j hj a c hc
    rw [List.mem_singleton.mp hj] at hc
    unfold plainProc procInstrs at hc
    rcases List.mem_append.mp hc with hc | hc
    · simp at hc
    · obtain ⟨tr, htr, e⟩ := List.mem_map.mp hc
      cases e
      exact hdat tr htr
  obtain ⟨jobs, j1, j2⟩ := C97_command shortWords hv (by simp [shortWords]) (by simp [shortWords]) (by decide +kernel) (by decide +kernel) 3600 (by decide) hlen shortCli longDisk longDir
    (by decide +kernel) (fun s hs => by rw [(hw s).mp hs]; decide +kernel) (bytes "012") ((hw _).mpr rfl) longOf [1, 13] hns 12 hn (specsOf (7 / 10)) hspecs
    idealFit_reproduces idealFit_line (longSpan 0) [longSpan 2] hblocks horder hpos hlong
    (by
      intro r hr
      simp only [List.mem_cons, List.not_mem_nil, or_false] at hr
      rcases hr with rfl | rfl <;> unfold longSpan endOfTime <;> norm_num)
  have hrun2 : gemconvert shortCli (shortWords.flatMap Word.typed) = .run [jobFor shortWords (bytes "012") [] [] []] 2 := by decide +kernel
  have hjobs : jobs = [jobFor shortWords (bytes "012") [] [] []] := by
    rw [hrun2] at j1
    simp only [CliResult.run.injEq] at j1
    exact j1.1.symm
  subst hjobs
  refine ⟨_, s.w.out, hrun2, .cons hconv .nil, hdat', ?_, ?_⟩
  · intro e
    rw [e] at d3
    simp [samples] at d3
  · intro disk hdisk sched hend
    obtain ⟨_, _, out, _, _, _, _, _, _, e1, _, _, e2, _⟩ := j2 _ (.cons hconv .nil) hdat' disk hdisk sched hend
    exact ⟨out, e1, e2⟩

end Gemlog
