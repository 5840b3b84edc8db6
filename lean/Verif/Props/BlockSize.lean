import Verif.Props.RestartsConvert

/-!
# The size of the blocks and of the output files (C127)

How many files are read at once and how long the written files are is a matter of memory and of taste, not of the recording.
-/

namespace Gemlog

/-- A session that does not start half way between two samples of the output determines its trace. -/
theorem session_trace_unique {s : Session} (hs : NotHalf (s.start * 100)) {a b : Trace} (ha : SessionTrace s a) (hb : SessionTrace s b) : a = b := by
  have h1 : a.start = b.start := by
    have e1 := abs_le.mp ha.start
    have e2 := abs_le.mp hb.start
    unfold Trace.time at e1 e2
    simp only [Nat.cast_zero, add_zero] at e1 e2
    by_contra hne
    rcases lt_or_gt_of_ne hne with h | h
    · have h' : (a.start : Rat) + 1 ≤ b.start := by exact_mod_cast h
      exact hs a.start (by linarith [e1.1, e1.2, e2.1, e2.2])
    · have h' : (b.start : Rat) + 1 ≤ a.start := by exact_mod_cast h
      exact hs b.start (by linarith [e1.1, e1.2, e2.1, e2.2])
  have h2 : a.data.length = b.data.length := by
    have := ha.length.trans hb.length.symm
    exact_mod_cast this
  have h3 : a.data = b.data := by
    refine List.ext_getElem h2 fun k hk hk' => ?_
    rw [ha.values hs k hk, hb.values hs k hk']
    unfold Trace.time
    rw [h1]
  cases a; cases b
  simp only at h1 h3
  rw [h1, h3]

theorem session_traces_unique : ∀ {ss : List Session} (_ : ∀ s ∈ ss, NotHalf (s.start * 100)) {a b : List Trace}
    (_ : List.Forall₂ SessionTrace ss a) (_ : List.Forall₂ SessionTrace ss b), a = b
  | [], _, _, _, .nil, .nil => rfl
  | s :: ss, hs, _, _, .cons a1 a2, .cons b1 b2 => by
    rw [session_trace_unique (hs s (List.mem_cons_self)) a1 b1, session_traces_unique (fun x hx => hs x (List.mem_cons_of_mem _ hx)) a2 b2]

/-- The first whole second from a moment on. -/
theorem first_second_unique {a h h' : Int} (h1 : h % 1000000 = 0) (h2 : a ≤ h) (h3 : h < a + 1000000)
    (h1' : h' % 1000000 = 0) (h2' : a ≤ h') (h3' : h' < a + 1000000) : h = h' := by
  omega

/-- **C127.** Convert one folder twice, with blocks of different sizes (`blockdays`), with output files of different lengths (`l`, in samples) and
with different ends (`t2`, after all data). If each block holds whole sessions both times — the same sessions, in the same order, none starting
exactly half way between two samples of the output — both conversions end normally and write the same samples: the same times with the same values. -/
theorem C127_samples (d : RawDisk) (dir : List Entry) (SN : List Nat) (log : Entry → ClockedFile) (nums : List (Option Int)) (ns : List Int)
    (hns : convertNums true dir SN nums = .ok ns) (n : Int) (hn : pyInt SN = some n) (specs : Specs) (hspecs : gemSpecs n = .ok specs)
    (hfit : Reproduces d.fit) (hfit1 : ReproducesLines d.fit) (s0 : Session) (ss : List Session)
    (horder : (s0 :: ss).IsChain fun x y => x.stop < y.start) (hpos : 1 ≤ s0.start) (hlong : 103 / 100 ≤ s0.stop - s0.start)
    (hhalf : ∀ s ∈ s0 :: ss, NotHalf (s.start * 100))
    (blockdays blockdays' : Rat) (l l' t2 t2' : Int) (hb : 0 < blockdays) (hb' : 0 < blockdays') (hl : 0 < l) (hl' : 0 < l')
    (sss sss' : List (List Session)) (hss : sss.flatten = s0 :: ss) (hss' : sss'.flatten = s0 :: ss)
    (hblocks : List.Forall₂ (BlockOfSessions d dir SN log) (jobOf d.env dir SN ns blockdays (10000 * l) t2).blocks sss)
    (hblocks' : List.Forall₂ (BlockOfSessions d dir SN log) (jobOf d.env dir SN ns blockdays' (10000 * l') t2').blocks sss')
    (hfar : ∀ r ∈ s0 :: ss, 1000000 * r.stop + 10000 * l + ⌈86400000000 * blockdays⌉ + 1000000 ≤ t2)
    (hfar' : ∀ r ∈ s0 :: ss, 1000000 * r.stop + 10000 * l' + ⌈86400000000 * blockdays'⌉ + 1000000 ≤ t2') :
    ∃ s s', Settles (convertDir d.env true dir SN nums blockdays (10000 * l) none t2) (.done s) ∧
      Settles (convertDir d.env true dir SN nums blockdays' (10000 * l') none t2') (.done s') ∧
      samples s.w.out = samples s'.w.out := by
  obtain ⟨tr0, trs, s, h, c1, c2, _, c4, c5, c6, c7⟩ := C100_convert d dir SN log nums ns hns n hn specs hspecs hfit hfit1 blockdays l t2 hb hl
    sss s0 ss hss hblocks horder hpos hlong hfar
  obtain ⟨tr0', trs', s', h', c1', c2', _, c4', c5', c6', c7'⟩ := C100_convert d dir SN log nums ns hns n hn specs hspecs hfit hfit1 blockdays' l' t2'
    hb' hl' sss' s0 ss hss' hblocks' horder hpos hlong hfar'
  have e := session_traces_unique hhalf c1 c1'
  rw [List.cons.injEq] at e
  obtain ⟨rfl, rfl⟩ := e
  refine ⟨s, s', c2, c2', ?_⟩
  rw [c7, c7', first_second_unique c4 c5 c6 c4' c5' c6']

theorem sess_blocks2 : List.Forall₂ (BlockOfSessions sessDisk sessDir (bytes "012") sessOf) [[1, 2], [30]]
    [[sessSpan 0, sessSpan 20], [sessSpan 40]] := by
  have h := sess_blocks
  cases h with
  | cons h1 h2 => cases h2 with
    | cons _ h3 => exact .cons h1 h3

theorem sess_half (s : Nat) (_ : s = 0 ∨ s = 20 ∨ s = 40) : NotHalf ((sessSpan s).start * 100) := by
  intro k hk
  unfold sessSpan at hk
  have h : ((1577836800 + s : Rat) + 1024 / 1000000 * (893 / 100)) * 100 * 1000000 = ((k : Rat) + 1 / 2) * 1000000 := by rw [hk]
  have h2 : (157783680000000000 + 100000000 * s + 914432 : Int) = 1000000 * k + 500000 := by
    have : (157783680000000000 + 100000000 * s + 914432 : Rat) = 1000000 * k + 500000 := by linarith
    exact_mod_cast this
  omega

/-- The hypotheses of `C127_samples` hold for three sessions on files 1, 2 and 30: blocks of a day with files of an hour, blocks of two days with
files of a day. -/
example : ∃ s s',
    Settles (convertDir sessDisk.env true sessDir (bytes "012") [none] 1 (10000 * 360000) none endOfTime) (.done s) ∧
    Settles (convertDir sessDisk.env true sessDir (bytes "012") [none] 2 (10000 * 8640000) none endOfTime) (.done s') ∧
    samples s.w.out = samples s'.w.out := by
  have hb : (jobOf sessDisk.env sessDir (bytes "012") [1, 2, 30] 1 (10000 * 360000) endOfTime).blocks = [[1, 2], [], [30]] := by decide +kernel
  have hb' : (jobOf sessDisk.env sessDir (bytes "012") [1, 2, 30] 2 (10000 * 8640000) endOfTime).blocks = [[1, 2], [30]] := by decide +kernel
  have hall : ∀ r ∈ [sessSpan 0, sessSpan 20, sessSpan 40], ∃ s, r = sessSpan s ∧ (s = 0 ∨ s = 20 ∨ s = 40) := by
    intro r hr
    simp only [List.mem_cons, List.not_mem_nil, or_false] at hr
    rcases hr with rfl | rfl | rfl
    · exact ⟨0, rfl, by omega⟩
    · exact ⟨20, rfl, by omega⟩
    · exact ⟨40, rfl, by omega⟩
  exact C127_samples sessDisk sessDir (bytes "012") sessOf [none] [1, 2, 30] sess_nums 12 (by decide +kernel)
    (specsOf (7 / 10)) (by decide +kernel) idealFit_reproduces idealFit_line (sessSpan 0) [sessSpan 20, sessSpan 40]
    (by unfold sessSpan; simp only [List.isChain_cons_cons, List.isChain_singleton]; norm_num) (by unfold sessSpan; norm_num)
    (by unfold sessSpan; norm_num) (by intro r hr; obtain ⟨s, rfl, h⟩ := hall r hr; exact sess_half s h)
    1 2 360000 8640000 endOfTime endOfTime (by decide) (by decide) (by decide) (by decide)
    [[sessSpan 0, sessSpan 20], [], [sessSpan 40]] [[sessSpan 0, sessSpan 20], [sessSpan 40]] rfl rfl
    (by rw [hb]; exact sess_blocks) (by rw [hb']; exact sess_blocks2)
    (by intro r hr; obtain ⟨s, rfl, h⟩ := hall r hr; rcases h with rfl | rfl | rfl <;> unfold sessSpan endOfTime <;> norm_num)
    (by intro r hr; obtain ⟨s, rfl, h⟩ := hall r hr; rcases h with rfl | rfl | rfl <;> unfold sessSpan endOfTime <;> norm_num)

/-! ## Blocks that part a recording -/

theorem consecutive_eq : ∀ {l : List (Int × Int)} {a : Int}, l.IsChain (fun x y => y.1 = x.1 + 1) → l.head?.map Prod.fst = some a →
    l.map Prod.fst = (List.range l.length).map fun i : Nat => a + i
  | [], _, _, h => by simp at h
  | [x], a, _, h => by
    simp only [List.head?_cons, Option.map_some, Option.some.injEq] at h
    subst h
    simp
  | x :: y :: l, a, hc, h => by
    simp only [List.head?_cons, Option.map_some, Option.some.injEq] at h
    subst h
    rw [List.isChain_cons_cons] at hc
    have ih := consecutive_eq (l := y :: l) (a := x.1 + 1) hc.2 (by simp [hc.1])
    rw [List.map_cons, ih, List.length_cons (a := x), List.range_succ_eq_map, List.map_cons, List.map_map]
    simp only [Nat.cast_zero, add_zero]
    congr 1
    apply List.map_congr_left
    intro i _
    simp only [Function.comp_apply, Nat.succ_eq_add_one]
    push_cast
    ring

theorem consecutive_last {l : List (Int × Int)} {a : Int} (hc : l.IsChain fun x y => y.1 = x.1 + 1) (ha : l.head?.map Prod.fst = some a)
    {q : Int × Int} (hq : l.getLast? = some q) : q.1 = a + l.length - 1 := by
  have h := consecutive_eq hc ha
  have h1 : (l.map Prod.fst).getLast? = some q.1 := by rw [List.getLast?_map, hq]; rfl
  rw [h, List.getLast?_map, List.getLast?_range] at h1
  have hne : l.length ≠ 0 := by
    intro h0
    rw [List.length_eq_zero_iff] at h0
    subst h0
    simp at hq
  rw [if_neg hne] at h1
  simp only [Option.map_some, Option.some.injEq] at h1
  omega

/-- **C127.** Convert one folder twice, with blocks of different sizes, output files of different lengths and different ends after all data; the
folder holds one recording without gaps, which the blocks may part anywhere (each block with its own clock offset and rate, as fitted to its own
fixes; neighbouring blocks at most 10 ms apart), starting and ending at the same times both times. Then both conversions end normally, and write
samples at the same times, except that one of them may have one more sample at the end. -/
theorem C127_times (d : RawDisk) (dir : List Entry) (SN : List Nat) (log log' : Entry → List Event) (nums : List (Option Int)) (ns : List Int)
    (hns : convertNums true dir SN nums = .ok ns) (n : Int) (hn : pyInt SN = some n) (specs : Specs) (hspecs : gemSpecs n = .ok specs)
    (hfit : Reproduces d.fit) (hfit1 : ReproducesLines d.fit)
    (blockdays blockdays' : Rat) (l l' t2 t2' : Int) (hb : 0 < blockdays) (hb' : 0 < blockdays') (hl : 0 < l) (hl' : 0 < l')
    (r0 r0' : BlockSpan) (rs rs' : List BlockSpan)
    (hblocks : List.Forall₂ (fun block r => ∃ first rest, CleanBlock d dir SN log block r first rest)
      (jobOf d.env dir SN ns blockdays (10000 * l) t2).blocks (r0 :: rs))
    (hblocks' : List.Forall₂ (fun block r => ∃ first rest, CleanBlock d dir SN log' block r first rest)
      (jobOf d.env dir SN ns blockdays' (10000 * l') t2').blocks (r0' :: rs'))
    (horder : (r0 :: rs).IsChain fun x y => x.stop < y.start ∧ y.start - x.stop ≤ 1 / 100)
    (horder' : (r0' :: rs').IsChain fun x y => x.stop < y.start ∧ y.start - x.stop ≤ 1 / 100)
    (hpos : 1 ≤ r0.start) (hlong : 103 / 100 ≤ r0.stop - r0.start) (hlong' : 103 / 100 ≤ r0'.stop - r0'.start)
    (hhalf : NotHalf (r0.start * 100)) (hstart : r0'.start = r0.start)
    (hstop : (r0' :: rs').getLast?.map BlockSpan.stop = (r0 :: rs).getLast?.map BlockSpan.stop)
    (hfar : ∀ r ∈ r0 :: rs, 1000000 * r.stop + 10000 * l + ⌈86400000000 * blockdays⌉ + 1000000 ≤ t2)
    (hfar' : ∀ r ∈ r0' :: rs', 1000000 * r.stop + 10000 * l' + ⌈86400000000 * blockdays'⌉ + 1000000 ≤ t2') :
    ∃ s s', Settles (convertDir d.env true dir SN nums blockdays (10000 * l) none t2) (.done s) ∧
      Settles (convertDir d.env true dir SN nums blockdays' (10000 * l') none t2') (.done s') ∧
      (samples s.w.out).IsChain (fun x y => y.1 = x.1 + 1) ∧
      ((samples s.w.out).map Prod.fst <+: (samples s'.w.out).map Prod.fst ∧ (samples s'.w.out).length ≤ (samples s.w.out).length + 1 ∨
        (samples s'.w.out).map Prod.fst <+: (samples s.w.out).map Prod.fst ∧ (samples s.w.out).length ≤ (samples s'.w.out).length + 1) := by
  obtain ⟨tr0, trs, s, h, c1, c2, _, c4, c5, c6, _, c8⟩ := C66_convert d dir SN log nums ns hns n hn specs hspecs hfit hfit1 blockdays l t2 hb hl
    r0 rs hblocks (horder.imp fun _ _ h => h.1) hpos hlong hfar
  obtain ⟨tr0', trs', s', h', c1', c2', _, c4', c5', c6', _, c8'⟩ := C66_convert d dir SN log' nums ns hns n hn specs hspecs hfit hfit1
    blockdays' l' t2' hb' hl' r0' rs' hblocks' (horder'.imp fun _ _ h => h.1) (by rw [hstart]; exact hpos) hlong' hfar'
  obtain ⟨k1, k2, q, r, k3, k4, k5, k6⟩ := c8 (horder.imp fun _ _ h => h.2)
  obtain ⟨k1', k2', q', r', k3', k4', k5', k6'⟩ := c8' (horder'.imp fun _ _ h => h.2)
  have hr : r'.stop = r.stop := by
    rw [k4, k4'] at hstop
    simpa using hstop
  have h1 : tr0'.start = tr0.start := by
    cases c1 with
    | cons ha _ => cases c1' with
      | cons ha' _ =>
        have e1 := abs_le.mp ha.start
        have e2 := abs_le.mp ha'.start
        rw [hstart] at e2
        unfold Trace.time at e1 e2
        simp only [Nat.cast_zero, add_zero] at e1 e2
        by_contra hne
        rcases lt_or_gt_of_ne hne with h | h
        · have h' : (tr0'.start : Rat) + 1 ≤ tr0.start := by exact_mod_cast h
          exact hhalf tr0'.start (by linarith [e1.1, e1.2, e2.1, e2.2])
        · have h' : (tr0.start : Rat) + 1 ≤ tr0'.start := by exact_mod_cast h
          exact hhalf tr0.start (by linarith [e1.1, e1.2, e2.1, e2.2])
  rw [h1] at c5' c6'
  have hh := first_second_unique c4 c5 c6 c4' c5' c6'
  subst hh
  refine ⟨s, s', c2, c2', k1, ?_⟩
  have l1 := consecutive_last k1 k2 k3
  have l2 := consecutive_last k1' k2' k3'
  rw [hr] at k5' k6'
  have m1 : q.1 ≤ q'.1 + 1 := by
    by_contra hc
    have : (q'.1 : Rat) + 2 ≤ q.1 := by exact_mod_cast (by omega : q'.1 + 2 ≤ q.1)
    linarith
  have m2 : q'.1 ≤ q.1 + 1 := by
    by_contra hc
    have : (q.1 : Rat) + 2 ≤ q'.1 := by exact_mod_cast (by omega : q.1 + 2 ≤ q'.1)
    linarith
  have pre : ∀ {m m' : Nat}, m ≤ m' → (List.range m).map (fun i : Nat => h / 10000 + (i : Int)) <+: (List.range m').map fun i : Nat => h / 10000 + (i : Int) := by
    intro m m' hm
    refine List.IsPrefix.map _ ?_
    obtain ⟨e, rfl⟩ := Nat.exists_eq_add_of_le hm
    rw [List.range_add]
    exact List.prefix_append _ _
  rw [consecutive_eq k1 k2, consecutive_eq k1' k2']
  rcases Nat.le_total (samples s.w.out).length (samples s'.w.out).length with hc | hc
  · exact .inl ⟨pre hc, by omega⟩
  · exact .inr ⟨pre hc, by omega⟩

/-! ## Two files of one recording, in one block and in two -/

def contSample (i : Nat) : Event := ⟨(1953 + 24 * i : Nat), .sample (.ofNat (1953 + 24 * i)) 1⟩

def contFixes : List Event :=
  [longFix 0 12 ⟨false, 3526, bytes "75", by decide +kernel⟩, longFix 0 13 ⟨false, 4503, bytes "3125", by decide +kernel⟩,
   longFix 0 14 ⟨false, 5479, bytes "875", by decide +kernel⟩, longFix 0 15 ⟨false, 6456, bytes "4375", by decide +kernel⟩,
   longFix 0 16 ⟨false, 7433, bytes "0", by decide +kernel⟩, longFix 0 17 ⟨false, 217, bytes "5625", by decide +kernel⟩,
   longFix 0 18 ⟨false, 1194, bytes "125", by decide +kernel⟩, longFix 0 19 ⟨false, 2170, bytes "6875", by decide +kernel⟩,
   longFix 0 20 ⟨false, 3147, bytes "25", by decide +kernel⟩, longFix 0 21 ⟨false, 4123, bytes "8125", by decide +kernel⟩]

def contStatus : List Event :=
  [⟨7000, .status (.ofNat 7000) (.ofNat 4) (.ofNat 20) (.ofNat 0) (.ofNat 0) 1 2 3 4 1 6 7⟩,
   ⟨10000, .status (.ofNat 1808) (.ofNat 4) (.ofNat 20) (.ofNat 0) (.ofNat 0) 1 2 3 4 1 6 7⟩]

/-- Two more seconds of samples, and fixes, which continue `longLog 0`. -/
def contLog : List Event :=
  [⟨0, .other (bytes "#GemCSV0.91")⟩] ++ (List.range 82).map contSample ++ (contStatus ++ contFixes)

theorem printed_cont {rest : List Event} (hr : ∀ prev, TimesPrinted prev rest) : ∀ (L : List Nat) (prev : Option Rat),
    (∀ i ∈ L, 1953 + 24 * i < 8192) → TimesPrinted prev (L.map contSample ++ rest)
  | [], prev, _ => hr prev
  | i :: L, prev, h => by
    rw [List.map_cons, List.cons_append]
    unfold contSample
    simp only [TimesPrinted]
    have h1 : 1953 + 24 * i < 8192 := h i (by simp)
    have hv : (Dec.ofNat (1953 + 24 * i)).val = ((1953 + 24 * i : Nat) : Rat) := by simp [Dec.val, Dec.ofNat, digitsVal]
    refine ⟨⟨by rw [hv]; positivity, by rw [hv]; exact_mod_cast h1, 0, by rw [hv]; push_cast; ring⟩, ?_⟩
    exact printed_cont hr L _ fun i hi => h i (by simp [hi])

theorem contFix_at (k : Nat) (hk : 12 ≤ k ∧ k < 22) (ms : Dec) :
    ∃ t : Int, (longFix 0 k ms).FixAt t ∧ (t : Rat) = 1577836800 + 1024 / 1000000 * (longFix 0 k ms).T := by
  refine ⟨1577836800 + k, ?_, ?_⟩
  · unfold longFix Event.FixAt
    refine ⟨by decide +kernel, by decide +kernel, by decide +kernel, by decide, ((0 + k : Nat) : Int), ?_, ?_, ?_⟩
    · simp [Dec.val, Dec.ofNat, digitsVal]
    · exact ⟨by norm_num, by norm_num, ⟨by norm_num, true, by simp [LeapYear], by norm_num [almanac]⟩, by norm_num, by norm_num,
        ⟨by simp only; omega, by simp only; omega⟩⟩
    · obtain ⟨h1, h2⟩ := hk
      interval_cases k <;> decide +kernel
  · unfold longFix
    push_cast
    ring

theorem cont_sound : SoundFile 1577836800 (1024 / 1000000) contLog := by
  have w : ∀ (T s : Rat) (k : Int), 0 ≤ s → s < 8192 → T = s + k * 8192 → WrappedReading 8192 T s := fun T s k h1 h2 h3 => ⟨h1, h2, k, h3⟩
  have hfix : ∀ prev, TimesPrinted prev (contStatus ++ contFixes) := by
    intro prev
    unfold contStatus contFixes longFix
    simp only [TimesPrinted, List.cons_append, List.nil_append]
    refine ⟨w _ _ 0 ?_ ?_ ?_, w _ _ 1 ?_ ?_ ?_, w _ _ 1 ?_ ?_ ?_, w _ _ 1 ?_ ?_ ?_, w _ _ 1 ?_ ?_ ?_, w _ _ 1 ?_ ?_ ?_, w _ _ 1 ?_ ?_ ?_,
      w _ _ 2 ?_ ?_ ?_, w _ _ 2 ?_ ?_ ?_, w _ _ 2 ?_ ?_ ?_, w _ _ 2 ?_ ?_ ?_, w _ _ 2 ?_ ?_ ?_, trivial⟩ <;> decide +kernel
  refine ⟨?_, ?_, ?_, ?_, ?_, ?_, ?_, ?_, ?_, ?_, ?_⟩
  · decide +kernel
  · decide +kernel
  · unfold contLog
    rw [List.append_assoc, List.cons_append, List.nil_append]
    simp only [TimesPrinted]
    exact printed_cont hfix _ _ (by decide)
  · decide +kernel
  · decide +kernel
  · decide +kernel
  · decide +kernel
  · intro e he hf
    unfold contLog at he
    rcases List.mem_append.mp he with he | he
    · rcases List.mem_append.mp he with he | he
      · rw [List.mem_singleton] at he
        subst he
        exact absurd hf (by simp [Event.isFix])
      · obtain ⟨i, _, rfl⟩ := List.mem_map.mp he
        exact absurd hf (by simp [Event.isFix, contSample])
    · unfold contStatus contFixes at he
      simp only [List.cons_append, List.nil_append, List.mem_cons, List.not_mem_nil, or_false] at he
      rcases he with rfl | rfl | rfl | rfl | rfl | rfl | rfl | rfl | rfl | rfl | rfl | rfl
      · exact absurd hf (by simp [Event.isFix])
      · exact absurd hf (by simp [Event.isFix])
      all_goals exact contFix_at _ (by decide) _
  · decide +kernel
  · decide +kernel
  · decide +kernel

theorem cont_clean : CleanRecording 1577836800 (1024 / 1000000) [contLog] := by
  refine ⟨by norm_num, ⟨⟨cont_sound, ?_, ?_⟩, trivial⟩, ?_, ?_⟩
  · unfold NearStart; decide +kernel
  · decide +kernel
  · decide +kernel
  · intro x y z l h
    rw [List.flatMap_singleton, show sampleTimes contLog = 1953 :: 1977 :: (sampleTimes contLog).drop 2 by decide +kernel] at h
    simp only [List.cons.injEq] at h
    obtain ⟨rfl, rfl, -⟩ := h
    left; norm_num

theorem both_clean : CleanRecording 1577836800 (1024 / 1000000) [longLog 0, contLog] := by
  have h0 := long_clean 0 (.inl rfl)
  rw [Nat.cast_zero, add_zero] at h0
  refine ⟨h0.rate, ⟨h0.follow.1, ⟨cont_sound, ?_, ?_⟩, trivial⟩, ?_, ?_⟩
  · unfold NearStart; decide +kernel
  · decide +kernel
  · decide +kernel
  · intro x y z l h
    rw [show [longLog 0, contLog].flatMap sampleTimes = 0 :: 24 :: ([longLog 0, contLog].flatMap sampleTimes).drop 2 by decide +kernel] at h
    simp only [List.cons.injEq] at h
    obtain ⟨rfl, rfl, -⟩ := h
    left; norm_num

def part1 : Entry := ⟨bytes "FILE0001.012", 500, .str (bytes "012")⟩
def part2 : Entry := ⟨bytes "FILE0013.012", 500, .str (bytes "012")⟩

def partOf (e : Entry) : List Event := if e.name = bytes "FILE0001.012" then longLog 0 else contLog

noncomputable def partDisk : RawDisk :=
  ⟨fun e => textOf (partOf e), fun _ _ => .error .other, fun _ _ => .error .other, fun _ => .ok "012", fun _ => 0, [], [], false, 1800000000,
    idealFit, flatSpline⟩

/-- The span between two counts of the clock. -/
def partSpan (x y : Rat) : BlockSpan :=
  ⟨1577836800, 1024 / 1000000, 1577836800 + 1024 / 1000000 * (x + 893 / 100), 1577836800 + 1024 / 1000000 * (y + 893 / 100), fun _ => 7⟩

theorem partOf_1 : partOf part1 = longLog 0 := by unfold partOf; rw [if_pos (by decide +kernel)]
theorem partOf_2 : partOf part2 = contLog := by unfold partOf; rw [if_neg (by decide +kernel)]

theorem part_block1 : CleanBlock partDisk [part1, part2] (bytes "012") partOf [1] (partSpan 0 1944) part1 [] := by
  have h0 := long_clean 0 (.inl rfl)
  rw [Nat.cast_zero, add_zero] at h0
  refine ⟨by decide +kernel, fun _ _ => rfl, ?_, ⟨"0.91", by decide, ?_⟩, fun _ _ => ⟨_, rfl⟩, .inl rfl, ?_, ?_, ?_, ?_, ?_⟩ <;>
    (try rw [List.map_singleton]) <;> (try rw [partOf_1])
  · exact h0
  · exact ⟨_, _, rfl, congrArg LogLine.other (by decide +kernel)⟩
  · decide +kernel
  · decide +kernel
  · unfold partSpan; norm_num
  · decide +kernel
  · have hne : ¬ (trueRecord 1577836800 (1024 / 1000000) [longLog 0]).length < 2 := by decide +kernel
    rw [show partDisk.spline = flatSpline from rfl]
    unfold flatSpline
    rw [show (partSpan 0 1944).offset = 1577836800 from rfl, show (partSpan 0 1944).rate = 1024 / 1000000 from rfl, List.length_map, if_neg hne]
    rfl

theorem part_block2 : CleanBlock partDisk [part1, part2] (bytes "012") partOf [13] (partSpan 1953 3897) part2 [] := by
  refine ⟨by decide +kernel, fun _ _ => rfl, ?_, ⟨"0.91", by decide, ?_⟩, fun _ _ => ⟨_, rfl⟩, .inl rfl, ?_, ?_, ?_, ?_, ?_⟩ <;>
    (try rw [List.map_singleton]) <;> (try rw [partOf_2])
  · exact cont_clean
  · exact ⟨_, _, rfl, congrArg LogLine.other (by decide +kernel)⟩
  · decide +kernel
  · decide +kernel
  · unfold partSpan; norm_num
  · decide +kernel
  · have hne : ¬ (trueRecord 1577836800 (1024 / 1000000) [contLog]).length < 2 := by decide +kernel
    rw [show partDisk.spline = flatSpline from rfl]
    unfold flatSpline
    rw [show (partSpan 1953 3897).offset = 1577836800 from rfl, show (partSpan 1953 3897).rate = 1024 / 1000000 from rfl, List.length_map, if_neg hne]
    rfl

theorem part_block12 : CleanBlock partDisk [part1, part2] (bytes "012") partOf [1, 13] (partSpan 0 3897) part1 [part2] := by
  refine ⟨by decide +kernel, fun _ _ => rfl, ?_, ⟨"0.91", by decide, ?_⟩, fun _ _ => ⟨_, rfl⟩, .inl rfl, ?_, ?_, ?_, ?_, ?_⟩ <;>
    (try rw [List.map_cons, List.map_singleton, partOf_1, partOf_2])
  · exact both_clean
  · rw [partOf_1]; exact ⟨_, _, rfl, congrArg LogLine.other (by decide +kernel)⟩
  · decide +kernel
  · decide +kernel
  · unfold partSpan; norm_num
  · decide +kernel
  · have hne : ¬ (trueRecord 1577836800 (1024 / 1000000) [longLog 0, contLog]).length < 2 := by decide +kernel
    rw [show partDisk.spline = flatSpline from rfl]
    unfold flatSpline
    rw [show (partSpan 0 3897).offset = 1577836800 from rfl, show (partSpan 0 3897).rate = 1024 / 1000000 from rfl, List.length_map, if_neg hne]
    rfl

/-- The hypotheses of `C127_times` hold for two files of one recording, read in two blocks and in one. -/
example : ∃ s s',
    Settles (convertDir partDisk.env true [part1, part2] (bytes "012") [none] 1 (10000 * 360000) none endOfTime) (.done s) ∧
    Settles (convertDir partDisk.env true [part1, part2] (bytes "012") [none] 7 (10000 * 8640000) none endOfTime) (.done s') ∧
    (samples s.w.out).IsChain (fun x y => y.1 = x.1 + 1) ∧
      ((samples s.w.out).map Prod.fst <+: (samples s'.w.out).map Prod.fst ∧ (samples s'.w.out).length ≤ (samples s.w.out).length + 1 ∨
        (samples s'.w.out).map Prod.fst <+: (samples s.w.out).map Prod.fst ∧ (samples s.w.out).length ≤ (samples s'.w.out).length + 1) := by
  have hb : (jobOf partDisk.env [part1, part2] (bytes "012") [1, 13] 1 (10000 * 360000) endOfTime).blocks = [[1], [13]] := by decide +kernel
  have hb' : (jobOf partDisk.env [part1, part2] (bytes "012") [1, 13] 7 (10000 * 8640000) endOfTime).blocks = [[1, 13]] := by decide +kernel
  refine C127_times partDisk [part1, part2] (bytes "012") partOf partOf [none] [1, 13] (by decide +kernel) 12 (by decide +kernel)
    (specsOf (7 / 10)) (by decide +kernel) idealFit_reproduces idealFit_line 1 7 360000 8640000 endOfTime endOfTime (by decide) (by decide)
    (by decide) (by decide) (partSpan 0 1944) (partSpan 0 3897) [partSpan 1953 3897] []
    (by rw [hb]; exact .cons ⟨_, _, part_block1⟩ (.cons ⟨_, _, part_block2⟩ .nil))
    (by rw [hb']; exact .cons ⟨_, _, part_block12⟩ .nil)
    (by unfold partSpan; simp only [List.isChain_cons_cons, List.isChain_singleton]; norm_num) (List.isChain_singleton _)
    (by unfold partSpan; norm_num) (by unfold partSpan; norm_num) (by unfold partSpan; norm_num) ?_ rfl rfl ?_ ?_
  · intro k hk
    unfold partSpan at hk
    have h : ((1577836800 : Rat) + 1024 / 1000000 * (0 + 893 / 100)) * 100 * 1000000 = ((k : Rat) + 1 / 2) * 1000000 := by rw [hk]
    have h2 : (157783680000000000 + 914432 : Int) = 1000000 * k + 500000 := by
      have : (157783680000000000 + 914432 : Rat) = 1000000 * k + 500000 := by linarith
      exact_mod_cast this
    omega
  · intro r hr
    simp only [List.mem_cons, List.not_mem_nil, or_false] at hr
    rcases hr with rfl | rfl <;> unfold partSpan endOfTime <;> norm_num
  · intro r hr
    simp only [List.mem_cons, List.not_mem_nil, or_false] at hr
    subst hr
    unfold partSpan endOfTime; norm_num

end Gemlog
