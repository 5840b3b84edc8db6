import Verif.Lemmas.Runs
import Verif.Props.Convert

/-!
# C30 to C33, C53: windows, termination and the requested limits

`convertLoops j t1 n` is the conversion run with fuel `n`; it either is still running, has ended normally, or has
raised an exception after writing some segments. Statements about "every run" hold for every `n`.
-/

namespace Gemlog

/-- The segments a run has written when it ends. -/
def Run.written : Run CState → List Trace
  | .done s => s.w.out
  | .raised _ out => out
  | .running => []

theorem written_of_sat {Q : List Trace → Prop} {r : Run CState} (h : r.Sat (fun s => Q s.w.out) Q) (h0 : Q []) : Q r.written := by
  cases r with
  | done s => exact h
  | raised x out => exact h
  | running => exact h0

/-- All samples of the segment lie in one window `[k L, (k + 1) L)`. -/
def InOneWindow (L : Int) (tr : Trace) : Prop :=
  ∃ k : Int, ∀ q ∈ stamps tr.start tr.data, k * L ≤ 10000 * q.1 ∧ 10000 * q.1 < (k + 1) * L

theorem slice_in_window {L h : Int} (hL : 0 < L) (h0 : 0 ≤ h) (p : List Trace) :
    ∀ tr ∈ sliceStream h (windowEnd L h - 1) p, InOneWindow L tr := by
  intro tr htr
  have hw := truncTime_nonneg h0 hL
  refine ⟨Int.tdiv h L, ?_⟩
  intro q hq
  have hm : q ∈ samples (sliceStream h (windowEnd L h - 1) p) := by
    unfold samples
    rw [List.mem_flatMap]
    exact ⟨tr, htr, hq⟩
  rw [samples_sliceStream, List.mem_filter] at hm
  have h2 := hm.2
  simp only [Bool.and_eq_true, decide_eq_true_eq] at h2
  have e1 : truncTime h L = Int.tdiv h L * L := rfl
  have e2 : windowEnd L h = truncTime h L + L := rfl
  have e3 : (Int.tdiv h L + 1) * L = Int.tdiv h L * L + L := by ring
  omega

/-- **C30.** In every run of a conversion with any positive file length, any `t1` and any `t2`, whatever the reader does,
every output segment lies inside one window of the file length. (Times are not before 1970.) -/
theorem C30_one_window (j : Job) (hL : 0 < j.L) (t1 : Option Int) (ht1 : ∀ t, t1 = some t → 0 ≤ t)
    (hread : ∀ b d, j.read b = .ok d → ∀ tr ∈ d, tr.data ≠ [] ∧ 0 ≤ tr.start) (n : Nat) :
    ∀ tr ∈ (convertLoops j t1 n).written, InOneWindow j.L tr := by
  have hk : Keeps j (fun h out => 0 ≤ h ∧ ∀ tr ∈ out, InOneWindow j.L tr) (Above 0)
      (fun out => ∀ tr ∈ out, InOneWindow j.L tr) := by
    refine ⟨?_, fun h o g => g.2, fun a b p p' hA ht => above_trim hA ht, ?_⟩
    · rintro s ⟨h0, ho⟩ hA
      have hwin : writeWindow j.L s.p s.h = (sliceStream s.h (windowEnd j.L s.h - 1) s.p, windowEnd j.L s.h) := rfl
      have hout : ∀ tr ∈ s.out ++ sliceStream s.h (windowEnd j.L s.h - 1) s.p, InOneWindow j.L tr := by
        intro tr htr
        rcases List.mem_append.mp htr with h | h
        · exact ho tr h
        · exact slice_in_window hL h0 s.p tr h
      have hw := truncTime_nonneg h0 hL
      have hwe : windowEnd j.L s.h = truncTime s.h j.L + j.L := rfl
      unfold writeBody
      rw [hwin]
      simp only
      cases ht : trimStream (windowEnd j.L s.h) j.t2 s.p with
      | error x => exact hout
      | ok p =>
        have hA' := above_trim hA ht
        cases p with
        | nil => exact ⟨⟨by show (0 : Int) ≤ windowEnd j.L s.h; omega, hout⟩, hA'⟩
        | cons tr p =>
          refine ⟨⟨?_, hout⟩, hA'⟩
          have := (hA' tr (by simp)).2
          show 0 ≤ 10000 * tr.start
          omega
    · intro b d p hA hr
      apply mergeGaps_above
      intro tr htr
      rcases List.mem_append.mp htr with h | h
      · exact (hA tr h).2
      · exact (hread b d hr tr h).2
  refine written_of_sat (Q := fun out => ∀ tr ∈ out, InOneWindow j.L tr)
    (convertLoops_sat hk (R := fun d => Above 0 d) hread (by simp) t1 ?_ ?_ n) (by simp)
  · intro d hd
    exact ⟨fun _ => hd, mergeGaps_above fun tr h => (hd tr h).2⟩
  · intro p t hA ht
    refine ⟨?_, by simp⟩
    cases p with
    | nil =>
      rcases ht with h | ⟨_, tr, r, h, _⟩
      · exact ht1 t h
      · simp at h
    | cons tr p =>
      have := (hA tr (by simp)).2
      show 0 ≤ max t (10000 * tr.start)
      exact le_trans (by omega) (le_max_right _ _)

/-- Not vacuous: the example conversion writes four segments. -/
example : (convertLoops demoJob none 20).written.length = 4 ∧
    (∀ b d, demoJob.read b = .ok d → ∀ tr ∈ d, tr.data ≠ [] ∧ 0 ≤ tr.start) := by
  refine ⟨by decide +kernel, ?_⟩
  intro b d h
  simp only [demoJob] at h
  split_ifs at h
  · simp only [Except.ok.injEq] at h; rw [← h]; decide
  · simp only [Except.ok.injEq] at h; rw [← h]; decide

/-- **C31, file lengths on the sample grid.** For every reader, every set of files, every `t1` and `t2`, the conversion
ends (normally or with an exception) if the file length is a positive multiple of 10 ms. Missing: other lengths, for
which it is false (`C31_violated`). -/
theorem C31_terminates_partial (j : Job) (l : Int) (hb : 0 < j.blockdays) (hl : 0 < l) (hL : j.L = 10000 * l)
    (t1 : Option Int) : ∃ N r, r ≠ Run.running ∧ ∀ n, N ≤ n → convertLoops j t1 n = r := by
  have key : Ends (fun n => convertLoops j t1 n) := by
    unfold convertLoops
    apply ends_bind (f := fun n => firstBlock j n (j.nums.head?.getD 0) [])
    · exact firstBlock_ends hb _ _
    · intro r _
      cases hst : startTime t1 r.2.1 with
      | error x => exact ends_const (by simp)
      | ok q =>
        obtain ⟨p, t⟩ := q
        simp only
        apply ends_bind (f := fun n => mainLoop j n _)
        · exact mainLoop_ends hb hL hl _
        · intro s _
          apply ends_bind (f := fun n => writeRest j.L j.t2 n s.w)
          · exact writeRest_ends hL hl _
          · intro w _
            exact ends_const (by simp)
  obtain ⟨r, hr, N, hN⟩ := key
  exact ⟨N, r, hr, hN⟩

example : 0 < demoJob.blockdays ∧ demoJob.L = 10000 * 720000 := by decide

/-- One file whose record is a single sample at time `10000 * c`. -/
def oneSampleJob (L c x t2 : Int) : Job where
  nums := [0]
  blockdays := 1
  L := L
  t2 := t2
  read := fun b => if b = [0] then .ok [⟨c, [x]⟩] else .error .missingRaw

theorem stuck (c r x t2 : Int) (hc : 0 ≤ c) (hr : 0 < r) (hr2 : r < 5000) (ht2 : 10000 * c ≤ t2) (out : List Trace) :
    writeBody (10000 * c + r) t2 ⟨[⟨c, [x]⟩], 10000 * c, out⟩ =
      .done (⟨[⟨c, [x]⟩], 10000 * c, out ++ [⟨c, [x]⟩]⟩, true) := by
  have e0 : truncTime (10000 * c) (10000 * c + r) = 0 := by
    unfold truncTime
    rw [Int.tdiv_eq_ediv_of_nonneg (by omega), Int.ediv_eq_zero_of_lt (by omega) (by omega)]
    ring
  have es : Trace.stop ⟨c, [x]⟩ = c := by simp [Trace.stop]
  have e1 : sliceStream (10000 * c) (10000 * c + r - 1) [⟨c, [x]⟩] = [⟨c, [x]⟩] := by
    have a1 : -((10000 * c - 10000 * c) / 10000) = 0 := by omega
    have a2 : (10000 * c + r - 1 - 10000 * c) / 10000 = 0 := by omega
    simp [sliceStream, Trace.slice, Trace.ltrim, Trace.rtrim, a2, es]
  have e2 : trimStream (10000 * c + r) t2 [⟨c, [x]⟩] = .ok [⟨c, [x]⟩] := by
    have a1 : roundAway (10000 * c + r - 10000 * c) = 0 := by unfold roundAway; split_ifs <;> omega
    have a2 : 0 ≤ roundAway (t2 - 10000 * c) := le_roundAway (by omega)
    unfold trimStream
    simp only [es, a1]
    generalize roundAway (t2 - 10000 * c) = y at a2 ⊢
    rw [if_neg (by omega)]
    simp only [List.map_cons, List.map_nil, Trace.trim, Trace.ltrim, add_zero, sub_self, gt_iff_lt, lt_self_iff_false, if_false,
      List.length_singleton, Trace.rtrim]
    rw [if_pos (by push_cast; omega)]
    simp
  unfold writeBody writeWindow
  simp only [e0, zero_add, e1, e2]

/-- **C31, violated.** For every file length that is more than zero but less than half a sample longer than a multiple of
10 ms (for example one seventh of an hour, `10000 * 51428 + 5714` rounded down: any length `10000 c + r`, `0 < r < 5000`)
there is a record of a single sample for which the conversion never ends: the last sample of the window is written again
and again, because trimming moves the start of the next window back onto it. -/
theorem C31_violated (c r x t2 : Int) (hc : 0 ≤ c) (hr : 0 < r) (hr2 : r < 5000) (ht2 : 10000 * c ≤ t2) (n : Nat) :
    convertLoops (oneSampleJob (10000 * c + r) c x t2) (some 0) n = .running := by
  have hrest : ∀ n out, writeRest (10000 * c + r) t2 n ⟨[⟨c, [x]⟩], 10000 * c, out⟩ = .running := by
    intro n
    induction n with
    | zero => intro out; rfl
    | succ n ih =>
      intro out
      have es : Trace.stop ⟨c, [x]⟩ = c := by simp [Trace.stop]
      rw [writeRest]
      simp only [List.getLast?_singleton, es, le_refl, if_true]
      rw [stuck c r x t2 hc hr hr2 ht2]
      simp only [Run.bind, if_true]
      exact ih _
  cases n with
  | zero => rfl
  | succ n =>
    have hm : max 0 (10000 * c) = 10000 * c := max_eq_right (by omega)
    unfold convertLoops
    have h1 : firstBlock (oneSampleJob (10000 * c + r) c x t2) (n + 1) ((oneSampleJob (10000 * c + r) c x t2).nums.head?.getD 0) [] =
        .done (12, [⟨c, [x]⟩], [[0]]) := by
      simp [firstBlock, oneSampleJob, Job.last, Job.block]
    rw [h1]
    simp only [Run.bind, startTime]
    have h2 : mainLoop (oneSampleJob (10000 * c + r) c x t2) (n + 1) ⟨12, 0, ⟨[⟨c, [x]⟩], 10000 * c, []⟩, [[0]]⟩ =
        .done ⟨12, 0, ⟨[⟨c, [x]⟩], 10000 * c, []⟩, [[0]]⟩ := by
      simp [mainLoop, oneSampleJob, Job.last]
    rw [hm, h2]
    have h3 := hrest (n + 1) []
    simp only [oneSampleJob] at h3 ⊢
    rw [h3]

/-- A file length of a tenth of a second and one millisecond. -/
example : (convertLoops (oneSampleJob 101000 10 7 253402300799000000) (some 0) 30) = .running :=
  C31_violated 10 1000 7 _ (by decide) (by decide) (by decide) (by decide) 30

/-- **C32, the start.** In every run with a file length on the sample grid, no written sample is before the requested
`t1`. Missing: file lengths off the grid (`C32_any_length_partial`) and the end (`C32_violated_end`). -/
theorem C32_not_before_start_partial (j : Job) (l t1 : Int) (hl : 0 < l) (hL : j.L = 10000 * l) (n : Nat) :
    ∀ q ∈ samples (convertLoops j (some t1) n).written, t1 ≤ 10000 * q.1 := by
  have hk : Keeps j (fun h out => t1 ≤ h ∧ ∀ q ∈ samples out, t1 ≤ 10000 * q.1) (fun _ => True)
      (fun out => ∀ q ∈ samples out, t1 ≤ 10000 * q.1) := by
    refine ⟨?_, fun h o g => g.2, fun _ _ _ _ _ _ => trivial, fun _ _ _ _ _ => trivial⟩
    rintro s ⟨h0, ho⟩ _
    have hout : ∀ q ∈ samples (s.out ++ sliceStream s.h (windowEnd j.L s.h - 1) s.p), t1 ≤ 10000 * q.1 := by
      intro q hq
      rw [samples_append] at hq
      rcases List.mem_append.mp hq with h | h
      · exact ho q h
      · rw [samples_sliceStream, List.mem_filter] at h
        have h2 := h.2
        simp only [Bool.and_eq_true, decide_eq_true_eq] at h2
        omega
    cases hb : writeBody j.L j.t2 s with
    | running => trivial
    | done r =>
      obtain ⟨s', b⟩ := r
      obtain ⟨f1, _, _, f4⟩ := writeBody_forward hL hl hb
      refine ⟨⟨by simp only; omega, ?_⟩, trivial⟩
      simp only
      rw [f4]
      exact hout
    | raised x out =>
      have hwin : writeWindow j.L s.p s.h = (sliceStream s.h (windowEnd j.L s.h - 1) s.p, windowEnd j.L s.h) := rfl
      unfold writeBody at hb
      rw [hwin] at hb
      simp only at hb
      cases ht : trimStream (windowEnd j.L s.h) j.t2 s.p with
      | error x' =>
        rw [ht] at hb
        simp only [Run.raised.injEq] at hb
        rw [← hb.2]
        exact hout
      | ok p => rw [ht] at hb; cases p <;> simp at hb
  refine written_of_sat (Q := fun out => ∀ q ∈ samples out, t1 ≤ 10000 * q.1)
    (convertLoops_sat hk (R := fun _ => True) (fun _ _ _ => trivial) (by simp [samples]) (some t1)
      (fun _ _ => ⟨fun _ => trivial, trivial⟩) ?_ n) (by simp [samples])
  intro p t _ ht
  refine ⟨?_, by simp [samples]⟩
  rcases ht with h | ⟨h, _⟩
  · simp only [Option.some.injEq] at h
    rw [← h]
    cases p with
    | nil => exact le_refl _
    | cons tr p => exact le_max_left _ _
  · simp at h

/-- A conversion that starts in the middle of the record. -/
example : samples (convertLoops demoJob (some 93599995000) 20).written =
    [(9360000, 6), (9360001, 4), (9360002, 2), (9360003, 2), (9360500, 9)] := by
  decide +kernel

/-- **C32, violated (end).** A record of three hours, one sample each; hourly files; `t2` is in the first hour. The second
sample of the first hour is written although it is after `t2` (and the conversion then raises). -/
theorem C32_violated_end :
    ∃ j : Job, j.L = 3600000000 ∧ j.t2 = 600000000 ∧ ∃ out, convertLoops j (some 0) 10 = .raised .other out ∧
      ∃ q ∈ samples out, j.t2 < 10000 * q.1 :=
  ⟨⟨[0], 1, 3600000000, 600000000, fun _ => .ok [⟨6, [1]⟩, ⟨70000, [2]⟩]⟩, rfl, rfl,
    [⟨6, [1]⟩, ⟨70000, [2]⟩], by decide +kernel, (70000, 2), by decide +kernel, by decide⟩

/-- **C33, violated (start), for every such record.** If the requested start is more than 5 ms after the end of all the data
(and not after `t2`) and there are blocks of files after the first one with data, the conversion does not end
normally: it fails with an IndexError. -/
theorem C33_violated_start (j : Job) (l t1 : Int) (hb : 0 < j.blockdays) (hl : 0 < l) (hL : j.L = 10000 * l)
    (hs : j.OnlySkips) (before after : List (List Int)) (b : List Int) (hblocks : j.blocks = before ++ b :: after)
    (hbefore : j.record before = []) (hdata : j.streamOf b ≠ []) (hmore : after ≠ [])
    (ho : InOrder (j.streamOf b ++ j.record after)) (ht2 : t1 + 10000 ≤ j.t2)
    (hlate : ∀ q ∈ samples (j.streamOf b ++ j.record after), 10000 * q.1 + 5000 < t1) :
    Settles (convertLoops j (some t1)) (.raised .other []) := by
  obtain ⟨n2, a1, a2⟩ := firstData_exact hb hs hblocks hbefore hdata
  obtain ⟨d1, hd1⟩ : ∃ d1, d1 = j.streamOf b := ⟨_, rfl⟩
  rw [← hd1] at a1 hdata ho hlate
  have hn2 : ¬ n2 > j.last := by
    intro h
    rw [blocksFrom_nil hb h] at a2
    exact hmore a2.symm
  obtain ⟨tr0, p0, hp0⟩ := List.exists_cons_of_ne_nil hdata
  have hst0 : 10000 * tr0.start + 5000 < t1 := by
    have hne0 : tr0.data ≠ [] := (inOrder_append.mp ho).1.1 tr0 (by rw [hp0]; simp)
    obtain ⟨x, r, e⟩ := head_samples (p := p0) hne0
    exact hlate (tr0.start, x) (by rw [samples_append, hp0, e]; simp)
  have hmax : max t1 (10000 * tr0.start) = t1 := max_eq_left (by omega)
  obtain ⟨day, hday⟩ : ∃ day, day = j.day := ⟨_, rfl⟩
  obtain ⟨tt2, htt2⟩ : ∃ tt2, tt2 = min j.t2 (truncTime t1 day + day) := ⟨_, rfl⟩
  have htt : t1 ≤ tt2 := by
    have hdp := day_pos hb
    have := @truncTime_gt t1 day (by omega)
    rw [htt2]
    exact le_min (by omega) (by omega)
  have hfill : from_ (t1 - 5000) (fillIn (samples (d1 ++ j.record (j.blocksFrom n2)))) = [] := by
    apply from_none
    intro q hq
    rw [a2] at hq
    obtain ⟨_, c, hc, hqc⟩ := fillIn_bounds ho.2 hq
    have := hlate c hc
    omega
  have hP : Progress [] [] False [] d1 (j.record (j.blocksFrom n2)) (t1 - 5000) :=
    ⟨by rw [a2]; exact ho, hdata, List.nil_sublist _, by rw [hfill]; exact List.Sublist.refl _, False.elim⟩
  obtain ⟨n3, p1, rd1, r1, r2, r3, r4, r5⟩ := readBlocks_ok hb tt2 (t1 - 5000) [] _ n2 d1 (before ++ [b])
    (hs.right (a := before ++ [b]) (by rw [hblocks, a2]; simp)) rfl hP
  obtain ⟨tr1, htr1⟩ := exists_last r3.ne
  have ho1 := (inOrder_append.mp r3.order).1
  have hstop : 10000 * tr1.stop < t1 - 5000 := by
    by_contra hc
    obtain ⟨x, hx⟩ := progress_last_mem r3 htr1 (by omega)
    simp at hx
  have hn3 : n3 > j.last := by
    rcases r5 with ⟨tr', q1, q2⟩ | h
    · rw [htr1] at q1
      simp only [Option.some.injEq] at q1
      rw [← q1] at q2
      omega
    · exact h
  clear r5
  have hfull : Settles (fun n => writeFull j.L j.t2 n ⟨p1, t1, []⟩) (.done ⟨p1, t1, []⟩) := by
    apply settles_succ
    have hcond : ¬ (t1 + j.L ≤ 10000 * tr1.stop) := by omega
    simp only [writeFull, htr1, if_neg hcond]
    exact settles_const (by simp)
  have htrim : trimStream t1 j.t2 p1 = .ok [] := by
    obtain ⟨a, p2, hp1⟩ := List.exists_cons_of_ne_nil r3.ne
    rw [hp1]
    have hlim : t1 - 5000 ≤ 10000 * (trimLimits t1 j.t2 a).1 := by
      unfold trimLimits roundAway
      simp only
      split_ifs <;> omega
    have hlim2 : (trimLimits t1 j.t2 a).1 ≤ (trimLimits t1 j.t2 a).2 := by
      unfold trimLimits roundAway
      simp only
      split_ifs <;> omega
    rcases trimStream_cases t1 j.t2 a p2 with ⟨_, h2⟩ | ⟨p', h1, _, h3, h4⟩
    · omega
    · rw [h1]
      have : samples p' = [] := by
        rw [h4, List.filter_eq_nil_iff]
        intro q hq
        rw [← hp1] at hq
        have := le_stop ho1 htr1 hq
        simp only [Bool.and_eq_true, decide_eq_true_eq]
        omega
      rw [(samples_eq_nil h3).mp this]
  have hmain : Settles (fun n => mainLoop j n ⟨n2, t1, ⟨d1, t1, []⟩, before ++ [b]⟩)
      (.done ⟨n3, truncTime (tt2 + day + 1000000) day, ⟨[], t1, []⟩, before ++ [b] ++ rd1⟩) := by
    apply settles_succ
    have hn' : ¬ t1 > j.t2 := by omega
    simp only [mainLoop, if_neg hn2, if_neg hn']
    rw [← hday, ← htt2]
    refine settles_bind r1 ?_
    refine settles_bind hfull ?_
    simp only [htrim]
    apply settles_succ
    simp only [mainLoop, if_pos hn3]
    exact settles_const (by simp)
  have hrun : ∀ n, startRun j (some t1) n (n2, d1, before ++ [b]) =
      (mainLoop j n ⟨n2, t1, ⟨d1, t1, []⟩, before ++ [b]⟩).bind fun s =>
        (writeRest j.L j.t2 n s.w).bind fun w => .done { s with w := w } := by
    intro n
    unfold startRun startTime
    simp only [hp0, hmax]
  have : Settles (fun n => (firstBlock j n (j.nums.head?.getD 0 : Int) []).bind (startRun j (some t1) n)) (.raised .other []) := by
    refine settles_bind a1 ?_
    simp only [hrun]
    refine settles_bind hmain ?_
    apply settles_bind_raised
    apply settles_succ
    simp only [writeRest, List.getLast?_nil]
    exact settles_const (by simp)
  exact this

/-- The example conversion, started ten minutes after its end, fails. -/
example : Settles (convertLoops demoJob (some 94200000000)) (.raised .other []) :=
  C33_violated_start demoJob 720000 94200000000 (by decide) (by decide) rfl demoJob_skips [] [[], [], [40, 41]] [3, 4]
    (by decide +kernel) (by decide +kernel) (by decide +kernel) (by decide)
    ⟨by decide +kernel, by unfold Increasing; decide +kernel⟩ (by decide) (by decide +kernel)

/-- A record in a single block: all files are read at once. -/
structure OneBlock (j : Job) (d : List Trace) : Prop where
  days : 0 < j.blockdays
  files : ∃ a l, j.nums = a :: l ∧ ∀ n ∈ j.nums, a ≤ n ∧ (n : Rat) < a + 12 * j.blockdays
  read : j.read j.nums = .ok d
  ne : d ≠ []

theorem oneBlock_start {j : Job} {d : List Trace} (h : OneBlock j d) :
    ∃ n2 : Rat, n2 > j.last ∧ Settles (fun n => firstBlock j n (j.nums.head?.getD 0 : Int) []) (.done (n2, d, [j.nums])) := by
  obtain ⟨a, l, e, hb⟩ := h.files
  have hd := h.days
  have hlast : j.last ∈ j.nums := by
    unfold Job.last
    obtain ⟨x, hx⟩ : ∃ x, j.nums.getLast? = some x := ⟨j.nums.getLast (by rw [e]; simp), List.getLast?_eq_some_getLast _⟩
    rw [hx]
    exact List.mem_of_getLast? hx
  have h1 := hb _ hlast
  have hblock : j.block a = j.nums := by
    unfold Job.block
    rw [List.filter_eq_self]
    intro n hn
    have := hb n hn
    simp only [Bool.and_eq_true, decide_eq_true_eq]
    exact ⟨by exact_mod_cast this.1, this.2⟩
  have hhead : j.nums.head?.getD 0 = a := by rw [e]; rfl
  obtain ⟨t, d', hd'⟩ := List.exists_cons_of_ne_nil h.ne
  have hr := h.read
  refine ⟨a + 12 * j.blockdays, h1.2, ?_⟩
  rw [hd'] at hr ⊢
  apply settles_succ
  have h1' : (a : Rat) ≤ j.last := by exact_mod_cast h1.1
  simp only [firstBlock, hhead, hblock, hr, if_pos h1', List.nil_append]
  exact settles_const (by simp)

theorem oneBlock_run {j : Job} {d : List Trace} (h : OneBlock j d) {tr0 : Trace} {p0 : List Trace} (hd : d = tr0 :: p0)
    (t1 : Int) {r : Run WState} (hr : Settles (fun n => writeRest j.L j.t2 n ⟨d, max t1 (10000 * tr0.start), []⟩) r) :
    ∃ n2, Settles (convertLoops j (some t1)) (r.bind fun w => .done ⟨n2, t1, w, [j.nums]⟩) := by
  obtain ⟨n2, hn2, h1⟩ := oneBlock_start h
  have hmain : Settles (fun n => mainLoop j n ⟨n2, t1, ⟨d, max t1 (10000 * tr0.start), []⟩, [j.nums]⟩)
      (.done ⟨n2, t1, ⟨d, max t1 (10000 * tr0.start), []⟩, [j.nums]⟩) := by
    apply settles_succ
    simp only [mainLoop, if_pos hn2]
    exact settles_const (by simp)
  refine ⟨n2, ?_⟩
  have hrun : ∀ n, startRun j (some t1) n (n2, d, [j.nums]) =
      (mainLoop j n ⟨n2, t1, ⟨d, max t1 (10000 * tr0.start), []⟩, [j.nums]⟩).bind fun s =>
        (writeRest j.L j.t2 n s.w).bind fun w => .done { s with w := w } := by
    intro n
    unfold startRun startTime
    simp only [hd]
  have : Settles (fun n => (firstBlock j n (j.nums.head?.getD 0 : Int) []).bind (startRun j (some t1) n))
      (r.bind fun w => .done ⟨n2, t1, w, [j.nums]⟩) := by
    refine settles_bind h1 ?_
    simp only [hrun]
    refine settles_bind hmain ?_
    simp only
    cases r with
    | done w => exact settles_bind hr (settles_const (by simp))
    | raised x out => exact settles_bind_raised hr
    | running => exact absurd rfl hr.1
  exact this

/-- **C33, one block.** If all files are in one block, `t2` is far, and the file length is on the grid, the conversion
ends normally for every `t1`, whether or not there is anything to write, and writes exactly the samples from `t1` on.
Missing: several blocks (see `C33_violated_start`; with data after `t1`: `C29_given_start`), and `t2` inside the data
(`C33_violated_end`, `C33_violated_end_blocks`). -/
theorem C33_one_block_partial (j : Job) (l t1 : Int) (hl : 0 < l) (hL : j.L = 10000 * l) (d : List Trace)
    (h : OneBlock j d) (ho : InOrder d) (ht1 : 0 ≤ t1)
    (hfar : ∀ q ∈ samples d, 10000 * q.1 + j.L ≤ j.t2) :
    ∃ s, Settles (convertLoops j (some t1)) (.done s) ∧ samples s.w.out = from_ t1 (samples d) := by
  obtain ⟨tr0, p0, hp0⟩ := List.exists_cons_of_ne_nil h.ne
  obtain ⟨trl, htrl⟩ := exists_last h.ne
  obtain ⟨w, b1, b2⟩ := writeRest_ok (t2 := j.t2) hL hl (tr := trl) _ ⟨d, max t1 (10000 * tr0.start), []⟩ (le_refl _) ho htrl
    (le_trans ht1 (le_max_left _ _))
    (by
      intro _
      obtain ⟨x, r, e⟩ := last_samples htrl (ho.1 trl (List.mem_of_getLast? htrl))
      exact hfar (trl.stop, x) (by rw [e]; simp))
  obtain ⟨n2, hs⟩ := oneBlock_run h hp0 t1 b1
  refine ⟨_, hs, ?_⟩
  show samples w.out = _
  rw [b2]
  show [] ++ _ = _
  rw [List.nil_append]
  unfold from_
  apply List.filter_congr
  intro q hq
  rw [hp0] at hq ho
  have := start_le ho hq
  rw [decide_eq_decide, max_le_iff]
  constructor
  · exact fun h => h.1
  · exact fun h => ⟨h, by omega⟩

theorem demoOneBlock : OneBlock ⟨[3, 4], 1, 3600000000, 253402300799000000, fun _ => .ok [⟨6, [1]⟩, ⟨70000, [2]⟩]⟩
    [⟨6, [1]⟩, ⟨70000, [2]⟩] :=
  ⟨by decide, ⟨3, [4], rfl, by decide +kernel⟩, rfl, by simp⟩

/-- A conversion that starts after the end of the record. -/
example : ∃ s, Settles (convertLoops ⟨[3, 4], 1, 3600000000, 253402300799000000, fun _ => .ok [⟨6, [1]⟩, ⟨70000, [2]⟩]⟩
    (some 800000000)) (.done s) ∧ samples s.w.out = from_ 800000000 (samples [⟨6, [1]⟩, ⟨70000, [2]⟩]) :=
  C33_one_block_partial _ 360000 800000000 (by decide) rfl _ demoOneBlock
    ⟨by decide +kernel, by unfold Increasing; decide +kernel⟩ (by decide) (by decide +kernel)

/-- If there is data in the window of `t2` before `t2`, the last loop fails. -/
theorem writeRest_raises {L l c k : Int} (hL : L = 10000 * l) (hl : 0 < l) (q : Int × Int) (h1 : k * L ≤ 10000 * q.1)
    (h2 : q.1 ≤ c) (h3 : 10000 * c < (k + 1) * L) (m : Nat) (s : WState) (hm : (10000 * q.1 - s.h).toNat ≤ m)
    (ho : InOrder s.p) (hq : q ∈ samples s.p) (h0 : 0 ≤ s.h) (hh : s.h ≤ 10000 * q.1) :
    ∃ out, Settles (fun n => writeRest L (10000 * c) n s) (.raised .other out) := by
  induction m using Nat.strong_induction_on generalizing s with
  | _ m ih =>
    have hne : s.p ≠ [] := by
      intro h
      rw [h] at hq
      simp [samples] at hq
    obtain ⟨trl, htrl⟩ := exists_last hne
    obtain ⟨a, p0, hp0⟩ := List.exists_cons_of_ne_nil hne
    have hlast := le_stop ho htrl hq
    have hc : s.h ≤ 10000 * trl.stop := by omega
    have hLpos : 0 < L := by omega
    obtain ⟨e, he⟩ := windowEnd_grid l s.h
    rw [← hL] at he
    have hw := truncTime_nonneg h0 hLpos
    have hwe : windowEnd L s.h = truncTime s.h L + L := rfl
    have hwin : writeWindow L s.p s.h = (sliceStream s.h (windowEnd L s.h - 1) s.p, windowEnd L s.h) := rfl
    have hlimits : trimLimits (10000 * e) (10000 * c) a = (e, c) := by
      unfold trimLimits
      have e1 : 10000 * e - 10000 * a.start = 10000 * (e - a.start) := by ring
      have e2 : 10000 * c - 10000 * a.stop = 10000 * (c - a.stop) := by ring
      rw [e1, e2, roundAway_mul, roundAway_mul]
      simp
    rcases trimStream_cases (10000 * e) (10000 * c) a p0 with ⟨g1, g2⟩ | ⟨p', g1, g2, g3, g4⟩
    · refine ⟨s.out ++ sliceStream s.h (windowEnd L s.h - 1) s.p, ?_⟩
      apply settles_succ
      have hbody : writeBody L (10000 * c) s = .raised .other (s.out ++ sliceStream s.h (windowEnd L s.h - 1) s.p) := by
        unfold writeBody
        rw [hwin]
        simp only
        rw [he, hp0, g1]
      simp only [writeRest, htrl, if_pos hc, hbody, Run.bind]
      exact settles_const (by simp)
    · rw [hlimits] at g2 g4
      simp only at g2 g4
      have heq : e ≤ q.1 := by
        have e1 : truncTime s.h L = s.h.tdiv L * L := rfl
        have : s.h.tdiv L + 1 ≤ k := by
          by_contra hcon
          have : (k + 1) * L ≤ (s.h.tdiv L + 1) * L := Int.mul_le_mul_of_nonneg_right (by omega) (by omega)
          have e3 : (s.h.tdiv L + 1) * L = s.h.tdiv L * L + L := by ring
          omega
        have : (s.h.tdiv L + 1) * L ≤ k * L := Int.mul_le_mul_of_nonneg_right this (by omega)
        have e3 : (s.h.tdiv L + 1) * L = s.h.tdiv L * L + L := by ring
        omega
      have hq' : q ∈ samples p' := by
        rw [g4, List.mem_filter, ← hp0]
        refine ⟨hq, ?_⟩
        simp only [Bool.and_eq_true, decide_eq_true_eq]
        exact ⟨heq, h2⟩
      have ho' : InOrder p' := by
        refine ⟨g3, ?_⟩
        rw [g4, ← hp0]
        exact List.Pairwise.sublist List.filter_sublist ho.2
      have hne' : p' ≠ [] := by
        intro h
        rw [h] at hq'
        simp [samples] at hq'
      obtain ⟨a', p1, hp1⟩ := List.exists_cons_of_ne_nil hne'
      rw [hp1] at ho' hq' g4 g3
      have hstart := start_le ho' hq'
      have hstart2 : e ≤ a'.start := by
        obtain ⟨x, r, er⟩ := head_samples (p := p1) (g3 a' (by simp))
        have hmem : (a'.start, x) ∈ samples (a' :: p1) := by rw [er]; simp
        rw [g4, List.mem_filter] at hmem
        have := hmem.2
        simp only [Bool.and_eq_true, decide_eq_true_eq] at this
        exact this.1
      have hbody : writeBody L (10000 * c) s =
          .done (⟨a' :: p1, 10000 * a'.start, s.out ++ sliceStream s.h (windowEnd L s.h - 1) s.p⟩, true) := by
        unfold writeBody
        rw [hwin]
        simp only
        rw [he, hp0, g1, hp1]
      obtain ⟨out, hout⟩ := ih (10000 * q.1 - 10000 * a'.start).toNat (by omega) ⟨a' :: p1, 10000 * a'.start, _⟩ (le_refl _) ho' hq'
        (by simp only; omega) (by simp only; omega)
      refine ⟨out, ?_⟩
      apply settles_succ
      simp only [writeRest, htrl, if_pos hc, hbody, Run.bind, if_true]
      exact hout

/-- **C33, violated (end), for every such record.** If `t2` (on the sample grid) is not at the end of a file-length window,
and there is a sample to be converted in the same window, not after `t2`, then the conversion does not end normally:
it raises a ValueError. -/
theorem C33_violated_end (j : Job) (l c k t1 : Int) (hl : 0 < l) (hL : j.L = 10000 * l) (ht2 : j.t2 = 10000 * c)
    (d : List Trace) (h : OneBlock j d) (ho : InOrder d) (ht1 : 0 ≤ t1) (q : Int × Int) (hq : q ∈ samples d)
    (h1 : t1 ≤ 10000 * q.1) (h2 : k * j.L ≤ 10000 * q.1) (h3 : 10000 * q.1 ≤ j.t2) (h4 : j.t2 < (k + 1) * j.L) :
    ∃ out, Settles (convertLoops j (some t1)) (.raised .other out) := by
  obtain ⟨tr0, p0, hp0⟩ := List.exists_cons_of_ne_nil h.ne
  have hst : tr0.start ≤ q.1 := by
    rw [hp0] at hq ho
    exact start_le ho hq
  obtain ⟨out, hout⟩ := writeRest_raises (c := c) (k := k) hL hl q h2 (by omega) (by omega) _
    ⟨d, max t1 (10000 * tr0.start), []⟩ (le_refl _) ho hq (le_trans ht1 (le_max_left _ _)) (max_le h1 (by omega))
  rw [← ht2] at hout
  obtain ⟨n2, hs⟩ := oneBlock_run h hp0 t1 hout
  exact ⟨out, hs⟩

/-- The limit is at 1000 s, 300 s after the last sample, in the same hour. -/
example : ∃ out, Settles (convertLoops ⟨[3, 4], 1, 3600000000, 1000000000, fun _ => .ok [⟨6, [1]⟩, ⟨70000, [2]⟩]⟩
    (some 0)) (.raised .other out) :=
  C33_violated_end _ 360000 100000 0 0 (by decide) rfl rfl [⟨6, [1]⟩, ⟨70000, [2]⟩]
    ⟨by decide, ⟨3, [4], rfl, by decide +kernel⟩, rfl, by simp⟩
    ⟨by decide +kernel, by unfold Increasing; decide +kernel⟩ (by decide) (70000, 2) (by decide +kernel) (by decide)
    (by decide) (by decide) (by decide)

/-! ## C53 -/

/-- **C53, violated.** Two blocks of files, daily blocks. The first block has data at 6 o'clock on the first and on the
second day, the second block at 9 o'clock on the second day; `t2` is noon of the second day. The second block is never
read and its sample, which is before `t2`, never written. -/
def c53Job : Job where
  nums := [0, 12]
  blockdays := 1
  L := 3600000000
  t2 := 129600000000
  read := fun b =>
    if b = [0] then .ok [⟨2160000, [1]⟩, ⟨10800000, [2]⟩]
    else if b = [12] then .ok [⟨11880000, [3]⟩]
    else .error .missingRaw

/-- **C53 is violated** by a `t2` inside the record: the conversion ends normally, but a block whose data lie before `t2` is never read. -/
theorem C53_violated : ∃ s, convertLoops c53Job (some 0) 6 = .done s ∧ samples s.w.out = [(2160000, 1), (10800000, 2)] ∧
    s.reads = [[0]] ∧ (11880000, 3) ∈ samples (c53Job.streamOf [12]) ∧ 10000 * 11880000 ≤ c53Job.t2 := by
  refine ⟨⟨12, 172800000000, ⟨[], 111600000000, [⟨2160000, [1]⟩, ⟨10800000, [2]⟩]⟩, [[0]]⟩, ?_, ?_, ?_, by decide +kernel, by decide⟩ <;>
    decide +kernel

/-- **C53, without an upper limit.** If `t2` is far behind the data, everything from `t1` on is converted. Missing: limits
`t2` within the data, for which it is false. -/
theorem C53_no_upper_limit_partial (j : Job) (l t1 : Int) (hb : 0 < j.blockdays) (hl : 0 < l) (hL : j.L = 10000 * l)
    (hs : j.OnlySkips) (d1 rest : List Trace) (hd : FirstData j d1 rest) (ho : InOrder (d1 ++ rest)) (ht1 : 0 ≤ t1)
    (hfar : ∀ q ∈ samples (d1 ++ rest), 10000 * q.1 + j.L + j.day + 1000000 ≤ j.t2) :
    ∀ q ∈ samples (d1 ++ rest), t1 ≤ 10000 * q.1 →
      ∃ s, Settles (convertLoops j (some t1)) (.done s) ∧ q ∈ samples s.w.out := by
  intro q hq hqt
  obtain ⟨s, h1, h2, _⟩ := C29_given_start j l t1 hb hl hL hs d1 rest hd ho ht1 hfar ⟨q, hq, hqt⟩
  exact ⟨s, h1, h2.subset (mem_from.mpr ⟨hq, hqt⟩)⟩

end Gemlog
