import Verif.Props.Limits
import Mathlib.Data.Int.GCD

/-!
# C31: exactly which file lengths make every conversion end

`Props/Limits.lean` proves that file lengths on the sample grid (multiples of 10 ms) make every conversion end, and that lengths slightly above
the grid do not. Here the lengths are found exactly: the multiples of half a sample interval (5 ms).
-/

namespace Gemlog

/-- The next window starts at the first trace, as after every pass of a writing loop. -/
def Headed (s : WState) : Prop := ∃ tr r, s.p = tr :: r ∧ s.h = 10000 * tr.start

theorem writeBody_headed {L t2 : Int} {s s' : WState} (h : writeBody L t2 s = .done (s', true)) : Headed s' := by
  unfold writeBody at h
  simp only at h
  cases ht : trimStream (writeWindow L s.p s.h).2 t2 s.p with
  | error x => rw [ht] at h; simp at h
  | ok p =>
    rw [ht] at h
    cases p with
    | nil => simp at h
    | cons tr p =>
      simp only [Run.done.injEq, Prod.mk.injEq, and_true] at h
      rw [← h]
      exact ⟨tr, p, rfl, rfl⟩

theorem writeBody_kept {L t2 : Int} {s s' : WState} {b : Bool} (h : writeBody L t2 s = .done (s', b)) :
    (∀ tr ∈ s'.p, tr.data ≠ []) ∧ (∀ q ∈ samples s'.p, q ∈ samples s.p) := by
  unfold writeBody at h
  simp only at h
  cases ht : trimStream (writeWindow L s.p s.h).2 t2 s.p with
  | error x => rw [ht] at h; simp at h
  | ok p =>
    obtain ⟨h1, h2⟩ := trimStream_ok ht
    rw [ht] at h
    cases p with
    | nil =>
      simp only [Run.done.injEq, Prod.mk.injEq] at h
      rw [← h.1]
      exact ⟨by simp, by simp [samples]⟩
    | cons tr p =>
      simp only [Run.done.injEq, Prod.mk.injEq] at h
      rw [← h.1]
      exact ⟨h1, h2⟩

theorem body_bound_any {L t2 E : Int} {s s' : WState} {b : Bool} (hE : ∀ tr ∈ s.p, tr.stop ≤ E)
    (h : writeBody L t2 s = .done (s', b)) : ∀ tr ∈ s'.p, tr.stop ≤ E := by
  obtain ⟨h2, h3⟩ := writeBody_kept h
  intro tr htr
  obtain ⟨x, hx⟩ := stop_mem htr (h2 tr htr)
  have hm := h3 _ hx
  unfold samples at hm
  obtain ⟨a, ha, hq⟩ := List.mem_flatMap.mp hm
  exact le_trans (sample_le_stop hq) (hE a ha)

/-- From a state as after a pass, the time goes forward if the file length is a multiple of 5 ms. -/
theorem headed_forward {L t2 l : Int} (hL : L = 5000 * l) (hl : 0 < l) {s s' : WState} {b : Bool} (hs : Headed s)
    (h : writeBody L t2 s = .done (s', b)) : s.h < s'.h := by
  obtain ⟨tr, r, hp, hh⟩ := hs
  have hw := @truncTime_gt s.h L (by omega)
  have hwe : windowEnd L s.h = truncTime s.h L + L := rfl
  obtain ⟨e, he⟩ : ∃ e, windowEnd L s.h = 5000 * e := ⟨Int.tdiv s.h L * l + l, by unfold windowEnd truncTime; rw [hL]; ring⟩
  have hwin : writeWindow L s.p s.h = (sliceStream s.h (windowEnd L s.h - 1) s.p, windowEnd L s.h) := rfl
  unfold writeBody at h
  rw [hwin] at h
  simp only at h
  cases ht : trimStream (windowEnd L s.h) t2 s.p with
  | error x => rw [ht] at h; simp at h
  | ok p =>
    obtain ⟨h1, h2⟩ := trimStream_ok ht
    rw [ht] at h
    cases p with
    | nil =>
      simp only [Run.done.injEq, Prod.mk.injEq] at h
      rw [← h.1]
      simp only
      omega
    | cons tr' p =>
      simp only [Run.done.injEq, Prod.mk.injEq] at h
      rw [← h.1]
      obtain ⟨x, hx⟩ := mem_samples_start (List.mem_cons_self (a := tr') (l := p)) (h1 tr' (by simp))
      rw [hp] at ht
      rcases trimStream_cases (windowEnd L s.h) t2 tr r with ⟨g1, _⟩ | ⟨p1, g1, _, g3, g4⟩
      · rw [g1] at ht; simp at ht
      · rw [g1] at ht
        simp only [Except.ok.injEq] at ht
        rw [← ht, g4, List.mem_filter] at hx
        have h5 := hx.2
        simp only [Bool.and_eq_true, decide_eq_true_eq] at h5
        have h6 := h5.1
        unfold trimLimits roundAway at h6
        simp only at h6
        rw [if_pos (by omega)] at h6
        simp only
        omega

theorem writeFull_headed {L t2 l : Int} (hL : L = 5000 * l) (hl : 0 < l) (s : WState) (hs : Headed s) : Ends fun n => writeFull L t2 n s := by
  obtain ⟨E, hE⟩ := exists_bound s.p
  obtain ⟨k, hk⟩ : ∃ k, k = (10000 * E - s.h).toNat := ⟨_, rfl⟩
  induction k using Nat.strong_induction_on generalizing s with
  | _ k ih =>
    apply ends_succ
    simp only [writeFull]
    cases hl' : s.p.getLast? with
    | none => exact ends_const (by simp)
    | some tr =>
      simp only
      by_cases hc : s.h + L ≤ 10000 * tr.stop
      · simp only [if_pos hc]
        have hEt := hE tr (List.mem_of_getLast? hl')
        apply ends_bind (f := fun _ => writeBody L t2 s)
        · exact ends_const (writeBody_not_running _ _ _)
        · rintro ⟨s', b⟩ hw
          obtain ⟨_, N, hN⟩ := hw
          have b1 := headed_forward hL hl hs (hN N (le_refl _))
          have b2 := body_bound_any hE (hN N (le_refl _))
          cases b with
          | false => exact ends_const (by simp)
          | true =>
            simp only [if_true]
            exact ih _ (by omega) s' (writeBody_headed (hN N (le_refl _))) b2 rfl
      · simp only [if_neg hc]
        exact ends_const (by simp)

theorem writeFull_ends_half {L t2 l : Int} (hL : L = 5000 * l) (hl : 0 < l) (s : WState) : Ends fun n => writeFull L t2 n s := by
  apply ends_succ
  simp only [writeFull]
  cases hl' : s.p.getLast? with
  | none => exact ends_const (by simp)
  | some tr =>
    simp only
    by_cases hc : s.h + L ≤ 10000 * tr.stop
    · simp only [if_pos hc]
      apply ends_bind (f := fun _ => writeBody L t2 s)
      · exact ends_const (writeBody_not_running _ _ _)
      · rintro ⟨s', b⟩ hw
        obtain ⟨_, N, hN⟩ := hw
        cases b with
        | false => exact ends_const (by simp)
        | true =>
          simp only [if_true]
          exact writeFull_headed hL hl s' (writeBody_headed (hN N (le_refl _)))
    · simp only [if_neg hc]
      exact ends_const (by simp)

theorem writeRest_headed {L t2 l : Int} (hL : L = 5000 * l) (hl : 0 < l) (s : WState) (hs : Headed s) : Ends fun n => writeRest L t2 n s := by
  obtain ⟨E, hE⟩ := exists_bound s.p
  obtain ⟨k, hk⟩ : ∃ k, k = (10000 * E + 1 - s.h).toNat := ⟨_, rfl⟩
  induction k using Nat.strong_induction_on generalizing s with
  | _ k ih =>
    apply ends_succ
    simp only [writeRest]
    cases hl' : s.p.getLast? with
    | none => exact ends_const (by simp)
    | some tr =>
      simp only
      by_cases hc : s.h ≤ 10000 * tr.stop
      · simp only [if_pos hc]
        have hEt := hE tr (List.mem_of_getLast? hl')
        apply ends_bind (f := fun _ => writeBody L t2 s)
        · exact ends_const (writeBody_not_running _ _ _)
        · rintro ⟨s', b⟩ hw
          obtain ⟨_, N, hN⟩ := hw
          have b1 := headed_forward hL hl hs (hN N (le_refl _))
          have b2 := body_bound_any hE (hN N (le_refl _))
          cases b with
          | false => exact ends_const (by simp)
          | true =>
            simp only [if_true]
            exact ih _ (by omega) s' (writeBody_headed (hN N (le_refl _))) b2 rfl
      · simp only [if_neg hc]
        exact ends_const (by simp)

theorem writeRest_ends_half {L t2 l : Int} (hL : L = 5000 * l) (hl : 0 < l) (s : WState) : Ends fun n => writeRest L t2 n s := by
  apply ends_succ
  simp only [writeRest]
  cases hl' : s.p.getLast? with
  | none => exact ends_const (by simp)
  | some tr =>
    simp only
    by_cases hc : s.h ≤ 10000 * tr.stop
    · simp only [if_pos hc]
      apply ends_bind (f := fun _ => writeBody L t2 s)
      · exact ends_const (writeBody_not_running _ _ _)
      · rintro ⟨s', b⟩ hw
        obtain ⟨_, N, hN⟩ := hw
        cases b with
        | false => exact ends_const (by simp)
        | true =>
          simp only [if_true]
          exact writeRest_headed hL hl s' (writeBody_headed (hN N (le_refl _)))
    · simp only [if_neg hc]
      exact ends_const (by simp)

theorem mainLoop_ends_half {j : Job} {l : Int} (hb : 0 < j.blockdays) (hL : j.L = 5000 * l) (hl : 0 < l) (s : CState) :
    Ends fun n => mainLoop j n s := by
  obtain ⟨k, hk⟩ : ∃ k, k = (j.t2 + 1 - s.t1).toNat := ⟨_, rfl⟩
  induction k using Nat.strong_induction_on generalizing s with
  | _ k ih =>
    apply ends_succ
    simp only [mainLoop]
    by_cases c1 : s.n1 > j.last
    · simp only [if_pos c1]
      exact ends_const (by simp)
    · by_cases c2 : s.t1 > j.t2
      · simp only [if_neg c1, if_pos c2]
        exact ends_const (by simp)
      · simp only [if_neg c1, if_neg c2]
        apply ends_bind (f := fun n => readBlocks j _ s.w.out n s.n1 s.w.p s.reads)
        · exact readBlocks_ends hb _ _ _ _ _
        · intro r _
          apply ends_bind (f := fun n => writeFull j.L j.t2 n _)
          · exact writeFull_ends_half hL hl _
          · intro w _
            cases ht : trimStream w.h j.t2 w.p with
            | error x => exact ends_const (by simp)
            | ok p =>
              simp only
              refine ih _ ?_ _ rfl
              simp only
              have hday : 0 < j.day := day_pos hb
              have g1 := @truncTime_gt s.t1 _ hday
              have g2 := @truncTime_gt (min j.t2 (truncTime s.t1 (j.day) + j.day) +
                j.day + 1000000) _ hday
              omega

/-- The conversion, run long enough, ends: normally or with an exception. -/
def EventuallyEnds (j : Job) (t1 : Option Int) : Prop := ∃ N r, r ≠ Run.running ∧ ∀ n, N ≤ n → convertLoops j t1 n = r

theorem ends_half (j : Job) (l : Int) (hb : 0 < j.blockdays) (hl : 0 < l) (hL : j.L = 5000 * l) (t1 : Option Int) : EventuallyEnds j t1 := by
  have key : Ends (fun n => convertLoops j t1 n) := by
    unfold convertLoops
    apply ends_bind (f := fun n => firstBlock j n (j.nums.head?.getD 0) [])
    · exact firstBlock_ends hb _ _
    · intro r _
      cases hst : startTime t1 r.2.1 with
      | error x => exact ends_const (by simp)
      | ok q =>
        obtain ⟨p, t⟩ := q
        simp only
        apply ends_bind (f := fun n => mainLoop j n _)
        · exact mainLoop_ends_half hb hL hl _
        · intro s _
          apply ends_bind (f := fun n => writeRest j.L j.t2 n s.w)
          · exact writeRest_ends_half hL hl _
          · intro w _
            exact ends_const (by simp)
  obtain ⟨r, hr, N, hN⟩ := key
  exact ⟨N, r, hr, hN⟩

/-- A sample less than half a sample interval before the end `10000 c + r` of its window is written again and again. -/
theorem stuck_any (L c r x t2 : Int) (hr : 0 < r) (hr2 : r < 5000) (hk : truncTime (10000 * c) L + L = 10000 * c + r)
    (ht2 : 10000 * c ≤ t2) (out : List Trace) :
    writeBody L t2 ⟨[⟨c, [x]⟩], 10000 * c, out⟩ = .done (⟨[⟨c, [x]⟩], 10000 * c, out ++ [⟨c, [x]⟩]⟩, true) := by
  have es : Trace.stop ⟨c, [x]⟩ = c := by simp [Trace.stop]
  have e1 : sliceStream (10000 * c) (10000 * c + r - 1) [⟨c, [x]⟩] = [⟨c, [x]⟩] := by
    have a1 : -((10000 * c - 10000 * c) / 10000) = 0 := by omega
    have a2 : (10000 * c + r - 1 - 10000 * c) / 10000 = 0 := by omega
    simp [sliceStream, Trace.slice, Trace.ltrim, Trace.rtrim, a2, es]
  have e2 : trimStream (10000 * c + r) t2 [⟨c, [x]⟩] = .ok [⟨c, [x]⟩] := by
    have a1 : roundAway (10000 * c + r - 10000 * c) = 0 := by unfold roundAway; split_ifs <;> omega
    have a2 : 0 ≤ roundAway (t2 - 10000 * c) := le_roundAway (by omega)
    unfold trimStream
    simp only [es, a1]
    generalize roundAway (t2 - 10000 * c) = y at a2 ⊢
    rw [if_neg (by omega)]
    simp only [List.map_cons, List.map_nil, Trace.trim, Trace.ltrim, add_zero, sub_self, gt_iff_lt, lt_self_iff_false, if_false,
      List.length_singleton, Trace.rtrim]
    rw [if_pos (by push_cast; omega)]
    simp
  unfold writeBody writeWindow
  simp only [hk, e1, e2]

theorem never_ends (L c r x t2 : Int) (hc : 0 ≤ c) (hr : 0 < r) (hr2 : r < 5000) (hk : truncTime (10000 * c) L + L = 10000 * c + r)
    (ht2 : 10000 * c ≤ t2) (n : Nat) : convertLoops (oneSampleJob L c x t2) (some 0) n = .running := by
  have hrest : ∀ n out, writeRest L t2 n ⟨[⟨c, [x]⟩], 10000 * c, out⟩ = .running := by
    intro n
    induction n with
    | zero => intro out; rfl
    | succ n ih =>
      intro out
      have es : Trace.stop ⟨c, [x]⟩ = c := by simp [Trace.stop]
      rw [writeRest]
      simp only [List.getLast?_singleton, es, le_refl, if_true]
      rw [stuck_any L c r x t2 hr hr2 hk ht2]
      simp only [Run.bind, if_true]
      exact ih _
  cases n with
  | zero => rfl
  | succ n =>
    have hm : max 0 (10000 * c) = 10000 * c := max_eq_right (by omega)
    unfold convertLoops
    have h1 : firstBlock (oneSampleJob L c x t2) (n + 1) ((oneSampleJob L c x t2).nums.head?.getD 0) [] =
        .done (12, [⟨c, [x]⟩], [[0]]) := by
      simp [firstBlock, oneSampleJob, Job.last, Job.block]
    rw [h1]
    simp only [Run.bind, startTime]
    have h2 : mainLoop (oneSampleJob L c x t2) (n + 1) ⟨12, 0, ⟨[⟨c, [x]⟩], 10000 * c, []⟩, [[0]]⟩ =
        .done ⟨12, 0, ⟨[⟨c, [x]⟩], 10000 * c, []⟩, [[0]]⟩ := by
      simp [mainLoop, oneSampleJob, Job.last]
    rw [hm, h2]
    have h3 := hrest (n + 1) []
    simp only [oneSampleJob] at h3 ⊢
    rw [h3]

/-- A multiple of `L` that lies less than half a sample interval after a sample time, unless `L` is a multiple of 5 ms. -/
theorem near_grid (L : Int) (hL : 0 < L) (h : ¬ 5000 ∣ L) : ∃ k c r : Int, 0 < k ∧ 0 ≤ c ∧ 0 < r ∧ r < 5000 ∧ r ≤ L ∧ k * L = 10000 * c + r := by
  obtain ⟨g, hg⟩ : ∃ g : Nat, g = Int.gcd L 10000 := ⟨_, rfl⟩
  have hgpos : 0 < g := by rw [hg]; exact Int.gcd_pos_of_ne_zero_left _ (by omega)
  have hgL : (g : Int) ∣ L := by rw [hg]; exact Int.gcd_dvd_left ..
  have hg10 : (g : Int) ∣ 10000 := by rw [hg]; exact Int.gcd_dvd_right ..
  have hglt : (g : Int) < 5000 := by
    obtain ⟨m, hm⟩ := hg10
    by_contra hc
    have : m = 1 ∨ m = 2 := by
      have h1 : 0 < m := by
        by_contra h0
        have : (g : Int) * m ≤ 0 := mul_nonpos_of_nonneg_of_nonpos (by omega) (by omega)
        omega
      have h2 : m ≤ 2 := by
        by_contra h3
        have : (g : Int) * m ≥ 5000 * 3 := mul_le_mul (by omega) (by omega) (by omega) (by omega)
        omega
      omega
    rcases this with rfl | rfl
    · apply h
      have : (5000 : Int) ∣ g := ⟨2, by omega⟩
      exact this.trans hgL
    · apply h
      have : (g : Int) = 5000 := by omega
      rw [this] at hgL
      exact hgL
  have hb := Int.gcd_eq_gcd_ab L 10000
  rw [← hg] at hb
  obtain ⟨a, ha⟩ : ∃ a, a = Int.gcdA L 10000 := ⟨_, rfl⟩
  obtain ⟨b, hb'⟩ : ∃ b, b = Int.gcdB L 10000 := ⟨_, rfl⟩
  rw [← ha, ← hb'] at hb
  have hgleL : (g : Int) ≤ L := Int.le_of_dvd hL hgL
  refine ⟨a % 10000 + 10000, ((a % 10000 + 10000) * L - g) / 10000, g, ?_, ?_, by omega, hglt, hgleL, ?_⟩
  · have := Int.emod_nonneg a (show (10000 : Int) ≠ 0 by decide); omega
  · have := Int.emod_nonneg a (show (10000 : Int) ≠ 0 by decide)
    have : (1 : Int) * L ≤ (a % 10000 + 10000) * L := mul_le_mul_of_nonneg_right (by omega) (by omega)
    omega
  · have e1 : a % 10000 = a - 10000 * (a / 10000) := by omega
    have e2 : (a % 10000 + 10000) * L - g = 10000 * (L - a / 10000 * L - b) := by
      rw [e1, hb]; ring
    omega

/-- **C31, exactly.** Every conversion with the file length `L` (in microseconds), whatever the reader, the files, `t1` and `t2` are, ends if and only
if the file length is a multiple of 5 ms, half the sample interval. (One hour, the default, is; one seventh of an hour is not.) -/
theorem C31_exact (L : Int) (hL : 0 < L) :
    (∀ j : Job, j.L = L → 0 < j.blockdays → ∀ t1, EventuallyEnds j t1) ↔ 5000 ∣ L := by
  constructor
  · intro h
    by_contra hd
    obtain ⟨k, c, r, hk, hc, hr, hr2, hrL, he⟩ := near_grid L hL hd
    have htr : truncTime (10000 * c) L + L = 10000 * c + r := by
      unfold truncTime
      rw [Int.tdiv_eq_ediv_of_nonneg (by omega)]
      have : 10000 * c / L = k - 1 := by
        rw [Int.ediv_eq_iff_of_pos hL]
        have : (k - 1) * L = k * L - L := by ring
        have : (k - 1 + 1) * L = k * L := by ring
        constructor <;> omega
      rw [this]
      have : (k - 1) * L = k * L - L := by ring
      omega
    obtain ⟨N, q, hq, hN⟩ := h (oneSampleJob L c 7 (10000 * c)) rfl (by simp [oneSampleJob]) (some 0)
    have := hN N (le_refl _)
    rw [never_ends L c r 7 (10000 * c) hc hr hr2 htr (le_refl _)] at this
    exact hq this.symm
  · rintro ⟨l, hl⟩ j hj hb t1
    exact ends_half j l hb (by omega) (by omega) t1

/-- Both sides occur: an hour, and the next microsecond below one seventh of an hour. -/
example : (5000 : Int) ∣ 3600000000 ∧ (5000 : Int) ∣ 15000 ∧ ¬ (5000 : Int) ∣ 514285714 := by decide

end Gemlog
