import Verif.Props.Moments

/-!
# C108: exactly what a limit given as a number of seconds loses
-/

namespace Gemlog

/-- Two conversions from the time `t`, given as a number and as an instant: the second one has written `W` in addition. -/
def NumberState (l L t : Int) (s s' : AState) : Prop :=
  Above l s.p ∧ ∃ W, s' = ⟨s.p, .utc s.h.time, W ++ s.out⟩ ∧ (∀ q ∈ samples W, t ≤ 10000 * q.1 ∧ 10000 * q.1 < windowEnd L t) ∧
    ((s.h = .num t ∧ s.out = [] ∧ W = []) ∨ ∃ h, s.h = .utc h)

theorem sliceAt_num_nil {l L t : Int} (hl : 0 < l) (hL : L = 10000 * l) (ht : 0 ≤ t) (p : List Trace) (hp : Above l p) :
    sliceAt (.num t) (windowEnd L t - 1) p = [] := by
  by_contra hne
  obtain ⟨tr, rest, heq⟩ := List.exists_cons_of_ne_nil hne
  have hmem : tr ∈ sliceAt (.num t) (windowEnd L t - 1) p := by rw [heq]; simp
  have hdata : tr.data ≠ [] := by
    unfold sliceAt at hmem
    rw [List.mem_filter] at hmem
    have := hmem.2
    intro hd
    rw [hd] at this
    simp at this
  obtain ⟨x, hx⟩ := mem_samples_start hmem hdata
  obtain ⟨tr0, h1, h2, h3⟩ := samples_sliceAt_num _ _ _ hx
  have h4 := (hp tr0 h1).2
  have h5 := truncTime_nonneg ht (show 0 < L by omega)
  have h6 : truncTime t L ≤ t := by
    unfold truncTime
    rw [Int.tdiv_eq_ediv_of_nonneg ht]
    have := Int.ediv_mul_le t (show L ≠ 0 by omega)
    nlinarith
  simp only [windowEnd] at h3
  omega

theorem writeBodyAt_number {l L t t2 : Int} (hl : 0 < l) (hL : L = 10000 * l) (ht : 0 ≤ t) {s s' : AState} (h : NumberState l L t s s')
    {r : AState} {b : Bool} (hr : writeBodyAt L (.utc t2) s = .done (r, b)) :
    ∃ r', writeBodyAt L (.utc t2) s' = .done (r', b) ∧ NumberState l L t r r' := by
  obtain ⟨hA, W, rfl, hW, hh⟩ := h
  unfold writeBodyAt at hr ⊢
  simp only [trimAt_utc] at hr ⊢
  have hk : ∃ W', W ++ s.out ++ sliceAt (.utc s.h.time) (truncTime s.h.time L + L - 1) s.p =
      W' ++ (s.out ++ sliceAt s.h (truncTime s.h.time L + L - 1) s.p) ∧ ∀ q ∈ samples W', t ≤ 10000 * q.1 ∧ 10000 * q.1 < windowEnd L t := by
    rcases hh with ⟨h1, h2, h3⟩ | ⟨h, h1⟩
    · refine ⟨sliceAt (.utc t) (windowEnd L t - 1) s.p, ?_, ?_⟩
      · rw [h1, h2, h3]
        have := sliceAt_num_nil hl hL ht s.p hA
        unfold windowEnd at this
        simp only [Moment.time]
        rw [this]
        simp [windowEnd]
      · intro q hq
        simp only [sliceAt] at hq
        rw [samples_sliceStream, List.mem_filter] at hq
        have := hq.2
        simp only [Bool.and_eq_true, decide_eq_true_eq] at this
        omega
    · exact ⟨W, by rw [h1]; simp [Moment.time], hW⟩
  obtain ⟨W', hk, hW'⟩ := hk
  simp only [Moment.time] at hk hr ⊢
  cases htr : trimStream (truncTime s.h.time L + L) t2 s.p with
  | error x => simp only [Moment.time] at htr; rw [htr] at hr; cases hr
  | ok p =>
    have hA' := above_trim hA htr
    simp only [Moment.time] at htr
    rw [htr] at hr ⊢
    cases p with
    | nil =>
      simp only [Run.done.injEq, Prod.mk.injEq] at hr ⊢
      obtain ⟨rfl, rfl⟩ := hr
      exact ⟨_, ⟨rfl, rfl⟩, hA', W', by simp only [hk]; rfl, hW', .inr ⟨_, rfl⟩⟩
    | cons tr p =>
      simp only [Run.done.injEq, Prod.mk.injEq] at hr ⊢
      obtain ⟨rfl, rfl⟩ := hr
      exact ⟨_, ⟨rfl, rfl⟩, hA', W', by simp only [hk]; rfl, hW', .inr ⟨_, rfl⟩⟩

theorem writeFullAt_number {l L t t2 : Int} (hl : 0 < l) (hL : L = 10000 * l) (ht : 0 ≤ t) (n : Nat) {s s' r : AState} (h : NumberState l L t s s')
    (hr : writeFullAt L (.utc t2) n s = .done r) : ∃ r', writeFullAt L (.utc t2) n s' = .done r' ∧ NumberState l L t r r' := by
  induction n generalizing s s' with
  | zero => cases hr
  | succ n ih =>
    have h0 := h
    obtain ⟨-, W, hs', -, -⟩ := h0
    have hp : s'.p = s.p := by rw [hs']
    have ht' : s'.h.time = s.h.time := by rw [hs']; rfl
    rw [writeFullAt] at hr ⊢
    rw [hp]
    cases hlast : s.p.getLast? with
    | none => rw [hlast] at hr; cases hr
    | some tr =>
      rw [hlast] at hr
      simp only at hr ⊢
      rw [ht']
      split_ifs at hr ⊢ with c
      · cases hb : writeBodyAt L (.utc t2) s with
        | running => rw [hb] at hr; cases hr
        | raised x o => rw [hb] at hr; cases hr
        | done a =>
          obtain ⟨a, b⟩ := a
          obtain ⟨a', k1, k2⟩ := writeBodyAt_number hl hL ht h hb
          rw [hb] at hr
          rw [k1]
          cases b with
          | true => exact ih k2 hr
          | false =>
            simp only [Run.bind, Bool.false_eq_true, if_false, Run.done.injEq] at hr ⊢
            subst hr
            exact ⟨_, rfl, k2⟩
      · simp only [Run.done.injEq] at hr
        subst hr
        exact ⟨_, rfl, h⟩

theorem writeRestAt_number {l L t t2 : Int} (hl : 0 < l) (hL : L = 10000 * l) (ht : 0 ≤ t) (n : Nat) {s s' r : AState} (h : NumberState l L t s s')
    (hr : writeRestAt L (.utc t2) n s = .done r) : ∃ r', writeRestAt L (.utc t2) n s' = .done r' ∧ NumberState l L t r r' := by
  induction n generalizing s s' with
  | zero => cases hr
  | succ n ih =>
    have h0 := h
    obtain ⟨-, W, hs', -, -⟩ := h0
    have hp : s'.p = s.p := by rw [hs']
    have ht' : s'.h.time = s.h.time := by rw [hs']; rfl
    rw [writeRestAt] at hr ⊢
    rw [hp]
    cases hlast : s.p.getLast? with
    | none => rw [hlast] at hr; cases hr
    | some tr =>
      rw [hlast] at hr
      simp only at hr ⊢
      rw [ht']
      split_ifs at hr ⊢ with c
      · cases hb : writeBodyAt L (.utc t2) s with
        | running => rw [hb] at hr; cases hr
        | raised x o => rw [hb] at hr; cases hr
        | done a =>
          obtain ⟨a, b⟩ := a
          obtain ⟨a', k1, k2⟩ := writeBodyAt_number hl hL ht h hb
          rw [hb] at hr
          rw [k1]
          cases b with
          | true => exact ih k2 hr
          | false =>
            simp only [Run.bind, Bool.false_eq_true, if_false, Run.done.injEq] at hr ⊢
            subst hr
            exact ⟨_, rfl, k2⟩
      · simp only [Run.done.injEq] at hr
        subst hr
        exact ⟨_, rfl, h⟩

theorem readBlocks_out (j : Job) (tt2 : Int) (out out' : List Trace) (n : Nat) (n1 : Rat) (p : List Trace) (reads : List (List Int))
    (r : Rat × List Trace × List (List Int)) (h : readBlocks j tt2 out n n1 p reads = .done r) : readBlocks j tt2 out' n n1 p reads = .done r := by
  induction n generalizing n1 p reads with
  | zero => cases h
  | succ n ih =>
    rw [readBlocks] at h ⊢
    cases hlast : p.getLast? with
    | none => rw [hlast] at h; cases h
    | some tr =>
      rw [hlast] at h
      simp only at h ⊢
      split_ifs at h ⊢ with c
      · cases hd : j.read (j.block n1) with
        | error x =>
          rw [hd] at h
          simp only at h ⊢
          split_ifs at h ⊢ with c2
          exact ih _ _ _ h
        | ok d =>
          rw [hd] at h
          cases d with
          | nil => exact ih _ _ _ h
          | cons a d => exact ih _ _ _ h
      · exact h

theorem mainLoopAt_number {j : Job} {l t : Int} (hl : 0 < l) (hL : j.L = 10000 * l) (ht : 0 ≤ t)
    (hA : ∀ b d, j.read b = .ok d → Above l d) (n : Nat) (n1 : Rat) (t1 : Int) (reads : List (List Int)) {s s' r : AState}
    (h : NumberState l j.L t s s') (hr : mainLoopAt j false n n1 t1 s reads = .done r) :
    ∃ r', mainLoopAt j false n n1 t1 s' reads = .done r' ∧ NumberState l j.L t r r' := by
  induction n generalizing n1 t1 reads s s' with
  | zero => cases hr
  | succ n ih =>
    rw [mainLoopAt] at hr ⊢
    dsimp only at hr ⊢
    by_cases c1 : n1 > j.last
    · rw [if_pos c1, Run.done.injEq] at hr
      rw [if_pos c1]; subst hr; exact ⟨_, rfl, h⟩
    rw [if_neg c1] at hr ⊢
    by_cases c2 : t1 > j.t2
    · rw [if_pos c2, Run.done.injEq] at hr
      rw [if_pos c2]; subst hr; exact ⟨_, rfl, h⟩
    rw [if_neg c2] at hr ⊢
    obtain ⟨hAs, W, hs', hW, hh⟩ := h
    cases hb : readBlocks j (min j.t2 (truncTime t1 j.day + j.day)) s.out n n1 s.p reads with
    | running => rw [hb] at hr; cases hr
    | raised x o => rw [hb] at hr; cases hr
    | done a =>
      have hab : Above l a.2.1 := by
        have := readBlocks_above hA (min j.t2 (truncTime t1 j.day + j.day)) s.out n n1 s.p reads hAs (Q := fun _ => True) trivial
        rw [hb] at this
        exact this
      have hb' := readBlocks_out _ _ _ s'.out _ _ _ _ _ hb
      have hp : s'.p = s.p := by rw [hs']
      rw [hb] at hr
      rw [hp, hb']
      simp only [Run.bind] at hr ⊢
      have h1 : NumberState l j.L t { s with p := a.2.1 } { s' with p := a.2.1 } := ⟨hab, W, by rw [hs'], hW, hh⟩
      have hst : j.stop false = .utc j.t2 := rfl
      rw [hst] at hr ⊢
      cases hw : writeFullAt j.L (.utc j.t2) n { s with p := a.2.1 } with
      | running => rw [hw] at hr; cases hr
      | raised x o => rw [hw] at hr; cases hr
      | done w =>
        obtain ⟨w', k1, k2⟩ := writeFullAt_number hl hL ht n h1 hw
        rw [hw] at hr
        rw [k1]
        simp only at hr ⊢
        obtain ⟨hAw, W2, hw', hW2, hh2⟩ := k2
        have hwp : w'.p = w.p := by rw [hw']
        cases htr : trimAt w.h (.utc j.t2) w.p with
        | error x => rw [htr] at hr; cases hr
        | ok p =>
          rw [htr] at hr
          have htr' : trimAt w'.h (.utc j.t2) w'.p = .ok p := by
            rw [hw']
            rcases hh2 with ⟨e1, -, -⟩ | ⟨h2, e1⟩
            · cases hc : w.p with
              | nil => rw [hc] at htr; exact htr
              | cons tr q => rw [e1, hc] at htr; simp [trimAt] at htr
            · rw [e1] at htr ⊢; exact htr
          have hAp : Above l p := by
            have hz := htr'
            rw [hw'] at hz
            simp only [trimAt_utc] at hz
            exact above_trim hAw hz
          rw [htr']
          exact ih _ _ _ (s := { w with p := p }) (s' := { w' with p := p }) ⟨hAp, W2, by rw [hw'], hW2, hh2⟩ hr

/-- **C108, exactly what is lost.** If `t1` is given as a number of seconds at or after the first sample, and the conversion ends normally: given as an instant it ends
normally too, and has written the same, and before it exactly the samples from `t1` to the end of the window of the file length that contains `t1`. -/
theorem C108_violated_start_exact (j : Job) (l t adj : Int) (hl : 0 < l) (hL : j.L = 10000 * l) (ht : 0 ≤ t) (tr0 : Trace) (d0 : List Trace)
    (hfirst : j.read (j.block (j.nums.head?.getD 0 : Int)) = .ok (tr0 :: d0)) (hbefore : 10000 * tr0.start ≤ t)
    (hnum : j.nums.head?.getD 0 ≤ j.last)
    (hread : ∀ b d, j.read b = .ok d → ∀ tr ∈ d, tr.data ≠ [] ∧ j.L ≤ 10000 * tr.start) (n : Nat) (out : List Trace)
    (h : convertAt j false (some (.num t)) adj n = .done out) :
    ∃ W, convertAt j false (some (.utc t)) adj n = .done (W ++ out) ∧
      (∀ q ∈ samples W, t ≤ 10000 * q.1 ∧ 10000 * q.1 < (t / j.L + 1) * j.L) ∧ ∀ q ∈ samples out, (t / j.L + 1) * j.L ≤ 10000 * q.1 := by
  have hlate := C108_violated_start j l t adj hl hL ht tr0 d0 hfirst hbefore hnum hread n
  rw [h] at hlate
  have he : windowEnd j.L t = (t / j.L + 1) * j.L := by
    unfold windowEnd truncTime
    rw [Int.tdiv_eq_ediv_of_nonneg ht]
    ring
  have hA : ∀ b d, j.read b = .ok d → Above l d := by
    intro b d hd tr htr
    have := hread b d hd tr htr
    exact ⟨this.1, by omega⟩
  unfold convertAt at h ⊢
  cases n with
  | zero => cases h
  | succ n =>
    have hf : firstBlock j (n + 1) (j.nums.head?.getD 0 : Int) [] = .done ((j.nums.head?.getD 0 : Int) + 12 * j.blockdays, tr0 :: d0,
        [] ++ [j.block (j.nums.head?.getD 0 : Int)]) := by
      rw [firstBlock, if_pos (by exact_mod_cast hnum), hfirst]
    rw [hf] at h ⊢
    simp only [Run.bind, startMoment] at h ⊢
    have h1 : firstHour (.num t) (tr0 :: d0) = .num t := by
      rw [firstHour_cons, if_neg (show ¬ 10000 * tr0.start > (Moment.num t).time from not_lt.mpr hbefore)]
    have h2 : firstHour (.utc t) (tr0 :: d0) = .utc t := by
      rw [firstHour_cons, if_neg (show ¬ 10000 * tr0.start > (Moment.utc t).time from not_lt.mpr hbefore)]
    rw [h1] at h
    rw [h2]
    have hst : j.stop false = .utc j.t2 := rfl
    rw [hst] at h ⊢
    simp only [Moment.time] at h ⊢
    cases hm : mainLoopAt j false (n + 1) ((j.nums.head?.getD 0 : Int) + 12 * j.blockdays) t ⟨tr0 :: d0, .num t, []⟩
        ([] ++ [j.block (j.nums.head?.getD 0 : Int)]) with
    | running => rw [hm] at h; cases h
    | raised x o => rw [hm] at h; cases h
    | done s =>
      obtain ⟨s', k1, k2⟩ := mainLoopAt_number hl hL ht hA (n + 1) _ _ _
        (s' := ⟨tr0 :: d0, .utc t, []⟩) ⟨hA _ _ hfirst, [], rfl, by simp [samples], .inl ⟨rfl, rfl, rfl⟩⟩ hm
      rw [hm] at h
      rw [k1]
      simp only at h ⊢
      cases hw : writeRestAt j.L (.utc j.t2) (n + 1) s with
      | running => rw [hw] at h; cases h
      | raised x o => rw [hw] at h; cases h
      | done w =>
        obtain ⟨w', m1, m2⟩ := writeRestAt_number hl hL ht (n + 1) k2 hw
        rw [hw] at h
        rw [m1]
        simp only [Run.done.injEq] at h ⊢
        obtain ⟨-, W, hw', hW, -⟩ := m2
        refine ⟨W, by rw [hw', h], ?_, hlate⟩
        rw [← he]
        exact hW

/-- Samples around three o'clock, from 02:59:59.99 on. -/
example : ∃ W, convertAt momentJob false (some (.utc 10799990000)) 0 6 = .done (W ++ [⟨1080010, [4]⟩]) ∧
    (∀ q ∈ samples W, 10799990000 ≤ 10000 * q.1 ∧ 10000 * q.1 < (10799990000 / 3600000000 + 1) * 3600000000) ∧
    ∀ q ∈ samples [⟨1080010, [4]⟩], (10799990000 / 3600000000 + 1) * 3600000000 ≤ 10000 * q.1 :=
  C108_violated_start_exact momentJob 360000 10799990000 0 (by decide) (by decide) (by decide) ⟨1079998, [1, 2]⟩ [⟨1080010, [4]⟩] rfl (by decide)
    (by decide) (by intro b d hd; simp only [momentJob, Except.ok.injEq] at hd; rw [← hd]; decide) 6 _ (by decide +kernel)

/-- **C108 is violated for `t2`: what is written.** If `t2` is given as a number of seconds, a conversion from a given instant writes the samples of at most one
window of the file length, whatever `t2` is; and if it writes something, it ends with an exception. -/
theorem C108_violated_end_window (j : Job) (t adj : Int) (hL : 0 < j.L) (ht : 0 ≤ t) (n : Nat) :
    ∃ k : Int, (∀ q ∈ samples (convertAt j true (some (.utc t)) adj n).segments, t ≤ 10000 * q.1 ∧ k * j.L ≤ 10000 * q.1 ∧ 10000 * q.1 < (k + 1) * j.L) ∧
      ((convertAt j true (some (.utc t)) adj n).segments ≠ [] → ∃ x out, convertAt j true (some (.utc t)) adj n = .raised x out) := by
  let Q : List Trace → Prop := fun out => ∃ k : Int, ∀ q ∈ samples out, t ≤ 10000 * q.1 ∧ k * j.L ≤ 10000 * q.1 ∧ 10000 * q.1 < (k + 1) * j.L
  let G : AState → Prop := fun s => s.out = [] ∧ ∃ h, s.h = .utc h ∧ t ≤ h
  have hQ : ∀ s, G s → Q s.out := by
    intro s g
    refine ⟨0, ?_⟩
    rw [g.1]
    simp [samples]
  have hb : ∀ s, G s → (writeBodyAt j.L (j.stop true) s).Sat (fun r => G r.1) Q := by
    rintro s ⟨hs, h, hh, hth⟩
    unfold writeBodyAt
    cases hp : s.p with
    | nil =>
      simp only [trimAt, Run.Sat]
      rw [hh, hs]
      refine ⟨rfl, _, rfl, ?_⟩
      have := truncTime_gt (x := h) hL
      simp only [Moment.time]
      omega
    | cons tr p =>
      simp only [trimAt, Job.stop, Run.Sat, if_true]
      rw [hh, hs]
      refine ⟨h / j.L, ?_⟩
      intro q hq
      simp only [List.nil_append, sliceAt, Moment.time] at hq
      rw [samples_sliceStream, List.mem_filter] at hq
      have h1 := hq.2
      simp only [Bool.and_eq_true, decide_eq_true_eq] at h1
      have h2 : truncTime h j.L + j.L = (h / j.L + 1) * j.L := by
        unfold truncTime
        rw [Int.tdiv_eq_ediv_of_nonneg (by omega)]
        ring
      have h3 := Int.ediv_mul_le h (show j.L ≠ 0 by omega)
      refine ⟨by omega, by omega, by omega⟩
  have key : (convertAt j true (some (.utc t)) adj n).Sat (fun out => out = []) Q := by
    unfold convertAt
    have hf := firstBlock_sat (j := j) (Q := Q) (R := fun _ => True) (fun _ _ _ => trivial) ⟨0, by simp [samples]⟩ n (j.nums.head?.getD 0 : Int) []
    cases hfb : firstBlock j n (j.nums.head?.getD 0 : Int) [] with
    | running => trivial
    | raised x o => rw [hfb] at hf; exact hf
    | done r =>
      simp only [Run.bind, startMoment]
      refine (mainLoopAt_sat (e := true) (G := G) hb hQ ?_ (fun _ _ g _ => g) _ _ _ _ _ ?_).bind ?_
      · intro s g tt2 m n1 reads
        refine Run.Sat.mono (readBlocks_sat (j := j) (G := fun _ _ => False) (A := fun _ => True) (Q := Q) ⟨fun _ g => g.elim, fun _ _ g => g.elim,
          fun _ _ _ _ _ _ => trivial, fun _ _ _ _ _ => trivial⟩ tt2 s.out m n1 s.p reads (hQ s g) trivial) ?_
        intro r hr
        exact g
      · refine ⟨rfl, ?_⟩
        cases r.2.1 with
        | nil => exact ⟨t, rfl, le_refl _⟩
        | cons tr p => rw [firstHour_utc]; exact ⟨_, rfl, le_max_left _ _⟩
      · intro s g
        refine (writeRestAt_sat hb hQ _ s g).bind ?_
        intro w gw
        exact gw.1
  cases hc : convertAt j true (some (.utc t)) adj n with
  | done out =>
    rw [hc] at key
    have key' : out = [] := key
    subst key'
    exact ⟨0, by simp [Run.segments, samples], fun h => absurd rfl h⟩
  | raised x out =>
    rw [hc] at key
    obtain ⟨k, hk⟩ := key
    exact ⟨k, hk, fun _ => ⟨x, out, rfl⟩⟩
  | running => exact ⟨0, by simp [Run.segments, samples], fun h => absurd rfl h⟩

/-- All but the first hour is lost. -/
example : (convertAt momentJob true (some (.utc 5)) 0 6).segments = [⟨1079998, [1, 2]⟩] := by decide +kernel

end Gemlog
