import Verif.Model.Moments
import Verif.Props.Limits

/-!
# C108: limits may be given as instants or as seconds, and times can be adjusted
-/

namespace Gemlog

/-- The same state, with the hour to write as an instant. -/
def WState.at (s : WState) : AState := ⟨s.p, .utc s.h, s.out⟩

/-- Apply a function to the result of a run. -/
def Run.result {α β : Type} (f : α → β) (r : Run α) : Run β := r.bind fun a => .done (f a)

theorem writeBodyAt_utc (L t2 : Int) (s : WState) :
    writeBodyAt L (.utc t2) s.at = (writeBody L t2 s).result fun r => (r.1.at, r.2) := by
  unfold writeBodyAt writeBody WState.at writeWindow
  dsimp only [Moment.time, sliceAt]
  have h : trimAt (.utc (truncTime s.h L + L)) (.utc t2) s.p = trimStream (truncTime s.h L + L) t2 s.p := by
    unfold trimAt
    cases s.p with
    | nil => rfl
    | cons tr p => rfl
  rw [h]
  cases trimStream (truncTime s.h L + L) t2 s.p with
  | error x => rfl
  | ok q => cases q <;> rfl

theorem writeFullAt_utc (L t2 : Int) (n : Nat) (s : WState) :
    writeFullAt L (.utc t2) n s.at = (writeFull L t2 n s).result WState.at := by
  induction n generalizing s with
  | zero => rfl
  | succ n ih =>
    rw [writeFullAt, writeFull]
    have hp : s.at.p = s.p := rfl
    rw [hp]
    cases s.p.getLast? with
    | none => rfl
    | some tr =>
      simp only
      have hh : s.at.h.time = s.h := rfl
      rw [hh]
      split_ifs with c
      · rw [writeBodyAt_utc]
        cases writeBody L t2 s with
        | running => rfl
        | raised x o => rfl
        | done r =>
          obtain ⟨r, b⟩ := r
          cases b with
          | true => exact ih r
          | false => rfl
      · rfl

theorem writeRestAt_utc (L t2 : Int) (n : Nat) (s : WState) :
    writeRestAt L (.utc t2) n s.at = (writeRest L t2 n s).result WState.at := by
  induction n generalizing s with
  | zero => rfl
  | succ n ih =>
    rw [writeRestAt, writeRest]
    have hp : s.at.p = s.p := rfl
    rw [hp]
    cases s.p.getLast? with
    | none => rfl
    | some tr =>
      simp only
      have hh : s.at.h.time = s.h := rfl
      rw [hh]
      split_ifs with c
      · rw [writeBodyAt_utc]
        cases writeBody L t2 s with
        | running => rfl
        | raised x o => rfl
        | done r =>
          obtain ⟨r, b⟩ := r
          cases b with
          | true => exact ih r
          | false => rfl
      · rfl

theorem trimAt_utc (a b : Int) (p : List Trace) : trimAt (.utc a) (.utc b) p = trimStream a b p := by
  cases p <;> rfl

theorem mainLoopAt_utc (j : Job) (n : Nat) (n1 : Rat) (t1 : Int) (w : WState) (reads : List (List Int)) :
    mainLoopAt j false n n1 t1 w.at reads = (mainLoop j n ⟨n1, t1, w, reads⟩).result fun s => s.w.at := by
  induction n generalizing n1 t1 w reads with
  | zero => rfl
  | succ n ih =>
    rw [mainLoopAt, mainLoop]
    dsimp only
    split_ifs with c1 c2
    · rfl
    · rfl
    · have hr : readBlocks j (min j.t2 (truncTime t1 j.day + j.day)) w.at.out n n1 w.at.p reads =
          readBlocks j (min j.t2 (truncTime t1 j.day + j.day)) w.out n n1 w.p reads := rfl
      rw [hr]
      cases readBlocks j (min j.t2 (truncTime t1 j.day + j.day)) w.out n n1 w.p reads with
      | running => rfl
      | raised x o => rfl
      | done r =>
        have hs : ({ w.at with p := r.2.1 } : AState) = ({ w with p := r.2.1 } : WState).at := rfl
        have he : j.stop false = .utc j.t2 := rfl
        simp only [Run.bind]
        rw [hs, he, writeFullAt_utc]
        cases writeFull j.L j.t2 n { w with p := r.2.1 } with
        | running => rfl
        | raised x o => rfl
        | done v =>
          simp only [Run.result, Run.bind]
          have ht : trimAt v.at.h (.utc j.t2) v.at.p = trimStream v.h j.t2 v.p := trimAt_utc _ _ _
          rw [ht]
          cases trimStream v.h j.t2 v.p with
          | error x => rfl
          | ok p => exact ih r.1 _ ⟨p, v.h, v.out⟩ r.2.2

theorem rest_utc (j : Job) (n : Nat) (n1 : Rat) (t1 : Int) (w : WState) (reads : List (List Int)) :
    (mainLoopAt j false n n1 t1 w.at reads).bind (fun s =>
        (writeRestAt j.L (j.stop false) n s).bind fun w => .done w.out) =
      ((mainLoop j n ⟨n1, t1, w, reads⟩).bind fun s =>
        (writeRest j.L j.t2 n s.w).bind fun w => .done { s with w := w }).result fun s => s.w.out := by
  rw [mainLoopAt_utc]
  cases mainLoop j n ⟨n1, t1, w, reads⟩ with
  | running => rfl
  | raised x o => rfl
  | done s =>
    simp only [Run.result, Run.bind]
    have he : j.stop false = .utc j.t2 := rfl
    rw [he, writeRestAt_utc]
    cases writeRest j.L j.t2 n s.w <;> rfl

theorem firstHour_cons (t : Moment) (tr : Trace) (p : List Trace) :
    firstHour t (tr :: p) = if 10000 * tr.start > t.time then .utc (10000 * tr.start) else t := rfl

theorem firstHour_utc (t : Int) (tr : Trace) (p : List Trace) :
    firstHour (.utc t) (tr :: p) = .utc (max t (10000 * tr.start)) := by
  rw [firstHour_cons]
  by_cases c : 10000 * tr.start > (Moment.utc t).time
  · rw [if_pos c]
    have : t < 10000 * tr.start := c
    rw [max_eq_right (le_of_lt this)]
  · rw [if_neg c]
    have : ¬ 10000 * tr.start > t := c
    rw [max_eq_left (by omega)]

/-- **C108, instants.** With limits that are instants, this is the conversion of C26 to C38: all that is proved there holds of it. -/
theorem C108_instants (j : Job) (t1 : Option Int) (adj : Int) (n : Nat) :
    convertAt j false (t1.map .utc) adj n = (convertLoops j t1 n).result fun s => s.w.out := by
  unfold convertAt convertLoops
  cases firstBlock j n (j.nums.head?.getD 0 : Int) [] with
  | running => rfl
  | raised x o => rfl
  | done r =>
    simp only [Run.bind]
    have hst : startMoment (t1.map .utc) r.2.1 = (startTime t1 r.2.1).map fun q => (q.1, Moment.utc q.2) := by
      cases t1 <;> rfl
    rw [hst]
    cases startTime t1 r.2.1 with
    | error x => rfl
    | ok q =>
      obtain ⟨p, t⟩ := q
      simp only [Except.map]
      have hs : (⟨p, firstHour (.utc t) p, []⟩ : AState) =
          (⟨p, match p with | [] => t | tr :: _ => max t (10000 * tr.start), []⟩ : WState).at := by
        cases p with
        | nil => rfl
        | cons tr p => rw [firstHour_utc]; rfl
      rw [hs]
      exact rest_utc j n r.1 t _ r.2.2

/-- The segments a conversion has written when it ends. -/
def Run.segments : Run (List Trace) → List Trace
  | .done out => out
  | .raised _ out => out
  | .running => []

theorem firstBlock_from {j : Job} {n : Nat} {n1 : Rat} {reads : List (List Int)} {r : Rat × List Trace × List (List Int)}
    (h : firstBlock j n n1 reads = .done r) : ∃ b tr d, j.read b = .ok (tr :: d) ∧ r.2.1 = tr :: d := by
  induction n generalizing n1 reads with
  | zero => simp [firstBlock] at h
  | succ n ih =>
    rw [firstBlock] at h
    split_ifs at h with c1
    cases hr : j.read (j.block n1) with
    | error x =>
      rw [hr] at h
      simp only at h
      split_ifs at h with hx
      exact ih h
    | ok d =>
      rw [hr] at h
      cases d with
      | nil => exact ih h
      | cons tr d =>
        simp only [Run.done.injEq] at h
        exact ⟨_, tr, d, hr, by rw [← h]⟩

theorem Run.Sat.mono {α : Type} {P P' : α → Prop} {Q : List Trace → Prop} {r : Run α} (h : r.Sat P Q) (hi : ∀ a, P a → P' a) : r.Sat P' Q := by
  cases r with
  | done a => exact hi a h
  | raised x o => exact h
  | running => trivial

/-- **C108, numbers before the data.** A number of seconds before the first sample has the same effect as the instant it stands for. Missing:
other numbers, see `C108_violated_start` and `C108_violated_end`. -/
theorem C108_number_before_partial (j : Job) (t : Int) (adj : Int) (n : Nat)
    (hfirst : ∀ b tr d, j.read b = .ok (tr :: d) → t < 10000 * tr.start) :
    convertAt j false (some (.num t)) adj n = convertAt j false (some (.utc t)) adj n := by
  unfold convertAt
  cases hf : firstBlock j n (j.nums.head?.getD 0 : Int) [] with
  | running => rfl
  | raised x o => rfl
  | done r =>
    obtain ⟨b, tr, d, h1, h2⟩ := firstBlock_from hf
    have := hfirst b tr d h1
    simp only [Run.bind, startMoment]
    have hh : firstHour (.num t) r.2.1 = firstHour (.utc t) r.2.1 := by
      rw [h2, firstHour_cons, firstHour_cons]
      rw [if_pos (show 10000 * tr.start > (Moment.num t).time from this), if_pos (show 10000 * tr.start > (Moment.utc t).time from this)]
    rw [hh]
    rfl

/-! ## Numbers inside the data -/

theorem writeFullAt_sat {L : Int} {t2 : Moment} {G : AState → Prop} {Q : List Trace → Prop}
    (hb : ∀ s, G s → (writeBodyAt L t2 s).Sat (fun r => G r.1) Q) (ho : ∀ s, G s → Q s.out) (n : Nat) (s : AState) (h : G s) :
    (writeFullAt L t2 n s).Sat G Q := by
  induction n generalizing s with
  | zero => trivial
  | succ n ih =>
    rw [writeFullAt]
    cases s.p.getLast? with
    | none => exact ho s h
    | some tr =>
      simp only
      split_ifs with hc
      · refine (hb s h).bind ?_
        rintro ⟨r, b⟩ g
        cases b with
        | true => exact ih r g
        | false => exact g
      · exact h

theorem writeRestAt_sat {L : Int} {t2 : Moment} {G : AState → Prop} {Q : List Trace → Prop}
    (hb : ∀ s, G s → (writeBodyAt L t2 s).Sat (fun r => G r.1) Q) (ho : ∀ s, G s → Q s.out) (n : Nat) (s : AState) (h : G s) :
    (writeRestAt L t2 n s).Sat G Q := by
  induction n generalizing s with
  | zero => trivial
  | succ n ih =>
    rw [writeRestAt]
    cases s.p.getLast? with
    | none => exact ho s h
    | some tr =>
      simp only
      split_ifs with hc
      · refine (hb s h).bind ?_
        rintro ⟨r, b⟩ g
        cases b with
        | true => exact ih r g
        | false => exact g
      · exact h

theorem mainLoopAt_sat {j : Job} {e : Bool} {G : AState → Prop} {Q : List Trace → Prop}
    (hb : ∀ s, G s → (writeBodyAt j.L (j.stop e) s).Sat (fun r => G r.1) Q) (ho : ∀ s, G s → Q s.out)
    (hread : ∀ s, G s → ∀ tt2 n n1 reads, (readBlocks j tt2 s.out n n1 s.p reads).Sat (fun r => G { s with p := r.2.1 }) Q)
    (htrim : ∀ s p, G s → trimAt s.h (j.stop e) s.p = .ok p → G { s with p := p })
    (n : Nat) (n1 : Rat) (t1 : Int) (s : AState) (reads : List (List Int)) (h : G s) :
    (mainLoopAt j e n n1 t1 s reads).Sat G Q := by
  induction n generalizing n1 t1 s reads with
  | zero => trivial
  | succ n ih =>
    rw [mainLoopAt]
    dsimp only
    split_ifs with c1 c2
    · exact h
    · exact h
    · refine (hread s h _ n n1 reads).bind ?_
      intro r hr
      refine (writeFullAt_sat hb ho n { s with p := r.2.1 } hr).bind ?_
      intro w hw
      cases ht : trimAt w.h (j.stop e) w.p with
      | error x => exact ho w hw
      | ok p => exact ih _ _ _ _ (htrim w p hw ht)

theorem readBlocks_above {j : Job} {B : Int} (hread : ∀ b d, j.read b = .ok d → Above B d) (tt2 : Int) (out : List Trace) (n : Nat)
    (n1 : Rat) (p : List Trace) (reads : List (List Int)) (h : Above B p) {Q : List Trace → Prop} (hQ : Q out) :
    (readBlocks j tt2 out n n1 p reads).Sat (fun r => Above B r.2.1) Q := by
  refine readBlocks_sat (j := j) (G := fun _ _ => False) (A := Above B) (Q := Q) ⟨fun _ g => g.elim, fun _ _ g => g.elim,
    fun a b p p' hp ht => above_trim hp ht, fun b d p hp hd => mergeGaps_above ?_⟩ tt2 out n n1 p reads hQ h
  intro tr htr
  rcases List.mem_append.mp htr with h' | h'
  · exact (hp tr h').2
  · exact (hread b d hd tr h').2

theorem samples_sliceAt_num (s e : Int) (p : List Trace) {q : Int × Int} (hq : q ∈ samples (sliceAt (.num s) e p)) :
    ∃ tr ∈ p, 10000 * tr.start + s ≤ 10000 * q.1 ∧ 10000 * q.1 ≤ e := by
  unfold sliceAt samples at hq
  rw [List.mem_flatMap] at hq
  obtain ⟨tr', h1, h2⟩ := hq
  rw [List.mem_filter, List.mem_map] at h1
  obtain ⟨⟨tr, h3, rfl⟩, _⟩ := h1
  rw [slice_stamps, List.mem_filter] at h2
  have := h2.2
  simp only [Bool.and_eq_true, decide_eq_true_eq] at this
  exact ⟨tr, h3, this⟩

/-- What holds during a conversion that starts at the number `t`, the window of which ends at `e`. -/
structure FromNumber (B t e : Int) (s : AState) : Prop where
  above : Above B s.p
  late : ∀ q ∈ samples s.out, e ≤ 10000 * q.1
  hour : s.h = .num t ∨ ∃ h, s.h = .utc h ∧ e ≤ h

theorem fromNumber_body {L l t2 B t e : Int} (hl : 0 < l) (hL : L = 10000 * l) (hB : L ≤ 10000 * B) (ht : 0 ≤ t) (he : e = windowEnd L t)
    (s : AState) (h : FromNumber B t e s) :
    (writeBodyAt L (.utc t2) s).Sat (fun r => FromNumber B t e r.1) (fun out => ∀ q ∈ samples out, e ≤ 10000 * q.1) := by
  have hLpos : 0 < L := by omega
  have hw : ∀ q ∈ samples (sliceAt s.h (windowEnd L s.h.time - 1) s.p), e ≤ 10000 * q.1 := by
    intro q hq
    rcases h.hour with hh | ⟨h', hh, hle⟩
    · rw [hh] at hq
      obtain ⟨tr, h1, h2, h3⟩ := samples_sliceAt_num _ _ _ hq
      have := (h.above tr h1).2
      have h4 := truncTime_nonneg ht hLpos
      simp only [Moment.time, windowEnd] at h3
      omega
    · rw [hh] at hq
      simp only [sliceAt] at hq
      rw [samples_sliceStream, List.mem_filter] at hq
      have := hq.2
      simp only [Bool.and_eq_true, decide_eq_true_eq] at this
      omega
  have hout : ∀ q ∈ samples (s.out ++ sliceAt s.h (windowEnd L s.h.time - 1) s.p), e ≤ 10000 * q.1 := by
    intro q hq
    rw [samples_append] at hq
    rcases List.mem_append.mp hq with h' | h'
    · exact h.late q h'
    · exact hw q h'
  have hend : e ≤ windowEnd L s.h.time := by
    rcases h.hour with hh | ⟨h', hh, hle⟩
    · rw [hh, he]; exact le_refl _
    · rw [hh]
      have := truncTime_gt (x := h') hLpos
      simp only [Moment.time, windowEnd]
      omega
  unfold writeBodyAt
  have hwe : truncTime s.h.time L + L = windowEnd L s.h.time := rfl
  rw [hwe]
  simp only [trimAt_utc]
  cases htr : trimStream (windowEnd L s.h.time) t2 s.p with
  | error x => exact hout
  | ok p =>
    have hA := above_trim h.above htr
    cases p with
    | nil => exact ⟨hA, hout, .inr ⟨_, rfl, hend⟩⟩
    | cons tr p =>
      refine ⟨hA, hout, .inr ⟨_, rfl, ?_⟩⟩
      obtain ⟨g, hg⟩ := windowEnd_grid l s.h.time
      rw [← hL] at hg
      rw [hg] at htr hend
      obtain ⟨x, hx⟩ := mem_samples_start (p := tr :: p) (tr := tr) (by simp) (hA tr (by simp)).1
      have := trim_grid_lower htr _ hx
      simp only at this
      omega

/-- **C108 is violated for `t1`.** If `t1` is given as a number of seconds and lies at or after the first sample, then whatever happens no sample
is written from the window of the file length that contains `t1`: the samples from `t1` to the end of this window are lost. (Data from 1970 on; the
file length is on the sample grid. Given as an instant, `t1` is respected: `C29_given_start`.) -/
theorem C108_violated_start (j : Job) (l t adj : Int) (hl : 0 < l) (hL : j.L = 10000 * l) (ht : 0 ≤ t) (tr0 : Trace) (d0 : List Trace)
    (hfirst : j.read (j.block (j.nums.head?.getD 0 : Int)) = .ok (tr0 :: d0)) (hbefore : 10000 * tr0.start ≤ t)
    (hnum : j.nums.head?.getD 0 ≤ j.last)
    (hread : ∀ b d, j.read b = .ok d → ∀ tr ∈ d, tr.data ≠ [] ∧ j.L ≤ 10000 * tr.start) (n : Nat) :
    ∀ q ∈ samples (convertAt j false (some (.num t)) adj n).segments, (t / j.L + 1) * j.L ≤ 10000 * q.1 := by
  have hLpos : 0 < j.L := by omega
  have he : windowEnd j.L t = (t / j.L + 1) * j.L := by
    unfold windowEnd truncTime
    rw [Int.tdiv_eq_ediv_of_nonneg ht]
    ring
  rw [← he]
  have hA : ∀ b d, j.read b = .ok d → Above l d := by
    intro b d hd tr htr
    have := hread b d hd tr htr
    exact ⟨this.1, by omega⟩
  have hb := fun s => fromNumber_body (L := j.L) (t2 := j.t2) (B := l) hl hL (by omega) ht rfl s
  have key : (convertAt j false (some (.num t)) adj n).Sat (fun out => ∀ q ∈ samples out, windowEnd j.L t ≤ 10000 * q.1)
      (fun out => ∀ q ∈ samples out, windowEnd j.L t ≤ 10000 * q.1) := by
    unfold convertAt
    cases n with
    | zero => trivial
    | succ n =>
      have hf : firstBlock j (n + 1) (j.nums.head?.getD 0 : Int) [] = .done ((j.nums.head?.getD 0 : Int) + 12 * j.blockdays, tr0 :: d0,
          [] ++ [j.block (j.nums.head?.getD 0 : Int)]) := by
        rw [firstBlock, if_pos (by exact_mod_cast hnum), hfirst]
      rw [hf]
      simp only [Run.bind, startMoment]
      have hh : firstHour (.num t) (tr0 :: d0) = .num t := by
        rw [firstHour_cons, if_neg (show ¬ 10000 * tr0.start > (Moment.num t).time from not_lt.mpr hbefore)]
      rw [hh]
      refine (mainLoopAt_sat (e := false) (G := FromNumber l t (windowEnd j.L t)) hb (fun s g => g.late) ?_ ?_ _ _ _ _ _ ?_).bind ?_
      · intro s g tt2 m n1 reads
        refine Run.Sat.mono (readBlocks_above hA tt2 s.out m n1 s.p reads g.above g.late) ?_
        intro r hr
        exact ⟨hr, g.late, g.hour⟩
      · intro s p g hp
        refine ⟨?_, g.late, g.hour⟩
        rcases g.hour with hn | ⟨h, hn, _⟩
        · rw [hn] at hp
          cases hsp : s.p with
          | nil => rw [hsp] at hp; simp only [trimAt, Except.ok.injEq] at hp; rw [← hp]; intro tr htr; simp at htr
          | cons tr q => rw [hsp] at hp; simp [trimAt] at hp
        · rw [hn] at hp
          have hst : j.stop false = .utc j.t2 := rfl
          rw [hst, trimAt_utc] at hp
          exact above_trim g.above hp
      · exact ⟨hA _ _ hfirst, by simp [samples], .inl rfl⟩
      · intro s g
        refine (writeRestAt_sat hb (fun s g => g.late) _ s g).bind ?_
        intro w gw
        exact gw.late
  cases hc : convertAt j false (some (.num t)) adj n with
  | done out => rw [hc] at key; exact key
  | raised x out => rw [hc] at key; exact key
  | running => intro q hq; simp [Run.segments, samples] at hq

/-- **C108 is violated for `t2`.** If `t2` is given as a number of seconds, no conversion that ends normally writes anything. -/
theorem C108_violated_end (j : Job) (t1 : Option Moment) (adj : Int) (n : Nat) (out : List Trace)
    (h : convertAt j true t1 adj n = .done out) : out = [] := by
  have hb : ∀ s : AState, s.out = [] → (writeBodyAt j.L (j.stop true) s).Sat (fun r => r.1.out = []) (fun _ => True) := by
    intro s hs
    unfold writeBodyAt
    cases hp : s.p with
    | nil =>
      simp only [trimAt]
      have : sliceAt s.h (truncTime s.h.time j.L + j.L - 1) [] = [] := by cases s.h <;> rfl
      simp [Run.Sat, hs, this]
    | cons tr p => simp [trimAt, Job.stop, Run.Sat]
  have key : (convertAt j true t1 adj n).Sat (fun out => out = []) (fun _ => True) := by
    unfold convertAt
    cases firstBlock j n (j.nums.head?.getD 0 : Int) [] with
    | running => trivial
    | raised x o => trivial
    | done r =>
      simp only [Run.bind]
      cases startMoment t1 r.2.1 with
      | error x => trivial
      | ok q =>
        simp only
        refine (mainLoopAt_sat (e := true) (G := fun s => s.out = []) hb (fun _ _ => trivial) ?_ (fun _ _ g _ => g) _ _ _ _ _ rfl).bind ?_
        · intro s g tt2 m n1 reads
          cases readBlocks j tt2 s.out m n1 s.p reads with
          | done r => exact g
          | raised x o => trivial
          | running => trivial
        · intro s g
          refine (writeRestAt_sat hb (fun _ _ => trivial) _ s g).bind ?_
          intro w gw
          exact gw
  rw [h] at key
  exact key

/-- **C108 is violated for `time_adjustment`.** A conversion that writes something does not shift it by the adjustment asked for. -/
theorem C108_violated_adjustment (j : Job) (e : Bool) (t1 : Option Moment) (n : Nat) (out : List Trace)
    (h : convertAt j e t1 0 n = .done out) (hne : samples out ≠ []) (a : Int) (ha : a ≠ 0) :
    ¬ ∃ out', convertAt j e t1 (10000 * a) n = .done out' ∧ samples out' = (samples out).map fun q => (q.1 + a, q.2) := by
  rintro ⟨out', h1, h2⟩
  have h3 : convertAt j e t1 (10000 * a) n = convertAt j e t1 0 n := rfl
  rw [h3, h] at h1
  simp only [Run.done.injEq] at h1
  rw [← h1] at h2
  cases hs : samples out with
  | nil => exact hne hs
  | cons q l =>
    rw [hs] at h2
    simp only [List.map_cons, List.cons.injEq] at h2
    have := congrArg Prod.fst h2.1
    simp only at this
    omega

/-! ## An example: data around three o'clock -/

/-- Two samples just before three o'clock, one just after it, files of an hour. -/
def momentJob : Job where
  nums := [3, 4]
  blockdays := 1
  L := 3600000000
  t2 := 253402300799000000
  read _ := .ok [⟨1079998, [1, 2]⟩, ⟨1080010, [4]⟩]

/-- With 02:59:59.99 given as an instant, its sample and those after it are written. -/
example : (convertAt momentJob false (some (.utc 10799990000)) 0 6).segments = [⟨1079999, [2]⟩, ⟨1080010, [4]⟩] := by decide +kernel

/-- The same time given as a number: the rest of the hour is lost. -/
example : convertAt momentJob false (some (.num 10799990000)) 0 6 = .done [⟨1080010, [4]⟩] := by decide +kernel

example : ∀ q ∈ samples (convertAt momentJob false (some (.num 10799990000)) 0 6).segments, (10799990000 / 3600000000 + 1) * 3600000000 ≤ 10000 * q.1 :=
  C108_violated_start momentJob 360000 10799990000 0 (by decide) (by decide) (by decide) ⟨1079998, [1, 2]⟩ [⟨1080010, [4]⟩] rfl (by decide)
    (by decide) (by intro b d hd; simp only [momentJob, Except.ok.injEq] at hd; rw [← hd]; decide) 6

/-- A number before the data does no harm. -/
example : convertAt momentJob false (some (.num 5)) 0 6 = convertAt momentJob false (some (.utc 5)) 0 6 :=
  C108_number_before_partial momentJob 5 0 6 (by
    intro b tr d hd
    simp only [momentJob, Except.ok.injEq, List.cons.injEq] at hd
    rw [← hd.1]
    decide)

/-- `t2` given as a number: an exception once there is something to write, and a normal end if there is nothing. -/
example : convertAt momentJob true (some (.utc 5)) 0 6 = .raised .other [⟨1079998, [1, 2]⟩] ∧ convertAt momentJob true (some (.utc 10900010000)) 0 6 = .done [] := by
  decide +kernel

/-- An adjustment of a second. -/
example : ¬ ∃ out', convertAt momentJob false (some (.utc 5)) 1000000 6 = .done out' ∧
    samples out' = (samples [⟨1079998, [1, 2]⟩, ⟨1080010, [4]⟩]).map fun q => (q.1 + 100, q.2) :=
  C108_violated_adjustment momentJob false (some (.utc 5)) 6 [⟨1079998, [1, 2]⟩, ⟨1080010, [4]⟩] (by decide +kernel) (by decide) 100 (by decide)

end Gemlog
