import Verif.Props.Limits

/-!
# C32: the end of the requested interval, and file lengths off the sample grid
-/

namespace Gemlog

/-- Every run of a conversion keeps the invariant; a run that ends normally also keeps what is only true of normal runs. -/
theorem convertLoops_sat_done {j : Job} {G : Int → List Trace → Prop} {A Q : List Trace → Prop} (hk : Keeps j G A Q)
    {R : List Trace → Prop} (hread : ∀ b d, j.read b = .ok d → R d) (hQ : Q [])
    (t1 : Option Int) (hR : ∀ d, R d → (t1 ≠ none → A d) ∧ A (mergeGaps d))
    (hG : ∀ p t, A p → (t1 = some t ∨ t1 = none ∧ ∃ tr r, p = tr :: r ∧
        t = 1000000 * (-((-10000 * tr.start) / 1000000))) →
      G (match p with | [] => t | tr :: _ => max t (10000 * tr.start)) [])
    (n : Nat) : (convertLoops j t1 n).Sat (fun s => ∃ h, G h s.w.out) Q := by
  unfold convertLoops
  refine (firstBlock_sat hread hQ n _ _).bind ?_
  intro r hr
  cases hst : startTime t1 r.2.1 with
  | error x => exact hQ
  | ok q =>
    obtain ⟨p, t⟩ := q
    simp only
    have hp : A p ∧ (t1 = some t ∨ t1 = none ∧ ∃ tr r, p = tr :: r ∧
        t = 1000000 * (-((-10000 * tr.start) / 1000000))) := by
      unfold startTime at hst
      cases t1 with
      | some t0 =>
        simp only [Except.ok.injEq, Prod.mk.injEq] at hst
        rw [← hst.1, ← hst.2]
        exact ⟨(hR _ hr).1 (by simp), Or.inl rfl⟩
      | none =>
        cases hm : mergeGaps r.2.1 with
        | nil => simp [hm] at hst
        | cons tr rest =>
          simp only [hm, Except.ok.injEq, Prod.mk.injEq] at hst
          rw [← hst.1, ← hst.2, ← hm]
          exact ⟨(hR _ hr).2, Or.inr ⟨rfl, tr, rest, hm, rfl⟩⟩
    refine (mainLoop_sat hk n _ (hG p t hp.1 hp.2) hp.1).bind ?_
    rintro s ⟨g1, g2⟩
    refine (writeRest_sat hk n s.w g1 g2).bind ?_
    rintro w ⟨g3, _⟩
    exact ⟨_, g3⟩

theorem roundAway_bounds (d : Int) : d - 5000 ≤ 10000 * roundAway d ∧ 10000 * roundAway d ≤ d + 5000 := by
  unfold roundAway
  split_ifs <;> omega

/-- **C32, the end.** In every conversion that ends normally, whatever the reader, the files, `t1`, the file length and the
size of the blocks are, no written sample is after the requested `t2`, up to half a sample interval; and if `t2` is a
multiple of the sample interval, no written sample is after `t2` at all. Missing: conversions that fail
(`C32_violated_end`). -/
theorem C32_not_after_end_partial (j : Job) (t1 : Option Int) (n : Nat) (s : CState)
    (hrun : convertLoops j t1 n = .done s) :
    ∀ q ∈ samples s.w.out, 10000 * q.1 ≤ j.t2 + 5000 ∧ (10000 ∣ j.t2 → 10000 * q.1 ≤ j.t2) := by
  have hk : Keeps j (fun _ out => ∀ q ∈ samples out, 10000 * q.1 ≤ j.t2 + 5000) (fun _ => True) (fun _ => True) := by
    refine ⟨?_, fun _ _ _ => trivial, fun _ _ _ _ _ _ => trivial, fun _ _ _ _ _ => trivial⟩
    intro s ho _
    cases hb : writeBody j.L j.t2 s with
    | running => trivial
    | raised x out => trivial
    | done r =>
      obtain ⟨s', b⟩ := r
      have hwin : writeWindow j.L s.p s.h = (sliceStream s.h (windowEnd j.L s.h - 1) s.p, windowEnd j.L s.h) := rfl
      have hout : ∀ q ∈ samples (s.out ++ sliceStream s.h (windowEnd j.L s.h - 1) s.p), 10000 * q.1 ≤ j.t2 + 5000 := by
        intro q hq
        rw [samples_append] at hq
        rcases List.mem_append.mp hq with h | h
        · exact ho q h
        · rw [samples_sliceStream, List.mem_filter] at h
          obtain ⟨hm, h2⟩ := h
          simp only [Bool.and_eq_true, decide_eq_true_eq] at h2
          cases hp : s.p with
          | nil => rw [hp] at hm; simp [samples] at hm
          | cons tr p =>
            unfold writeBody at hb
            rw [hwin, hp] at hb
            simp only at hb
            rcases trimStream_cases (windowEnd j.L s.h) j.t2 tr p with ⟨e, _⟩ | ⟨p', _, hle, _⟩
            · rw [e] at hb; simp at hb
            · unfold trimLimits at hle
              simp only at hle
              have b1 := roundAway_bounds (j.t2 - 10000 * tr.stop)
              have b2 : q.1 - tr.start ≤ roundAway (windowEnd j.L s.h - 10000 * tr.start) := le_roundAway (by omega)
              omega
      have e : s'.out = s.out ++ sliceStream s.h (windowEnd j.L s.h - 1) s.p := by
        unfold writeBody at hb
        rw [hwin] at hb
        simp only at hb
        cases ht : trimStream (windowEnd j.L s.h) j.t2 s.p with
        | error x => rw [ht] at hb; simp at hb
        | ok p =>
          rw [ht] at hb
          cases p with
          | nil =>
            simp only [Run.done.injEq, Prod.mk.injEq] at hb
            rw [← hb.1]
          | cons tr p =>
            simp only [Run.done.injEq, Prod.mk.injEq] at hb
            rw [← hb.1]
      refine ⟨?_, trivial⟩
      simp only
      rw [e]
      exact hout
  have h := convertLoops_sat_done hk (R := fun _ => True) (fun _ _ _ => trivial) trivial t1
    (fun _ _ => ⟨fun _ => trivial, trivial⟩) (fun _ _ _ _ => by simp [samples]) n
  rw [hrun] at h
  obtain ⟨_, h⟩ := h
  intro q hq
  have := h q hq
  exact ⟨this, fun hd => by omega⟩

/-- A conversion that stops at the end of the first hour, and ends normally. -/
example : ∃ s, convertLoops ⟨[0], 1, 3600000000, 3600000000, fun _ => .ok [⟨6, [1, 2]⟩, ⟨400000, [2]⟩]⟩ (some 0) 10 = .done s ∧
    samples s.w.out = [(6, 1), (7, 2)] :=
  ⟨⟨12, 0, ⟨[], 3600000000, [⟨6, [1, 2]⟩]⟩, [[0]]⟩, by decide +kernel, by decide +kernel⟩

/-- **C53, violated: the last window.** The samples in the last window before the limit are never delivered. Whatever the reader, the files and
their blocks, `t1` and `t2` (on the sample grid) are: if a conversion with file length `L` ends normally and `t2` lies in the window that begins
at `k` file lengths, then no sample of this window is written, not even those before `t2`. (With samples there, the conversion fails or leaves
them out.) -/
theorem C53_violated_window (j : Job) (l c k : Int) (hl : 0 < l) (hL : j.L = 10000 * l) (ht2 : j.t2 = 10000 * c) (hk : j.t2 < (k + 1) * j.L)
    (t1 : Option Int) (n : Nat) (s : CState) (hrun : convertLoops j t1 n = .done s) : ∀ q ∈ samples s.w.out, 10000 * q.1 < k * j.L := by
  have hkeep : Keeps j (fun _ out => ∀ q ∈ samples out, 10000 * q.1 < k * j.L) (fun _ => True) (fun _ => True) := by
    refine ⟨?_, fun _ _ _ => trivial, fun _ _ _ _ _ _ => trivial, fun _ _ _ _ _ => trivial⟩
    intro s ho _
    cases hb : writeBody j.L j.t2 s with
    | running => trivial
    | raised x out => trivial
    | done r =>
      obtain ⟨s', b⟩ := r
      have hwin : writeWindow j.L s.p s.h = (sliceStream s.h (windowEnd j.L s.h - 1) s.p, windowEnd j.L s.h) := rfl
      obtain ⟨m, hm⟩ : ∃ m, windowEnd j.L s.h = m * j.L := ⟨Int.tdiv s.h j.L + 1, by unfold windowEnd truncTime; ring⟩
      have hout : ∀ q ∈ samples (s.out ++ sliceStream s.h (windowEnd j.L s.h - 1) s.p), 10000 * q.1 < k * j.L := by
        intro q hq
        rw [samples_append] at hq
        rcases List.mem_append.mp hq with h | h
        · exact ho q h
        · rw [samples_sliceStream, List.mem_filter] at h
          obtain ⟨hq', h2⟩ := h
          simp only [Bool.and_eq_true, decide_eq_true_eq] at h2
          cases hp : s.p with
          | nil => rw [hp] at hq'; simp [samples] at hq'
          | cons tr p =>
            unfold writeBody at hb
            rw [hwin, hp] at hb
            simp only at hb
            rcases trimStream_cases (windowEnd j.L s.h) j.t2 tr p with ⟨e, _⟩ | ⟨p', _, hle, _⟩
            · rw [e] at hb; simp at hb
            · unfold trimLimits at hle
              simp only at hle
              have b1 := roundAway_bounds (j.t2 - 10000 * tr.stop)
              have b2 := roundAway_bounds (windowEnd j.L s.h - 10000 * tr.start)
              have e1 : m * j.L = 10000 * (m * l) := by rw [hL]; ring
              have hend : windowEnd j.L s.h ≤ j.t2 := by
                rw [hm, e1] at b2 hle ⊢
                rw [ht2] at b1 hle ⊢
                omega
              have hmk : m < k + 1 := by
                by_contra hc
                have : (k + 1) * j.L ≤ m * j.L := mul_le_mul_of_nonneg_right (by omega) (by omega)
                omega
              have : m * j.L ≤ k * j.L := mul_le_mul_of_nonneg_right (by omega) (by omega)
              omega
      have e : s'.out = s.out ++ sliceStream s.h (windowEnd j.L s.h - 1) s.p := by
        unfold writeBody at hb
        rw [hwin] at hb
        simp only at hb
        cases ht : trimStream (windowEnd j.L s.h) j.t2 s.p with
        | error x => rw [ht] at hb; simp at hb
        | ok p =>
          rw [ht] at hb
          cases p with
          | nil =>
            simp only [Run.done.injEq, Prod.mk.injEq] at hb
            rw [← hb.1]
          | cons tr p =>
            simp only [Run.done.injEq, Prod.mk.injEq] at hb
            rw [← hb.1]
      refine ⟨?_, trivial⟩
      simp only
      rw [e]
      exact hout
  have h := convertLoops_sat_done hkeep (R := fun _ => True) (fun _ _ _ => trivial) trivial t1
    (fun _ _ => ⟨fun _ => trivial, trivial⟩) (fun _ _ _ _ => by simp [samples]) n
  rw [hrun] at h
  obtain ⟨_, h⟩ := h
  exact h

/-- The first block reaches to six o'clock of the second day, `t2` is at half past twelve of that day: the conversion ends normally, without the
sample at noon. -/
def lastWindowJob : Job :=
  ⟨[0, 12], 1, 3600000000, 131400000000, fun b => if b = [0] then .ok [⟨2160000, [1]⟩, ⟨10800000, [2]⟩] else .ok [⟨12960000, [3]⟩]⟩

example : (∃ s, convertLoops lastWindowJob (some 0) 9 = .done s ∧ samples s.w.out = [(2160000, 1), (10800000, 2)]) ∧
    lastWindowJob.t2 < (36 + 1) * lastWindowJob.L ∧ 36 * lastWindowJob.L ≤ 10000 * 12960000 := by
  refine ⟨⟨⟨12, 172800000000, ⟨[], 111600000000, [⟨2160000, [1]⟩, ⟨10800000, [2]⟩]⟩, [[0]]⟩, ?_, ?_⟩, ?_⟩ <;> decide +kernel

/-- **C32, the start, for any file length** of at least 5 ms. No written sample is 5 ms or more before the requested `t1`.
(With a file length on the sample grid none is before `t1`: `C32_not_before_start_partial`.) Missing: shorter files. -/
theorem C32_any_length_partial (j : Job) (t1 : Int) (hL : 5000 ≤ j.L) (n : Nat) :
    ∀ q ∈ samples (convertLoops j (some t1) n).written, t1 - 5000 < 10000 * q.1 := by
  have hk : Keeps j (fun h out => (t1 ≤ h ∨ ∃ E, t1 < E ∧ j.L ∣ E ∧ E - 5000 ≤ h) ∧ ∀ q ∈ samples out, t1 - 5000 < 10000 * q.1)
      (fun _ => True) (fun out => ∀ q ∈ samples out, t1 - 5000 < 10000 * q.1) := by
    refine ⟨?_, fun h o g => g.2, fun _ _ _ _ _ _ => trivial, fun _ _ _ _ _ => trivial⟩
    rintro s ⟨h0, ho⟩ _
    have hlow : t1 - 5000 < s.h := by
      rcases h0 with h | ⟨E, h1, _, h3⟩ <;> omega
    have hw := @truncTime_gt s.h j.L (by omega)
    have hwe : windowEnd j.L s.h = truncTime s.h j.L + j.L := rfl
    have hdvd : j.L ∣ windowEnd j.L s.h := by
      unfold windowEnd truncTime
      exact Dvd.dvd.add (Dvd.intro_left _ rfl) (dvd_refl _)
    have hE : t1 < windowEnd j.L s.h := by
      rcases h0 with h | ⟨E, h1, h2, h3⟩
      · omega
      · obtain ⟨x, hx⟩ := hdvd
        obtain ⟨y, hy⟩ := h2
        have : y ≤ x := by
          by_contra hc
          have : j.L * (x + 1) ≤ j.L * y := mul_le_mul_of_nonneg_left (by omega) (by omega)
          rw [mul_add] at this
          omega
        have : j.L * y ≤ j.L * x := mul_le_mul_of_nonneg_left this (by omega)
        omega
    have hout : ∀ q ∈ samples (s.out ++ sliceStream s.h (windowEnd j.L s.h - 1) s.p), t1 - 5000 < 10000 * q.1 := by
      intro q hq
      rw [samples_append] at hq
      rcases List.mem_append.mp hq with h | h
      · exact ho q h
      · rw [samples_sliceStream, List.mem_filter] at h
        have h2 := h.2
        simp only [Bool.and_eq_true, decide_eq_true_eq] at h2
        omega
    have hwin : writeWindow j.L s.p s.h = (sliceStream s.h (windowEnd j.L s.h - 1) s.p, windowEnd j.L s.h) := rfl
    unfold writeBody
    rw [hwin]
    simp only
    cases ht : trimStream (windowEnd j.L s.h) j.t2 s.p with
    | error x => exact hout
    | ok p =>
      cases p with
      | nil => exact ⟨⟨Or.inl hE.le, hout⟩, trivial⟩
      | cons tr p =>
        refine ⟨⟨Or.inr ⟨windowEnd j.L s.h, hE, hdvd, ?_⟩, hout⟩, trivial⟩
        simp only
        cases hp : s.p with
        | nil => rw [hp] at ht; simp [trimStream] at ht
        | cons tr0 p0 =>
          rw [hp] at ht
          rcases trimStream_cases (windowEnd j.L s.h) j.t2 tr0 p0 with ⟨e, _⟩ | ⟨p', e, _, h3, h4⟩
          · rw [e] at ht; simp at ht
          · rw [e] at ht
            have e' := Except.ok.inj ht
            rw [e'] at h3 h4
            obtain ⟨x, hx⟩ := mem_samples_start (List.mem_cons_self (a := tr) (l := p)) (h3 tr (by simp))
            rw [h4, List.mem_filter] at hx
            have h5 := hx.2
            rw [Bool.and_eq_true, decide_eq_true_eq] at h5
            have h6 := h5.1
            unfold trimLimits at h6
            simp only at h6
            have b1 := roundAway_bounds (windowEnd j.L s.h - 10000 * tr0.start)
            omega
  have h := convertLoops_sat hk (R := fun _ => True) (fun _ _ _ => trivial) (by simp [samples]) (some t1)
      (fun _ _ => ⟨fun _ => trivial, trivial⟩) (by
        intro p t _ ht
        refine ⟨Or.inl ?_, by simp [samples]⟩
        rcases ht with h | ⟨h, _⟩
        · simp only [Option.some.injEq] at h
          rw [← h]
          cases p with
          | nil => exact le_refl _
          | cons tr p => exact le_max_left _ _
        · simp at h) n
  exact written_of_sat (Q := fun out => ∀ q ∈ samples out, t1 - 5000 < 10000 * q.1) h (by simp [samples])

/-- Files of 105 ms, `t1` in the second sample interval. -/
example : samples (convertLoops ⟨[0], 1, 105000, 253402300799000000, fun _ => .ok [⟨8, [3, 5, 6, 7]⟩]⟩ (some 89000) 7).written =
    [(9, 5), (10, 6), (11, 7)] := by
  decide +kernel

/-- The samples between two times (in microseconds), both included. -/
def within (a b : Int) (s : List (Int × Int)) : List (Int × Int) :=
  s.filter fun q => decide (a ≤ 10000 * q.1) && decide (10000 * q.1 ≤ b)

theorem within_split {s : List (Int × Int)} (hs : Increasing s) {h e t : Int} (h1 : h ≤ e) (h2 : e ≤ t) :
    within h t s = within h (e - 1) s ++ within e t s := by
  have hs' : Increasing (s.filter fun q => decide (10000 * q.1 ≤ t)) := List.Pairwise.sublist List.filter_sublist hs
  have := window_split hs' h1
  unfold from_ at this
  simp only [List.filter_filter] at this
  unfold within
  have e1 : (s.filter fun q => decide (h ≤ 10000 * q.1) && decide (10000 * q.1 ≤ e - 1)) =
      s.filter fun q => (decide (h ≤ 10000 * q.1) && decide (10000 * q.1 ≤ e - 1)) && decide (10000 * q.1 ≤ t) := by
    apply List.filter_congr
    intro q _
    rw [Bool.eq_iff_iff]
    simp only [Bool.and_eq_true, decide_eq_true_eq]
    omega
  rw [e1, this]

/-- The last loop with a limit: if no sample is in the window of `t2` before `t2`, it ends normally. -/
theorem writeRest_limited {L l c k : Int} (hL : L = 10000 * l) (hl : 0 < l) (hk1 : k * L ≤ 10000 * c) (m : Nat) (s : WState)
    (hm : (k * L - s.h).toNat ≤ m) (ho : InOrder s.p) (hne : s.p ≠ []) (h0 : 0 ≤ s.h)
    (hh : s.h < k * L) (hno : ∀ q ∈ samples s.p, k * L ≤ 10000 * q.1 → 10000 * c < 10000 * q.1) :
    ∃ s', Settles (fun n => writeRest L (10000 * c) n s) (.done s') ∧
      samples s'.out = samples s.out ++ within s.h (10000 * c) (samples s.p) := by
  induction m using Nat.strong_induction_on generalizing s with
  | _ m ih =>
    obtain ⟨trl, htrl⟩ := exists_last hne
    obtain ⟨a, p0, hp0⟩ := List.exists_cons_of_ne_nil hne
    by_cases hc : s.h ≤ 10000 * trl.stop
    · have hLpos : 0 < L := by omega
      obtain ⟨e, he⟩ := windowEnd_grid l s.h
      rw [← hL] at he
      have hw := truncTime_nonneg h0 hLpos
      have hwe : windowEnd L s.h = truncTime s.h L + L := rfl
      have hwin : writeWindow L s.p s.h = (sliceStream s.h (windowEnd L s.h - 1) s.p, windowEnd L s.h) := rfl
      have hek : windowEnd L s.h ≤ k * L := by
        have e1 : truncTime s.h L = s.h.tdiv L * L := rfl
        have : s.h.tdiv L + 1 ≤ k := by
          by_contra hcon
          have : k * L ≤ s.h.tdiv L * L := Int.mul_le_mul_of_nonneg_right (by omega) (by omega)
          omega
        have : (s.h.tdiv L + 1) * L ≤ k * L := Int.mul_le_mul_of_nonneg_right this (by omega)
        have e3 : (s.h.tdiv L + 1) * L = s.h.tdiv L * L + L := by ring
        omega
      have hlimits : trimLimits (10000 * e) (10000 * c) a = (e, c) := by
        unfold trimLimits
        have e1 : 10000 * e - 10000 * a.start = 10000 * (e - a.start) := by ring
        have e2 : 10000 * c - 10000 * a.stop = 10000 * (c - a.stop) := by ring
        rw [e1, e2, roundAway_mul, roundAway_mul]
        simp
      rcases trimStream_cases (10000 * e) (10000 * c) a p0 with ⟨_, g2⟩ | ⟨p', g1, g2, g3, g4⟩
      · rw [hlimits] at g2
        simp only at g2
        omega
      · rw [hlimits] at g4
        simp only at g4
        have g5 : samples p' = within (windowEnd L s.h) (10000 * c) (samples s.p) := by
          rw [g4, hp0]
          unfold within
          apply List.filter_congr
          intro q _
          rw [Bool.eq_iff_iff]
          simp only [Bool.and_eq_true, decide_eq_true_eq]
          omega
        have hsplit := within_split ho.2 (h := s.h) (e := windowEnd L s.h) (t := 10000 * c) (by omega) (by omega)
        have hsl : samples (sliceStream s.h (windowEnd L s.h - 1) s.p) = within s.h (windowEnd L s.h - 1) (samples s.p) := by
          rw [samples_sliceStream]
          rfl
        have ho' : InOrder p' := by
          refine ⟨g3, ?_⟩
          rw [g5]
          exact List.Pairwise.sublist List.filter_sublist ho.2
        cases hp' : p' with
        | nil =>
          have hbody : writeBody L (10000 * c) s =
              .done (⟨[], windowEnd L s.h, s.out ++ sliceStream s.h (windowEnd L s.h - 1) s.p⟩, false) := by
            unfold writeBody
            rw [hwin]
            simp only
            rw [he, hp0, g1, hp']
          refine ⟨⟨[], windowEnd L s.h, s.out ++ sliceStream s.h (windowEnd L s.h - 1) s.p⟩, ?_, ?_⟩
          · apply settles_succ
            simp only [writeRest, htrl, if_pos hc, hbody, Run.bind]
            exact settles_const (by simp)
          · simp only
            rw [samples_append, hsl, hsplit, ← g5, hp']
            simp [samples]
        | cons a' p1 =>
          rw [hp'] at ho' g5 g3
          obtain ⟨x, r, er⟩ := head_samples (p := p1) (g3 a' (by simp))
          have hmem : (a'.start, x) ∈ samples (a' :: p1) := by rw [er]; simp
          have hmem' := hmem
          rw [g5] at hmem'
          obtain ⟨m1, m2⟩ := List.mem_filter.mp hmem'
          simp only [Bool.and_eq_true, decide_eq_true_eq] at m2
          have hlt : 10000 * a'.start < k * L := by
            by_contra hcon
            have := hno _ m1 (by simp only; omega)
            simp only at this
            omega
          have hbody : writeBody L (10000 * c) s =
              .done (⟨a' :: p1, 10000 * a'.start, s.out ++ sliceStream s.h (windowEnd L s.h - 1) s.p⟩, true) := by
            unfold writeBody
            rw [hwin]
            simp only
            rw [he, hp0, g1, hp']
          obtain ⟨s', q1, q2⟩ := ih (k * L - 10000 * a'.start).toNat (by omega)
            ⟨a' :: p1, 10000 * a'.start, s.out ++ sliceStream s.h (windowEnd L s.h - 1) s.p⟩ (le_refl _) ho' (by simp)
            (by simp only; omega) (by simp only; omega) (by
              simp only
              intro q hq
              rw [g5] at hq
              exact hno q (List.mem_filter.mp hq).1)
          refine ⟨s', ?_, ?_⟩
          · apply settles_succ
            simp only [writeRest, htrl, if_pos hc, hbody, Run.bind, if_true]
            exact q1
          · rw [q2]
            simp only
            rw [samples_append, hsl, hsplit, ← g5, List.append_assoc]
            congr 2
            unfold within
            rw [List.filter_eq_self]
            intro q hq
            have s1 := start_le ho' hq
            rw [g5] at hq
            have s2 := (List.mem_filter.mp hq).2
            simp only [Bool.and_eq_true, decide_eq_true_eq] at s2 ⊢
            omega
    · refine ⟨s, ?_, ?_⟩
      · apply settles_succ
        simp only [writeRest, htrl, if_neg hc]
        exact settles_const (by simp)
      · have : within s.h (10000 * c) (samples s.p) = [] := by
          unfold within
          rw [List.filter_eq_nil_iff]
          intro q hq
          have := le_stop ho htrl hq
          simp only [Bool.and_eq_true, decide_eq_true_eq]
          omega
        rw [this, List.append_nil]

/-- The last loop fails if it begins in the window of `t2` or later, and there is anything to write. -/
theorem writeRest_late {L l c k : Int} (hL : L = 10000 * l) (hl : 0 < l) (hk2 : 10000 * c < (k + 1) * L) (s : WState)
    {tr : Trace} (hlast : s.p.getLast? = some tr) (h0 : 0 ≤ s.h) (hh : k * L ≤ s.h) (hc : s.h ≤ 10000 * tr.stop) :
    ∃ out, Settles (fun n => writeRest L (10000 * c) n s) (.raised .other out) := by
  have hLpos : 0 < L := by omega
  obtain ⟨e, he⟩ := windowEnd_grid l s.h
  rw [← hL] at he
  have hw := truncTime_nonneg h0 hLpos
  have hwe : windowEnd L s.h = truncTime s.h L + L := rfl
  have hwin : writeWindow L s.p s.h = (sliceStream s.h (windowEnd L s.h - 1) s.p, windowEnd L s.h) := rfl
  have hek : (k + 1) * L ≤ windowEnd L s.h := by
    have e1 : truncTime s.h L = s.h.tdiv L * L := rfl
    have : k ≤ s.h.tdiv L := by
      by_contra hcon
      have : (s.h.tdiv L + 1) * L ≤ k * L := Int.mul_le_mul_of_nonneg_right (by omega) (by omega)
      have e3 : (s.h.tdiv L + 1) * L = s.h.tdiv L * L + L := by ring
      omega
    have : (k + 1) * L ≤ (s.h.tdiv L + 1) * L := Int.mul_le_mul_of_nonneg_right (by omega) (by omega)
    have e3 : (s.h.tdiv L + 1) * L = s.h.tdiv L * L + L := by ring
    omega
  cases hp : s.p with
  | nil => rw [hp] at hlast; simp at hlast
  | cons a p0 =>
    have hlimits : trimLimits (10000 * e) (10000 * c) a = (e, c) := by
      unfold trimLimits
      have e1 : 10000 * e - 10000 * a.start = 10000 * (e - a.start) := by ring
      have e2 : 10000 * c - 10000 * a.stop = 10000 * (c - a.stop) := by ring
      rw [e1, e2, roundAway_mul, roundAway_mul]
      simp
    rcases trimStream_cases (10000 * e) (10000 * c) a p0 with ⟨g1, _⟩ | ⟨p', _, g2, _⟩
    · refine ⟨s.out ++ sliceStream s.h (windowEnd L s.h - 1) s.p, ?_⟩
      apply settles_succ
      have hbody : writeBody L (10000 * c) s = .raised .other (s.out ++ sliceStream s.h (windowEnd L s.h - 1) s.p) := by
        unfold writeBody
        rw [hwin]
        simp only
        rw [he, hp, g1]
      simp only [writeRest, hlast, if_pos hc, hbody, Run.bind]
      exact settles_const (by simp)
    · rw [hlimits] at g2
      simp only at g2
      omega

/-- **C33, exactly, for one block.** All files are in one block, the file length and `t2` are on the sample grid, and `t2` lies
in the window of files that begins at `k` file lengths. The conversion ends normally if there is nothing to convert from `t1`
on, or if the conversion begins before that window and the window holds no sample up to `t2`; it then writes exactly the
samples from `t1` to `t2`. In all other cases it fails. Missing: several blocks, `t2` off the sample grid. -/
theorem C33_one_block_exact_partial (j : Job) (l c k t1 : Int) (hl : 0 < l) (hL : j.L = 10000 * l) (ht2 : j.t2 = 10000 * c)
    (hk1 : k * j.L ≤ j.t2) (hk2 : j.t2 < (k + 1) * j.L) (d : List Trace) (h : OneBlock j d) (ho : InOrder d) (ht1 : 0 ≤ t1) :
    let Fine := (∀ q ∈ samples d, 10000 * q.1 < t1) ∨
      (t1 < k * j.L ∧ (∃ q ∈ samples d, 10000 * q.1 < k * j.L) ∧
        ∀ q ∈ samples d, k * j.L ≤ 10000 * q.1 → j.t2 < 10000 * q.1)
    (Fine → ∃ s, Settles (convertLoops j (some t1)) (.done s) ∧ samples s.w.out = within t1 j.t2 (samples d)) ∧
    (¬ Fine → ∃ out, Settles (convertLoops j (some t1)) (.raised .other out)) := by
  intro Fine
  obtain ⟨tr0, p0, hp0⟩ := List.exists_cons_of_ne_nil h.ne
  obtain ⟨trl, htrl⟩ := exists_last h.ne
  have hstart : ∀ q ∈ samples d, tr0.start ≤ q.1 := by
    intro q hq
    rw [hp0] at hq ho
    exact start_le ho hq
  obtain ⟨x0, hx0⟩ : ∃ x, (tr0.start, x) ∈ samples d := by
    rw [hp0]
    exact mem_samples_start (List.mem_cons_self) (ho.1 tr0 (by rw [hp0]; simp))
  obtain ⟨xl, hxl⟩ : ∃ x, (trl.stop, x) ∈ samples d := by
    obtain ⟨x, r, e⟩ := last_samples htrl (ho.1 trl (List.mem_of_getLast? htrl))
    exact ⟨x, by rw [e]; simp⟩
  have hh0 : (0 : Int) ≤ max t1 (10000 * tr0.start) := le_trans ht1 (le_max_left _ _)
  constructor
  · rintro (hf | ⟨f1, ⟨q0, f2, f3⟩, f4⟩)
    · have hset : Settles (fun n => writeRest j.L j.t2 n ⟨d, max t1 (10000 * tr0.start), []⟩)
          (.done ⟨d, max t1 (10000 * tr0.start), []⟩) := by
        apply settles_succ
        have := hf _ hxl
        simp only at this
        have hgt : ¬ max t1 (10000 * tr0.start) ≤ 10000 * trl.stop := by
          have := le_max_left t1 (10000 * tr0.start)
          omega
        simp only [writeRest, htrl, if_neg hgt]
        exact settles_const (by simp)
      obtain ⟨n2, hs⟩ := oneBlock_run h hp0 t1 hset
      refine ⟨_, hs, ?_⟩
      simp only
      symm
      unfold within
      rw [List.filter_eq_nil_iff.mpr]
      · rfl
      · intro q hq
        have := hf q hq
        simp only [Bool.and_eq_true, decide_eq_true_eq]
        omega
    · have hlt : 10000 * tr0.start < k * j.L := by
        have := hstart q0 f2
        omega
      obtain ⟨w, b1, b2⟩ := writeRest_limited (c := c) (k := k) hL hl (by omega) _ ⟨d, max t1 (10000 * tr0.start), []⟩ (le_refl _)
        ho h.ne hh0 (max_lt f1 hlt) (by
          intro q hq hk
          have := f4 q hq hk
          omega)
      rw [← ht2] at b1
      obtain ⟨n2, hs⟩ := oneBlock_run h hp0 t1 b1
      refine ⟨_, hs, ?_⟩
      show samples w.out = _
      rw [b2]
      show [] ++ _ = _
      rw [List.nil_append, ht2]
      unfold within
      apply List.filter_congr
      intro q hq
      have := hstart q hq
      rw [Bool.eq_iff_iff]
      simp only [Bool.and_eq_true, decide_eq_true_eq, max_le_iff]
      omega
  · intro hf
    have hf1 : ¬ ∀ q ∈ samples d, 10000 * q.1 < t1 := fun h => hf (Or.inl h)
    have hf2 := fun h => hf (Or.inr h)
    have hlast : t1 ≤ 10000 * trl.stop := by
      by_contra hcon
      apply hf1
      intro q hq
      have := le_stop ho htrl hq
      omega
    have hsl : tr0.start ≤ trl.stop := hstart _ hxl
    by_cases hbegin : k * j.L ≤ max t1 (10000 * tr0.start)
    · obtain ⟨out, hout⟩ := writeRest_late (c := c) (k := k) hL hl (by omega) ⟨d, max t1 (10000 * tr0.start), []⟩ htrl hh0 hbegin
        (max_le hlast (by omega))
      rw [← ht2] at hout
      obtain ⟨n2, hs⟩ := oneBlock_run h hp0 t1 hout
      exact ⟨out, hs⟩
    · have hb := not_le.mp hbegin
      have hb1 := lt_of_le_of_lt (le_max_left _ _) hb
      have hb2 := lt_of_le_of_lt (le_max_right _ _) hb
      have : ∃ q ∈ samples d, k * j.L ≤ 10000 * q.1 ∧ 10000 * q.1 ≤ j.t2 := by
        by_contra hcon
        apply hf2
        refine ⟨hb1, ⟨_, hx0, hb2⟩, ?_⟩
        intro q hq hk
        by_contra h2
        exact hcon ⟨q, hq, hk, by omega⟩
      obtain ⟨q, q1, q2, q3⟩ := this
      exact C33_violated_end j l c k t1 hl hL ht2 d h ho ht1 q q1 (by omega) q2 q3 hk2

/-- Both outcomes occur: `t2` at the end of the first hour; `t2` in the first hour, after its last sample. -/
example : (∃ s, Settles (convertLoops ⟨[3, 4], 1, 3600000000, 3600000000, fun _ => .ok [⟨6, [1]⟩, ⟨370000, [2]⟩]⟩ (some 0)) (.done s) ∧
      samples s.w.out = [(6, 1)]) ∧
    ∃ out, Settles (convertLoops ⟨[3, 4], 1, 3600000000, 1800000000, fun _ => .ok [⟨6, [1]⟩, ⟨370000, [2]⟩]⟩ (some 0)) (.raised .other out) := by
  have ho : InOrder [⟨6, [1]⟩, ⟨370000, [2]⟩] := ⟨by decide +kernel, by unfold Increasing; decide +kernel⟩
  constructor
  · have h1 := (C33_one_block_exact_partial ⟨[3, 4], 1, 3600000000, 3600000000, fun _ => .ok [⟨6, [1]⟩, ⟨370000, [2]⟩]⟩ 360000 360000 1 0
      (by decide) rfl rfl (by decide) (by decide) [⟨6, [1]⟩, ⟨370000, [2]⟩] ⟨by decide, ⟨3, [4], rfl, by decide +kernel⟩, rfl, by simp⟩ ho
      (by decide)).1 (Or.inr ⟨by decide, by decide +kernel, by decide +kernel⟩)
    obtain ⟨s, e1, e2⟩ := h1
    exact ⟨s, e1, by rw [e2]; decide +kernel⟩
  · exact (C33_one_block_exact_partial ⟨[3, 4], 1, 3600000000, 1800000000, fun _ => .ok [⟨6, [1]⟩, ⟨370000, [2]⟩]⟩ 360000 180000 0 0
      (by decide) rfl rfl (by decide) (by decide) [⟨6, [1]⟩, ⟨370000, [2]⟩] ⟨by decide, ⟨3, [4], rfl, by decide +kernel⟩, rfl, by simp⟩ ho
      (by decide)).2 (by decide +kernel)

end Gemlog
