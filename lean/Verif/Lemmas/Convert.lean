import Verif.Model.Convert
import Verif.Lemmas.Record

/-! # The writing loops in terms of samples -/

namespace Gemlog

theorem truncTime_nonneg {x n : Int} (hx : 0 ≤ x) (hn : 0 < n) : truncTime x n ≤ x ∧ x < truncTime x n + n := by
  unfold truncTime
  rw [Int.tdiv_eq_ediv_of_nonneg hx]
  have h1 := Int.mul_ediv_add_emod x n
  have h2 := Int.emod_nonneg x (show n ≠ 0 by omega)
  have h3 := Int.emod_lt_of_pos x hn
  constructor <;> nlinarith

theorem truncTime_gt {x n : Int} (hn : 0 < n) : x < truncTime x n + n := by
  by_cases hx : 0 ≤ x
  · exact (truncTime_nonneg hx hn).2
  · unfold truncTime
    have e : Int.tdiv x n = -((-x) / n) := by
      conv_lhs => rw [show x = -(-x) by ring]
      rw [Int.neg_tdiv, Int.tdiv_eq_ediv_of_nonneg (by omega)]
    rw [e]
    have h1 := Int.mul_ediv_add_emod (-x) n
    have h2 := Int.emod_nonneg (-x) (show n ≠ 0 by omega)
    have : -(-x / n) * n = x + (-x) % n := by linarith
    linarith

/-- The end of the window of time `h`. -/
def windowEnd (L h : Int) : Int := truncTime h L + L

theorem windowEnd_grid (l h : Int) : ∃ e, windowEnd (10000 * l) h = 10000 * e :=
  ⟨Int.tdiv h (10000 * l) * l + l, by unfold windowEnd truncTime; ring⟩

/-- The stream that is left after writing: the samples from the end of the window on. -/
theorem trim_after {t2 : Int} {p : List Trace} {tr : Trace} (ho : InOrder p)
    (hlast : p.getLast? = some tr) (hfar : 10000 * tr.stop ≤ t2) (e : Int) (hh : 10000 * e ≤ t2) :
    ∃ p', trimStream (10000 * e) t2 p = .ok p' ∧ (∀ t ∈ p', t.data ≠ []) ∧
      samples p' = from_ (10000 * e) (samples p) := by
  cases p with
  | nil => simp at hlast
  | cons a p =>
    have ha : (trimLimits (10000 * e) t2 a).1 = e := by
      unfold trimLimits
      have : 10000 * e - 10000 * a.start = 10000 * (e - a.start) := by ring
      simp only [this, roundAway_mul]
      ring
    have hb : ∀ k, 10000 * k ≤ t2 → k ≤ (trimLimits (10000 * e) t2 a).2 := by
      intro k hk
      unfold trimLimits
      have := @le_roundAway (t2 - 10000 * a.stop) (k - a.stop) (by linarith)
      simp only
      omega
    rcases trimStream_cases (10000 * e) t2 a p with ⟨_, h2⟩ | ⟨p', h1, _, h3, h4⟩
    · have := hb e hh
      omega
    · refine ⟨p', h1, h3, ?_⟩
      rw [h4]
      unfold from_
      apply List.filter_congr
      intro q hq
      have h5 := hb tr.stop hfar
      have h6 := le_stop ho hlast hq
      rw [ha, Bool.eq_iff_iff]
      simp only [Bool.and_eq_true, decide_eq_true_eq]
      omega

theorem from_append (t : Int) (a b : List (Int × Int)) : from_ t (a ++ b) = from_ t a ++ from_ t b :=
  List.filter_append a b

theorem from_all {t : Int} {s : List (Int × Int)} (h : ∀ q ∈ s, t ≤ 10000 * q.1) : from_ t s = s := by
  unfold from_
  rw [List.filter_eq_self]
  simpa using h

theorem from_none {t : Int} {s : List (Int × Int)} (h : ∀ q ∈ s, 10000 * q.1 < t) : from_ t s = [] := by
  unfold from_
  rw [List.filter_eq_nil_iff]
  intro q hq
  have := h q hq
  simp only [decide_eq_true_eq]
  omega

theorem mem_from {t : Int} {s : List (Int × Int)} {q : Int × Int} : q ∈ from_ t s ↔ q ∈ s ∧ t ≤ 10000 * q.1 := by
  unfold from_
  simp [List.mem_filter]

/-- An increasing record splits at any time; the part from the time on is a suffix. -/
theorem from_suffix {s : List (Int × Int)} (hs : Increasing s) (t : Int) :
    ∃ r, s = r ++ from_ t s ∧ ∀ q ∈ r, 10000 * q.1 < t := by
  induction s with
  | nil => exact ⟨[], rfl, by simp⟩
  | cons x s ih =>
    have hs' := List.pairwise_cons.mp hs
    by_cases h : t ≤ 10000 * x.1
    · refine ⟨[], ?_, by simp⟩
      rw [List.nil_append, from_all]
      intro q hq
      rcases List.mem_cons.mp hq with rfl | hq
      · exact h
      · have := hs'.1 q hq; omega
    · obtain ⟨r, e, hr⟩ := ih hs'.2
      refine ⟨x :: r, ?_, ?_⟩
      · rw [List.cons_append]
        have : from_ t (x :: s) = from_ t s := by
          unfold from_
          rw [List.filter_cons_of_neg (by simpa using h)]
        rw [this, ← e]
      · intro q hq
        rcases List.mem_cons.mp hq with rfl | hq
        · omega
        · exact hr q hq

theorem from_from {s : List (Int × Int)} {t u : Int} (h : t ≤ u) : from_ u (from_ t s) = from_ u s := by
  unfold from_
  rw [List.filter_filter]
  apply List.filter_congr
  intro q _
  rw [Bool.eq_iff_iff]
  simp only [Bool.and_eq_true, decide_eq_true_eq]
  omega

/-- One window's samples and the samples behind it make up the samples from `h` on. -/
theorem window_split {s : List (Int × Int)} (hs : Increasing s) {h e : Int} (he : h ≤ e) :
    (s.filter fun q => decide (h ≤ 10000 * q.1) && decide (10000 * q.1 ≤ e - 1)) ++ from_ e s = from_ h s := by
  induction s with
  | nil => rfl
  | cons x s ih =>
    have hs' := List.pairwise_cons.mp hs
    have ih' := ih hs'.2
    unfold from_ at ih' ⊢
    by_cases h1 : h ≤ 10000 * x.1
    · by_cases h2 : 10000 * x.1 ≤ e - 1
      · rw [List.filter_cons_of_pos (by simp [h1, h2]),
          List.filter_cons_of_neg (l := s) (p := fun (a : Int × Int) => decide (e ≤ 10000 * a.1)) (by simp only [decide_eq_true_eq]; omega),
          List.filter_cons_of_pos (p := fun (a : Int × Int) => decide (h ≤ 10000 * a.1)) (by simpa using h1), List.cons_append, ih']
      · have z : (x :: s).filter (fun q => decide (h ≤ 10000 * q.1) && decide (10000 * q.1 ≤ e - 1)) = [] := by
          rw [List.filter_eq_nil_iff]
          intro q hq
          simp only [Bool.and_eq_true, decide_eq_true_eq]
          rcases List.mem_cons.mp hq with rfl | hq
          · omega
          · have := hs'.1 q hq; omega
        have z1 : (x :: s).filter (fun a => decide (e ≤ 10000 * a.1)) = x :: s := by
          rw [List.filter_eq_self]
          intro q hq
          simp only [decide_eq_true_eq]
          rcases List.mem_cons.mp hq with rfl | hq
          · omega
          · have := hs'.1 q hq; omega
        have z2 : (x :: s).filter (fun a => decide (h ≤ 10000 * a.1)) = x :: s := by
          rw [List.filter_eq_self]
          intro q hq
          simp only [decide_eq_true_eq]
          rcases List.mem_cons.mp hq with rfl | hq
          · omega
          · have := hs'.1 q hq; omega
        rw [z, z1, z2, List.nil_append]
    · rw [List.filter_cons_of_neg (by simp [h1]),
        List.filter_cons_of_neg (l := s) (p := fun (a : Int × Int) => decide (e ≤ 10000 * a.1)) (by simp only [decide_eq_true_eq]; omega),
        List.filter_cons_of_neg (p := fun (a : Int × Int) => decide (h ≤ 10000 * a.1)) (by simpa using h1), ih']

theorem increasing_from {s : List (Int × Int)} (hs : Increasing s) (t : Int) : Increasing (from_ t s) :=
  List.Pairwise.sublist List.filter_sublist hs

/-- A loop settles on a result: with enough fuel it always gives that result. -/
def Settles {α : Type} (f : Nat → Run α) (r : Run α) : Prop := r ≠ .running ∧ ∃ N, ∀ n, N ≤ n → f n = r

theorem settles_bind {α β : Type} {f : Nat → Run α} {g : Nat → α → Run β} {a : α} {r : Run β}
    (hf : Settles f (.done a)) (hg : Settles (fun n => g n a) r) : Settles (fun n => (f n).bind (g n)) r := by
  obtain ⟨_, N, hN⟩ := hf
  obtain ⟨hr, M, hM⟩ := hg
  refine ⟨hr, max N M, ?_⟩
  intro n hn
  show (f n).bind (g n) = r
  rw [hN n (le_trans (le_max_left _ _) hn)]
  exact hM n (le_trans (le_max_right _ _) hn)

theorem settles_bind_raised {α β : Type} {f : Nat → Run α} {g : Nat → α → Run β} {x : Exc} {out : List Trace}
    (hf : Settles f (.raised x out)) : Settles (fun n => (f n).bind (g n)) (.raised x out) := by
  obtain ⟨_, N, hN⟩ := hf
  refine ⟨by simp, N, ?_⟩
  intro n hn
  show (f n).bind (g n) = _
  rw [hN n hn]
  rfl

theorem settles_const {α : Type} {r : Run α} (h : r ≠ .running) : Settles (fun _ => r) r := ⟨h, 0, fun _ _ => rfl⟩

/-- It is enough to know the loop one step further. -/
theorem settles_succ {α : Type} {f : Nat → Run α} {r : Run α} (h : Settles (fun n => f (n + 1)) r) : Settles f r := by
  obtain ⟨hr, N, hN⟩ := h
  refine ⟨hr, N + 1, ?_⟩
  intro n hn
  obtain ⟨m, rfl⟩ : ∃ m, n = m + 1 := ⟨n - 1, by omega⟩
  exact hN m (by omega)

theorem settles_unique {α : Type} {f : Nat → Run α} {r r' : Run α} (h : Settles f r) (h' : Settles f r') : r = r' := by
  obtain ⟨_, N, hN⟩ := h
  obtain ⟨_, M, hM⟩ := h'
  rw [← hN (max N M) (le_max_left _ _), hM _ (le_max_right _ _)]

/-- What one pass of a writing loop does, for a stream in order, a file length on the sample grid, and a far `t2`. -/
theorem writeBody_ok {L t2 l : Int} {s : WState} {tr : Trace} (hL : L = 10000 * l) (hl : 0 < l) (ho : InOrder s.p)
    (hlast : s.p.getLast? = some tr) (h0 : 0 ≤ s.h) (hh : s.h ≤ 10000 * tr.stop) (hfar : 10000 * tr.stop + L ≤ t2) :
    ∃ s' b, writeBody L t2 s = .done (s', b) ∧ InOrder s'.p ∧ samples s'.p = from_ (windowEnd L s.h) (samples s.p) ∧
      samples s'.out = samples s.out ++ (samples s.p).filter (fun q =>
        decide (s.h ≤ 10000 * q.1) && decide (10000 * q.1 ≤ windowEnd L s.h - 1)) ∧
      (b = true → s.h < s'.h ∧ s'.p ≠ [] ∧ from_ s'.h (samples s'.p) = samples s'.p ∧ s'.h ≤ 10000 * tr.stop) ∧
      (b = false → s'.p = []) := by
  obtain ⟨e, he⟩ := windowEnd_grid l s.h
  rw [← hL] at he
  have hLpos : 0 < L := by omega
  have hw := truncTime_nonneg h0 hLpos
  have hwe : windowEnd L s.h = truncTime s.h L + L := rfl
  obtain ⟨p', h1, h2, h3⟩ := trim_after ho hlast (by omega) e (by omega) (t2 := t2)
  rw [← he] at h1 h3
  have ho' : InOrder p' := ⟨h2, by rw [h3]; exact increasing_from ho.2 _⟩
  have hwin : writeWindow L s.p s.h = (sliceStream s.h (windowEnd L s.h - 1) s.p, windowEnd L s.h) := rfl
  unfold writeBody
  rw [hwin]
  simp only
  rw [h1]
  cases p' with
  | nil =>
    refine ⟨_, false, rfl, ho', h3, ?_, by simp, by simp⟩
    simp only
    rw [samples_append, samples_sliceStream]
  | cons a p' =>
    refine ⟨_, true, rfl, ho', h3, ?_, ?_, by simp⟩
    · simp only
      rw [samples_append, samples_sliceStream]
    · intro _
      obtain ⟨x, r, er⟩ := head_samples (p := p') (ho'.1 a (by simp))
      have hm : (a.start, x) ∈ from_ (windowEnd L s.h) (samples s.p) := by rw [← h3, er]; simp
      obtain ⟨m1, m2⟩ := mem_from.mp hm
      have m3 := le_stop ho hlast m1
      simp only at m2 m3 ⊢
      refine ⟨by omega, by simp, ?_, by omega⟩
      apply from_all
      intro q hq
      have := start_le ho' hq
      omega

/-- The end of a stream in terms of samples. -/
theorem last_of_suffix {p p' : List Trace} {tr : Trace} (ho : InOrder p) (ho' : InOrder p')
    (hlast : p.getLast? = some tr) (hne : p' ≠ []) (hs : samples p' <:+ samples p) :
    ∃ tr', p'.getLast? = some tr' ∧ tr'.stop = tr.stop := by
  obtain ⟨tr', ht'⟩ : ∃ tr', p'.getLast? = some tr' := ⟨p'.getLast hne, List.getLast?_eq_some_getLast hne⟩
  refine ⟨tr', ht', ?_⟩
  obtain ⟨x, r, e1⟩ := last_samples hlast (ho.1 tr (List.mem_of_getLast? hlast))
  obtain ⟨y, r', e2⟩ := last_samples ht' (ho'.1 tr' (List.mem_of_getLast? ht'))
  obtain ⟨z, ez⟩ := hs
  rw [e1, e2, ← List.append_assoc] at ez
  have := (List.append_inj' ez rfl).2
  simp only [List.cons.injEq, Prod.mk.injEq, and_true] at this
  exact this.1

theorem from_is_suffix {s : List (Int × Int)} (hs : Increasing s) (t : Int) : from_ t s <:+ s := by
  obtain ⟨r, e, _⟩ := from_suffix hs t
  exact ⟨r, e.symm⟩

/-- The loop over whole windows. -/
theorem writeFull_ok {L t2 l : Int} (hL : L = 10000 * l) (hl : 0 < l) {tr : Trace} (k : Nat) (s : WState)
    (hk : (10000 * tr.stop - s.h).toNat ≤ k) (ho : InOrder s.p)
    (hlast : s.p.getLast? = some tr) (h0 : 0 ≤ s.h) (hh : s.h ≤ 10000 * tr.stop) (hfar : 10000 * tr.stop + L ≤ t2) :
    ∃ s', Settles (fun n => writeFull L t2 n s) (.done s') ∧ InOrder s'.p ∧ s'.p ≠ [] ∧
      s.h ≤ s'.h ∧ s'.h ≤ 10000 * tr.stop ∧ (s' = s ∨ from_ s'.h (samples s'.p) = samples s'.p) ∧
      ∃ r, samples s.p = r ++ samples s'.p ∧
        (s' ≠ s → samples s'.out = samples s.out ++ from_ s.h r) := by
  induction k using Nat.strong_induction_on generalizing s tr with
  | _ k ih =>
    by_cases hc : s.h + L ≤ 10000 * tr.stop
    · obtain ⟨s1, b, e1, o1, p1, out1, bt, bf⟩ := writeBody_ok hL hl ho hlast h0 hh hfar
      have hw := truncTime_nonneg h0 (show 0 < L by omega)
      have hwe : windowEnd L s.h = truncTime s.h L + L := rfl
      have hne : s1.p ≠ [] := by
        intro hn
        have : samples s1.p = [] := by rw [hn]; rfl
        rw [p1] at this
        obtain ⟨x, r, er⟩ := last_samples hlast (ho.1 tr (List.mem_of_getLast? hlast))
        have hm : (tr.stop, x) ∈ from_ (windowEnd L s.h) (samples s.p) := by
          rw [mem_from, er]
          exact ⟨by simp, by simp only; omega⟩
        rw [this] at hm
        simp at hm
      have hb : b = true := by
        cases b with
        | true => rfl
        | false => exact absurd (bf rfl) hne
      obtain ⟨b1, _, b3, b4⟩ := bt hb
      have hsuf : samples s1.p <:+ samples s.p := by rw [p1]; exact from_is_suffix ho.2 _
      obtain ⟨tr1, t1, t2'⟩ := last_of_suffix ho o1 hlast hne hsuf
      obtain ⟨s', q1, q2, q3, q5, q6, q7, r2, q8, q9⟩ := ih (10000 * tr1.stop - s1.h).toNat (by omega) s1 (le_refl _) o1 t1
        (by omega) (by omega) (by omega)
      obtain ⟨r1, er1, hr1⟩ := from_suffix ho.2 (windowEnd L s.h)
      rw [← p1] at er1
      have hout1 : samples s1.out = samples s.out ++ from_ s.h r1 := by
        rw [out1]
        congr 1
        have f1 := window_split ho.2 (show s.h ≤ windowEnd L s.h by omega)
        rw [← p1] at f1
        have f2 : from_ s.h (samples s.p) = from_ s.h r1 ++ samples s1.p := by
          conv_lhs => rw [er1]
          rw [from_append, from_all (s := samples s1.p)]
          intro q hq
          rw [p1] at hq
          have := (mem_from.mp hq).2
          omega
        rw [f2] at f1
        exact List.append_cancel_right f1
      have hall : from_ s'.h (samples s'.p) = samples s'.p := by
        rcases q7 with h | h
        · rw [h]; exact b3
        · exact h
      refine ⟨s', ?_, q2, q3, by omega, by omega, Or.inr hall, r1 ++ r2, ?_, ?_⟩
      · apply settles_succ
        simp only [writeFull, hlast, if_pos hc, e1, Run.bind, hb, if_true]
        exact q1
      · rw [er1, q8, List.append_assoc]
      · intro _
        by_cases he : s' = s1
        · have : r2 = [] := by
            have h := congrArg List.length q8
            rw [he, List.length_append] at h
            exact List.length_eq_zero_iff.mp (by omega)
          rw [he, hout1, this, List.append_nil]
        · rw [q9 he, hout1, from_append, List.append_assoc]
          congr 2
          have z : ∀ q ∈ r2, s1.h ≤ 10000 * q.1 := by
            intro q hq
            have hq' : q ∈ from_ s1.h (samples s1.p) := by
              rw [b3, q8]
              simp [hq]
            exact (mem_from.mp hq').2
          rw [from_all z, from_all]
          intro q hq
          have := z q hq
          omega
    · refine ⟨s, ?_, ho, ?_, le_refl _, hh, Or.inl rfl, [], rfl, by simp⟩
      · apply settles_succ
        simp only [writeFull, hlast, if_neg hc]
        exact settles_const (by simp)
      · rintro h
        rw [h] at hlast
        simp at hlast

/-- The loop writing what is left. -/
theorem writeRest_ok {L t2 l : Int} (hL : L = 10000 * l) (hl : 0 < l) {tr : Trace} (k : Nat) (s : WState)
    (hk : (10000 * tr.stop + 1 - s.h).toNat ≤ k) (ho : InOrder s.p)
    (hlast : s.p.getLast? = some tr) (h0 : 0 ≤ s.h) (hfar : s.h ≤ 10000 * tr.stop → 10000 * tr.stop + L ≤ t2) :
    ∃ s', Settles (fun n => writeRest L t2 n s) (.done s') ∧
      samples s'.out = samples s.out ++ from_ s.h (samples s.p) := by
  induction k using Nat.strong_induction_on generalizing s tr with
  | _ k ih =>
    by_cases hc : s.h ≤ 10000 * tr.stop
    · obtain ⟨s1, b, e1, o1, p1, out1, bt, bf⟩ := writeBody_ok hL hl ho hlast h0 hc (hfar hc)
      have hw := truncTime_nonneg h0 (show 0 < L by omega)
      have hwe : windowEnd L s.h = truncTime s.h L + L := rfl
      have hsplit := window_split ho.2 (show s.h ≤ windowEnd L s.h by omega)
      cases hb : b with
      | true =>
        obtain ⟨b1, hne, b3, b4⟩ := bt hb
        have hsuf : samples s1.p <:+ samples s.p := by rw [p1]; exact from_is_suffix ho.2 _
        obtain ⟨tr1, t1, t2'⟩ := last_of_suffix ho o1 hlast hne hsuf
        have hfar' := hfar hc
        obtain ⟨s', q1, q2⟩ := ih (10000 * tr1.stop + 1 - s1.h).toNat (by omega) s1 (le_refl _) o1 t1
          (by omega) (by omega)
        refine ⟨s', ?_, ?_⟩
        · apply settles_succ
          simp only [writeRest, hlast, if_pos hc, e1, Run.bind, hb, if_true]
          exact q1
        · rw [q2, b3, p1, out1, List.append_assoc, hsplit]
      | false =>
        refine ⟨s1, ?_, ?_⟩
        · apply settles_succ
          simp only [writeRest, hlast, if_pos hc, e1, Run.bind, hb]
          exact settles_const (by simp)
        · have : from_ (windowEnd L s.h) (samples s.p) = [] := by
            rw [← p1, bf hb]
            rfl
          rw [out1, ← hsplit, this, List.append_nil]
    · refine ⟨s, ?_, ?_⟩
      · apply settles_succ
        simp only [writeRest, hlast, if_neg hc]
        exact settles_const (by simp)
      · rw [from_none, List.append_nil]
        intro q hq
        have := le_stop ho hlast hq
        omega

/-- Trimming at any time that is not after the last sample. -/
theorem trim_at {t2 h : Int} {p : List Trace} {tr : Trace} (ho : InOrder p) (hlast : p.getLast? = some tr)
    (hh : h ≤ 10000 * tr.stop) (hfar : 10000 * tr.stop ≤ t2) :
    ∃ p' r, trimStream h t2 p = .ok p' ∧ p' ≠ [] ∧ InOrder p' ∧ samples p = r ++ samples p' ∧ from_ h r = [] := by
  cases p with
  | nil => simp at hlast
  | cons a p =>
    have hb : ∀ k, 10000 * k ≤ t2 → k ≤ (trimLimits h t2 a).2 := by
      intro k hk
      unfold trimLimits
      have := @le_roundAway (t2 - 10000 * a.stop) (k - a.stop) (by linarith)
      simp only
      omega
    have ha : (trimLimits h t2 a).1 ≤ tr.stop := by
      unfold trimLimits
      have := @roundAway_le (h - 10000 * a.start) (tr.stop - a.start) (by linarith)
      simp only
      omega
    have ha2 : 10000 * (trimLimits h t2 a).1 < h + 10000 := by
      unfold trimLimits roundAway
      simp only
      split_ifs <;> omega
    rcases trimStream_cases h t2 a p with ⟨_, h2⟩ | ⟨p', h1, _, h3, h4⟩
    · have := hb tr.stop hfar
      omega
    · have h4' : samples p' = from_ (10000 * (trimLimits h t2 a).1) (samples (a :: p)) := by
        rw [h4]
        unfold from_
        apply List.filter_congr
        intro q hq
        have h5 := hb tr.stop hfar
        have h6 := le_stop ho hlast hq
        rw [Bool.eq_iff_iff]
        simp only [Bool.and_eq_true, decide_eq_true_eq]
        omega
      obtain ⟨r, e, hr⟩ := from_suffix ho.2 (10000 * (trimLimits h t2 a).1)
      refine ⟨p', r, h1, ?_, ⟨h3, by rw [h4']; exact increasing_from ho.2 _⟩, by rw [h4']; exact e, ?_⟩
      · intro hn
        obtain ⟨x, r', er⟩ := last_samples hlast (ho.1 tr (List.mem_of_getLast? hlast))
        have hm : (tr.stop, x) ∈ from_ (10000 * (trimLimits h t2 a).1) (samples (a :: p)) := by
          rw [mem_from, er]
          exact ⟨by simp, by simp only; omega⟩
        rw [← h4', hn] at hm
        simp [samples] at hm
      · apply from_none
        intro q hq
        have := hr q hq
        omega

theorem day_pos {j : Job} (hb : 0 < j.blockdays) : 0 < j.day := by
  unfold Job.day
  rw [Int.ceil_pos]
  linarith

theorem blocks_floor {j : Job} (hb : 0 < j.blockdays) {n1 : Rat} (h : n1 ≤ j.last) : 0 ≤ ⌊((j.last : Rat) - n1) / (12 * j.blockdays)⌋ ∧
    ⌊((j.last : Rat) - (n1 + 12 * j.blockdays)) / (12 * j.blockdays)⌋ = ⌊((j.last : Rat) - n1) / (12 * j.blockdays)⌋ - 1 := by
  constructor
  · rw [Int.le_floor]
    push_cast
    exact div_nonneg (by linarith) (by linarith)
  · have hne : (12 * j.blockdays) ≠ 0 := by linarith
    have : ((j.last : Rat) - (n1 + 12 * j.blockdays)) / (12 * j.blockdays) = ((j.last : Rat) - n1) / (12 * j.blockdays) - 1 := by
      field_simp
      ring
    rw [this, Int.floor_sub_one]

/-- An upper bound of the number of blocks still to be read. -/
def blocksLeft (j : Job) (n1 : Rat) : Nat := (⌊((j.last : Rat) - n1) / (12 * j.blockdays)⌋ + 1).toNat

theorem blocksLeft_lt {j : Job} (hb : 0 < j.blockdays) {n1 : Rat} (h : n1 ≤ j.last) :
    blocksLeft j (n1 + 12 * j.blockdays) < blocksLeft j n1 := by
  unfold blocksLeft
  obtain ⟨h1, h2⟩ := blocks_floor hb h
  omega

end Gemlog
