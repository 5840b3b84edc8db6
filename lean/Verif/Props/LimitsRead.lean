import Verif.Props.LimitsEnd

/-!
# C33, C53: what a conversion with limits writes, for any number of blocks

Every conversion that ends normally has written exactly the samples of the blocks it has read that are between the limits, and the filling of their
small gaps.
-/

namespace Gemlog

/-- Specification: `q` is a sample of the record, or was put into a gap of at most two missing samples (20 or 30 ms). -/
def Fills (rec : List (Int × Int)) (q : Int × Int) : Prop :=
  q ∈ rec ∨ (∀ r ∈ rec, r.1 ≠ q.1) ∧ ∃ a ∈ rec, ∃ b ∈ rec, a.1 < q.1 ∧ q.1 < b.1 ∧ b.1 - a.1 ≤ 3

/-- The invariant: `rec` has been read, `fut` has not, `out` is written, `p` is left. -/
structure KeptSoFar (t1 t2 : Int) (rec fut : List (Int × Int)) (out p : List Trace) (h : Int) : Prop where
  order : InOrder p
  kept : ∀ r ∈ rec, t1 ≤ 10000 * r.1 → 10000 * r.1 ≤ t2 → r ∈ samples out ∨ r ∈ samples p ∧ h ≤ 10000 * r.1
  sorted : Increasing (samples out)
  before : ∀ q ∈ samples out, 10000 * q.1 < h
  complete : ∀ r ∈ rec, (∃ q ∈ samples p, q.1 ≤ r.1) → 10000 * r.1 ≤ t2 → r ∈ samples p
  later : ∀ q ∈ fut, t1 ≤ 10000 * q.1 → h ≤ 10000 * q.1
  good : ∀ q ∈ samples out ++ samples p, 10000 * q.1 ≤ t2 → Fills rec q
  bounded : ∀ q ∈ samples out ++ samples p, ∃ r ∈ rec, q.1 ≤ r.1

/-- What is claimed at the end. -/
structure WrittenWithin (t1 t2 : Int) (rec : List (Int × Int)) (out : List Trace) : Prop where
  kept : ∀ r ∈ rec, t1 ≤ 10000 * r.1 → 10000 * r.1 ≤ t2 → r ∈ samples out
  sorted : Increasing (samples out)
  good : ∀ q ∈ samples out, 10000 * q.1 ≤ t2 → Fills rec q

/-- A sample that `fillIn` inserts is between two neighbours. -/
theorem fillIn_mem {s : List (Int × Int)} {q : Int × Int} (hq : q ∈ fillIn s) :
    q ∈ s ∨ ∃ u c c' v, s = u ++ c :: c' :: v ∧ q ∈ between c c' := by
  induction s with
  | nil => simp [fillIn] at hq
  | cons a s ih =>
    cases s with
    | nil => left; simpa [fillIn] using hq
    | cons b l =>
      rw [fillIn] at hq
      rcases List.mem_cons.mp hq with rfl | hq
      · left; simp
      · rcases List.mem_append.mp hq with hq | hq
        · exact Or.inr ⟨[], a, b, l, rfl, hq⟩
        · rcases ih hq with h | ⟨u, c, c', v, e, h⟩
          · left; exact List.mem_cons_of_mem _ h
          · exact Or.inr ⟨a :: u, c, c', v, by rw [e]; rfl, h⟩

/-- Nothing is between neighbours. -/
theorem neighbours {u v : List (Int × Int)} {c c' r : Int × Int} (hs : Increasing (u ++ c :: c' :: v)) (hr : r ∈ u ++ c :: c' :: v) :
    r.1 ≤ c.1 ∨ c'.1 ≤ r.1 := by
  obtain ⟨-, h2, h3⟩ := increasing_append.mp hs
  obtain ⟨h4, h5⟩ := List.pairwise_cons.mp h2
  obtain ⟨h6, -⟩ := List.pairwise_cons.mp h5
  rcases List.mem_append.mp hr with h | h
  · left; exact (h3 r h c (by simp)).le
  · rcases List.mem_cons.mp h with rfl | h
    · left; exact le_refl _
    · rcases List.mem_cons.mp h with rfl | h
      · right; exact le_refl _
      · right; exact (h6 r h).le

/-- Reading a block. -/
theorem kept_merge {t1 t2 : Int} {rec fut : List (Int × Int)} {out p d : List Trace} {h : Int} (hd : InOrder d)
    (hr : Increasing (rec ++ (samples d ++ fut))) (hp : KeptSoFar t1 t2 rec (samples d ++ fut) out p h)
    (hend : ∀ q ∈ samples p, 10000 * q.1 ≤ t2) : KeptSoFar t1 t2 (rec ++ samples d) fut out (mergeGaps (p ++ d)) h := by
  obtain ⟨r1, r2, r3⟩ := increasing_append.mp hr
  have hrd : ∀ x ∈ rec, ∀ y ∈ samples d, x.1 < y.1 := fun x hx y hy => r3 x hx y (List.mem_append_left _ hy)
  have hpd : ∀ x ∈ samples p, ∀ y ∈ samples d, x.1 < y.1 := by
    intro x hx y hy
    obtain ⟨r, g1, g2⟩ := hp.bounded x (List.mem_append_right _ hx)
    have := hrd r g1 y hy
    omega
  have ho : InOrder (p ++ d) := inOrder_append.mpr ⟨hp.order, hd, hpd⟩
  have hom := inOrder_mergeGaps ho
  have hs : samples (mergeGaps (p ++ d)) = fillIn (samples p ++ samples d) := by rw [samples_mergeGaps ho, samples_append]
  have hsub : ∀ q, q ∈ samples p ∨ q ∈ samples d → q ∈ fillIn (samples p ++ samples d) := fun q hq =>
    (fillIn_sublist _).subset (List.mem_append.mpr hq)
  have hinc : Increasing (samples p ++ samples d) := by rw [← samples_append]; exact ho.2
  have hincf : Increasing (fillIn (samples p ++ samples d)) := by rw [← hs]; exact hom.2
  have hcomp : ∀ r ∈ rec ++ samples d, (∃ q ∈ fillIn (samples p ++ samples d), q.1 ≤ r.1) → 10000 * r.1 ≤ t2 → r ∈ samples p ∨ r ∈ samples d := by
    intro r hr' ⟨q, hq, hqr⟩ ht
    rcases List.mem_append.mp hr' with g | g
    · obtain ⟨⟨c, hc, hcq⟩, -⟩ := fillIn_bounds hinc hq
      rcases List.mem_append.mp hc with hc | hc
      · exact Or.inl (hp.complete r g ⟨c, hc, by omega⟩ ht)
      · have := hrd r g c hc
        omega
    · exact Or.inr g
  refine ⟨hom, ?_, hp.sorted, hp.before, ?_, ?_, ?_, ?_⟩
  · intro r hr' ht1 ht2
    rw [hs]
    rcases List.mem_append.mp hr' with g | g
    · rcases hp.kept r g ht1 ht2 with k | ⟨k1, k2⟩
      · exact Or.inl k
      · exact Or.inr ⟨hsub r (Or.inl k1), k2⟩
    · exact Or.inr ⟨hsub r (Or.inr g), hp.later r (List.mem_append_left _ g) ht1⟩
  · intro r hr' hq ht
    rw [hs] at hq ⊢
    exact hsub r (hcomp r hr' hq ht)
  · exact fun q hq => hp.later q (List.mem_append_right _ hq)
  · intro q hq ht
    -- a sample of the old record remains good
    have hold : ∀ q : Int × Int, (∃ r ∈ rec, q.1 ≤ r.1) → Fills rec q → Fills (rec ++ samples d) q := by
      rintro q ⟨r, g1, g2⟩ (g | ⟨g3, a, ha, b, hb, g4⟩)
      · exact Or.inl (List.mem_append_left _ g)
      · refine Or.inr ⟨?_, a, List.mem_append_left _ ha, b, List.mem_append_left _ hb, g4⟩
        intro x hx
        rcases List.mem_append.mp hx with hx | hx
        · exact g3 x hx
        · have := hrd r g1 x hx
          omega
    rw [hs] at hq
    rcases List.mem_append.mp hq with hq | hq
    · exact hold q (hp.bounded q (List.mem_append_left _ hq)) (hp.good q (List.mem_append_left _ hq) ht)
    · rcases fillIn_mem hq with hq' | ⟨u, c, c', v, e, hb⟩
      · rcases List.mem_append.mp hq' with hq' | hq'
        · exact hold q (hp.bounded q (List.mem_append_right _ hq')) (hp.good q (List.mem_append_right _ hq') ht)
        · exact Or.inl (List.mem_append_right _ hq')
      · obtain ⟨b1, b2, b3⟩ := mem_between hb
        have hcm : c ∈ samples p ++ samples d := by rw [e]; simp
        have hcm' : c' ∈ samples p ++ samples d := by rw [e]; simp
        have hnb : ∀ r, r ∈ samples p ∨ r ∈ samples d → r.1 ≤ c.1 ∨ c'.1 ≤ r.1 := by
          intro r hr'
          have hr'' := List.mem_append.mpr hr'
          rw [e] at hr''
          exact neighbours (by rw [← e]; exact hinc) hr''
        refine Or.inr ⟨?_, ?_⟩
        · intro r hr' he
          rcases hnb r (hcomp r hr' ⟨q, hq, by omega⟩ (by omega)) with g | g <;> omega
        · -- the left neighbour
          rcases List.mem_append.mp hcm with hc | hc
          · rcases hp.good c (List.mem_append_right _ hc) (hend c hc) with gc | ⟨-, a, ha, b, hbm, g1, g2, g3⟩
            · rcases List.mem_append.mp hcm' with hc' | hc'
              · rcases hp.good c' (List.mem_append_right _ hc') (hend c' hc') with gc' | ⟨gn, a', ha', b', hbm', g1', g2', g3'⟩
                · exact ⟨c, List.mem_append_left _ gc, c', List.mem_append_left _ gc', b1, b2, b3⟩
                · refine ⟨a', List.mem_append_left _ ha', b', List.mem_append_left _ hbm', ?_, by omega, g3'⟩
                  by_contra hcon
                  have := hend c' hc'
                  rcases hnb a' (Or.inl (hp.complete a' ha' ⟨c, hc, by omega⟩ (by omega))) with g | g <;> omega
              · exact ⟨c, List.mem_append_left _ gc, c', List.mem_append_right _ hc', b1, b2, b3⟩
            · refine ⟨a, List.mem_append_left _ ha, b, List.mem_append_left _ hbm, by omega, ?_, g3⟩
              by_contra hcon
              have hbt : 10000 * b.1 ≤ t2 := by omega
              rcases hnb b (Or.inl (hp.complete b hbm ⟨c, hc, by omega⟩ hbt)) with g | g <;> omega
          · rcases List.mem_append.mp hcm' with hc' | hc'
            · have := hpd c' hc' c hc
              omega
            · exact ⟨c, List.mem_append_right _ hc, c', List.mem_append_right _ hc', b1, b2, b3⟩
  · intro q hq
    rw [hs] at hq
    have hstep : ∀ c, c ∈ samples out ++ samples p → ∃ r ∈ rec ++ samples d, c.1 ≤ r.1 := by
      intro c hc
      obtain ⟨r, g1, g2⟩ := hp.bounded c hc
      exact ⟨r, List.mem_append_left _ g1, g2⟩
    rcases List.mem_append.mp hq with hq | hq
    · exact hstep q (List.mem_append_left _ hq)
    · obtain ⟨-, c, hc, hcq⟩ := fillIn_bounds hinc hq
      rcases List.mem_append.mp hc with hc | hc
      · obtain ⟨r, g1, g2⟩ := hstep c (List.mem_append_right _ hc)
        exact ⟨r, g1, by omega⟩
      · exact ⟨c, List.mem_append_right _ hc, hcq⟩

/-- What trimming leaves. -/
theorem trim_kept {a t2 : Int} {p p' : List Trace} (hp : InOrder p) (h : trimStream a t2 p = .ok p') :
    InOrder p' ∧ (∀ q ∈ samples p', q ∈ samples p) ∧ (∀ q ∈ samples p, a ≤ 10000 * q.1 → 10000 * q.1 ≤ t2 → q ∈ samples p') ∧
    (∀ q ∈ samples p', ∀ r ∈ samples p, q.1 ≤ r.1 → 10000 * r.1 ≤ t2 → r ∈ samples p') ∧
    (∀ e, a = 10000 * e → ∀ q ∈ samples p', e ≤ q.1) := by
  cases p with
  | nil =>
    simp only [trimStream, Except.ok.injEq] at h
    subst h
    exact ⟨hp, fun q hq => hq, fun q hq _ _ => hq, fun q hq => by simp [samples] at hq, fun e _ q hq => by simp [samples] at hq⟩
  | cons tr p =>
    rcases trimStream_cases a t2 tr p with ⟨g, -⟩ | ⟨p1, g1, g2, g3, g4⟩
    · rw [g] at h
      cases h
    · rw [g1, Except.ok.injEq] at h
      subst h
      have hup : ∀ r : Int × Int, 10000 * r.1 ≤ t2 → r.1 ≤ (trimLimits a t2 tr).2 := by
        intro r hr
        have := le_roundAway (d := t2 - 10000 * tr.stop) (k := r.1 - tr.stop) (by omega)
        unfold trimLimits
        dsimp only
        omega
      refine ⟨⟨g3, ?_⟩, ?_, ?_, ?_, ?_⟩
      · rw [g4]
        exact List.Pairwise.sublist List.filter_sublist hp.2
      · intro q hq
        rw [g4] at hq
        exact (List.mem_filter.mp hq).1
      · intro q hq ha ht
        rw [g4, List.mem_filter]
        refine ⟨hq, ?_⟩
        have := roundAway_le (d := a - 10000 * tr.start) (k := q.1 - tr.start) (by omega)
        have h1 : (trimLimits a t2 tr).1 ≤ q.1 := by
          unfold trimLimits
          dsimp only
          omega
        simp [h1, hup q ht]
      · intro q hq r hr hqr ht
        rw [g4, List.mem_filter] at hq ⊢
        have hq2 := hq.2
        simp only [Bool.and_eq_true, decide_eq_true_eq] at hq2 ⊢
        exact ⟨hr, by omega, hup r ht⟩
      · rintro e rfl q hq
        rw [g4, List.mem_filter] at hq
        have hq2 := hq.2
        simp only [Bool.and_eq_true, decide_eq_true_eq] at hq2
        have e1 : (trimLimits (10000 * e) t2 tr).1 = e := by
          unfold trimLimits
          dsimp only
          rw [show 10000 * e - 10000 * tr.start = 10000 * (e - tr.start) by ring, roundAway_mul]
          ring
        omega

/-- Trimming to the time from which on data are still to be written. -/
theorem kept_trim {t1 t2 : Int} {rec fut : List (Int × Int)} {out p p' : List Trace} {h : Int} (hp : KeptSoFar t1 t2 rec fut out p h)
    (ht : trimStream h t2 p = .ok p') : KeptSoFar t1 t2 rec fut out p' h := by
  obtain ⟨g1, g2, g3, g4, -⟩ := trim_kept hp.order ht
  have hsub : ∀ q ∈ samples out ++ samples p', q ∈ samples out ++ samples p := by
    intro q hq
    rcases List.mem_append.mp hq with hq | hq
    · exact List.mem_append_left _ hq
    · exact List.mem_append_right _ (g2 q hq)
  refine ⟨g1, ?_, hp.sorted, hp.before, ?_, hp.later, fun q hq => hp.good q (hsub q hq), fun q hq => hp.bounded q (hsub q hq)⟩
  · intro r hr h1 h2
    rcases hp.kept r hr h1 h2 with k | ⟨k1, k2⟩
    · exact Or.inl k
    · exact Or.inr ⟨g3 r k1 k2 h2, k2⟩
  · rintro r hr ⟨q, hq, hqr⟩ ht2
    exact g4 q hq r (hp.complete r hr ⟨q, g2 q hq, hqr⟩ ht2) hqr ht2

/-- Writing one window. -/
theorem kept_body {t1 t2 L l : Int} {rec fut : List (Int × Int)} (hr : Increasing (rec ++ fut)) (hL : L = 10000 * l) (hl : 0 < l) {s s' : WState} {b : Bool}
    (hp : KeptSoFar t1 t2 rec fut s.out s.p s.h) (hb : writeBody L t2 s = .done (s', b)) :
    (b = true ∧ KeptSoFar t1 t2 rec fut s'.out s'.p s'.h) ∨ (b = false ∧ s'.p = [] ∧ WrittenWithin t1 t2 rec s'.out) := by
  have hwin : writeWindow L s.p s.h = (sliceStream s.h (windowEnd L s.h - 1) s.p, windowEnd L s.h) := rfl
  obtain ⟨e, he⟩ := windowEnd_grid l s.h
  rw [← hL] at he
  have hgt : s.h < windowEnd L s.h := truncTime_gt (by omega)
  unfold writeBody at hb
  rw [hwin] at hb
  dsimp only at hb
  cases ht : trimStream (windowEnd L s.h) t2 s.p with
  | error x => rw [ht] at hb; cases hb
  | ok p' =>
    obtain ⟨g1, g2, g3, g4, g5⟩ := trim_kept hp.order ht
    have hslice : ∀ q, q ∈ samples (sliceStream s.h (windowEnd L s.h - 1) s.p) ↔
        q ∈ samples s.p ∧ s.h ≤ 10000 * q.1 ∧ 10000 * q.1 < windowEnd L s.h := by
      intro q
      rw [samples_sliceStream, List.mem_filter, Bool.and_eq_true, decide_eq_true_eq, decide_eq_true_eq]
      constructor <;> rintro ⟨h1, h2, h3⟩ <;> exact ⟨h1, h2, by omega⟩
    have hsplit : ∀ r ∈ rec, t1 ≤ 10000 * r.1 → 10000 * r.1 ≤ t2 →
        r ∈ samples (s.out ++ sliceStream s.h (windowEnd L s.h - 1) s.p) ∨ r ∈ samples p' := by
      intro r hr h1 h2
      rw [samples_append, List.mem_append]
      rcases hp.kept r hr h1 h2 with k | ⟨k1, k2⟩
      · exact Or.inl (Or.inl k)
      · by_cases hlt : 10000 * r.1 < windowEnd L s.h
        · exact Or.inl (Or.inr ((hslice r).mpr ⟨k1, k2, hlt⟩))
        · exact Or.inr (g3 r k1 (by omega) h2)
    have hsorted : Increasing (samples (s.out ++ sliceStream s.h (windowEnd L s.h - 1) s.p)) := by
      rw [samples_append]
      refine increasing_append.mpr ⟨hp.sorted, ?_, ?_⟩
      · rw [samples_sliceStream]
        exact List.Pairwise.sublist List.filter_sublist hp.order.2
      · intro x hx y hy
        have h1 := hp.before x hx
        have h2 := ((hslice y).mp hy).2.1
        omega
    have hbefore : ∀ q ∈ samples (s.out ++ sliceStream s.h (windowEnd L s.h - 1) s.p), 10000 * q.1 < windowEnd L s.h := by
      intro q hq
      rw [samples_append] at hq
      rcases List.mem_append.mp hq with hq | hq
      · have := hp.before q hq
        omega
      · exact ((hslice q).mp hq).2.2
    have hsub : ∀ q ∈ samples (s.out ++ sliceStream s.h (windowEnd L s.h - 1) s.p) ++ samples p', q ∈ samples s.out ++ samples s.p := by
      intro q hq
      rw [samples_append] at hq
      rcases List.mem_append.mp hq with hq | hq
      · rcases List.mem_append.mp hq with hq | hq
        · exact List.mem_append_left _ hq
        · exact List.mem_append_right _ ((hslice q).mp hq).1
      · exact List.mem_append_right _ (g2 q hq)
    rw [ht] at hb
    cases p' with
    | nil =>
      simp only [Run.done.injEq, Prod.mk.injEq] at hb
      obtain ⟨rfl, rfl⟩ := hb
      right
      refine ⟨rfl, rfl, fun r hr h1 h2 => ?_, hsorted, fun q hq => hp.good q (hsub q (List.mem_append_left _ hq))⟩
      rcases hsplit r hr h1 h2 with k | k
      · exact k
      · simp [samples] at k
    | cons tr p1 =>
      simp only [Run.done.injEq, Prod.mk.injEq] at hb
      obtain ⟨rfl, rfl⟩ := hb
      left
      obtain ⟨x, r0, er⟩ := head_samples (p := p1) (g1.1 tr (by simp))
      have hmem : (tr.start, x) ∈ samples (tr :: p1) := by rw [er]; simp
      have hstart : e ≤ tr.start := g5 e he _ hmem
      refine ⟨rfl, g1, ?_, hsorted, ?_, ?_, ?_, fun q hq => hp.good q (hsub q hq), fun q hq => hp.bounded q (hsub q hq)⟩
      · intro r hr h1 h2
        rcases hsplit r hr h1 h2 with k | k
        · exact Or.inl k
        · exact Or.inr ⟨k, by have := start_le g1 k; dsimp only; omega⟩
      · intro q hq
        have := hbefore q hq
        dsimp only
        omega
      · rintro r hr ⟨q, hq, hqr⟩ ht2
        exact g4 q hq r (hp.complete r hr ⟨q, g2 q hq, hqr⟩ ht2) hqr ht2
      · intro q hq _
        obtain ⟨r, k1, k2⟩ := hp.bounded _ (List.mem_append_right _ (g2 _ hmem))
        have := (increasing_append.mp hr).2.2 r k1 q hq
        dsimp only at k2 ⊢
        omega

theorem kept_full {t1 t2 L l : Int} {rec fut : List (Int × Int)} (hr : Increasing (rec ++ fut)) (hL : L = 10000 * l) (hl : 0 < l) (n : Nat) (s s' : WState)
    (hp : KeptSoFar t1 t2 rec fut s.out s.p s.h) (h : writeFull L t2 n s = .done s') :
    KeptSoFar t1 t2 rec fut s'.out s'.p s'.h ∨ s'.p = [] := by
  induction n generalizing s with
  | zero => simp [writeFull] at h
  | succ n ih =>
    rw [writeFull] at h
    cases hl' : s.p.getLast? with
    | none => rw [hl'] at h; cases h
    | some tr =>
      rw [hl'] at h
      dsimp only at h
      split at h
      · cases hb : writeBody L t2 s with
        | running => rw [hb] at h; cases h
        | raised x o => rw [hb] at h; cases h
        | done r =>
          obtain ⟨s1, b⟩ := r
          rw [hb] at h
          simp only [Run.bind] at h
          rcases kept_body hr hL hl hp hb with ⟨rfl, g⟩ | ⟨rfl, g, -⟩
          · exact ih s1 g (by simpa using h)
          · simp only [Bool.false_eq_true, if_false, Run.done.injEq] at h
            subst h
            exact Or.inr g
      · simp only [Run.done.injEq] at h
        subst h
        exact Or.inl hp

theorem kept_rest {t1 t2 L l : Int} {rec fut : List (Int × Int)} (hr : Increasing (rec ++ fut)) (hL : L = 10000 * l) (hl : 0 < l) (n : Nat) (s s' : WState)
    (hp : KeptSoFar t1 t2 rec fut s.out s.p s.h) (h : writeRest L t2 n s = .done s') : WrittenWithin t1 t2 rec s'.out := by
  induction n generalizing s with
  | zero => simp [writeRest] at h
  | succ n ih =>
    rw [writeRest] at h
    cases hl' : s.p.getLast? with
    | none => rw [hl'] at h; cases h
    | some tr =>
      rw [hl'] at h
      dsimp only at h
      split at h
      · cases hb : writeBody L t2 s with
        | running => rw [hb] at h; cases h
        | raised x o => rw [hb] at h; cases h
        | done r =>
          obtain ⟨s1, b⟩ := r
          rw [hb] at h
          simp only [Run.bind] at h
          rcases kept_body hr hL hl hp hb with ⟨rfl, g⟩ | ⟨rfl, -, g⟩
          · exact ih s1 g (by simpa using h)
          · simp only [Bool.false_eq_true, if_false, Run.done.injEq] at h
            subst h
            exact g
      · rename_i hc
        simp only [Run.done.injEq] at h
        subst h
        refine ⟨fun r hr' h1 h2 => ?_, hp.sorted, fun q hq => hp.good q (List.mem_append_left _ hq)⟩
        rcases hp.kept r hr' h1 h2 with k | ⟨k1, k2⟩
        · exact k
        · have := le_stop hp.order hl' k1
          omega

/-- Where the record stands: these blocks have been read, the others have not. -/
structure ReadSoFar (j : Job) (t1 : Int) (n1 : Rat) (reads : List (List Int)) (out p : List Trace) (h : Int) : Prop where
  blocks : j.blocks = reads ++ j.blocksFrom n1
  kept : KeptSoFar t1 j.t2 (samples (j.record reads)) (samples (j.record (j.blocksFrom n1))) out p h

theorem record_append (j : Job) (a b : List (List Int)) : j.record (a ++ b) = j.record a ++ j.record b := by
  unfold Job.record
  rw [List.flatMap_append]

theorem record_split {j : Job} {n1 : Rat} {reads : List (List Int)} (hblocks : j.blocks = reads ++ j.blocksFrom n1) (ho : InOrder (j.record j.blocks)) :
    Increasing (samples (j.record reads) ++ samples (j.record (j.blocksFrom n1))) := by
  have := ho.2
  rwa [hblocks, record_append, samples_append] at this

theorem kept_blocks {j : Job} (hb : 0 < j.blockdays) (ho : InOrder (j.record j.blocks)) {t1 tt2 : Int} (htt : tt2 ≤ j.t2) (out : List Trace) (n : Nat) (n1 : Rat) (p : List Trace)
    (reads : List (List Int)) {h : Int} (hp : ReadSoFar j t1 n1 reads out p h) (n2 : Rat) (p' : List Trace) (reads' : List (List Int))
    (hrun : readBlocks j tt2 out n n1 p reads = .done (n2, p', reads')) : ReadSoFar j t1 n2 reads' out p' h := by
  induction n generalizing n1 p reads with
  | zero => simp [readBlocks] at hrun
  | succ n ih =>
    rw [readBlocks] at hrun
    cases hl : p.getLast? with
    | none => rw [hl] at hrun; cases hrun
    | some tr =>
      rw [hl] at hrun
      dsimp only at hrun
      split at hrun
      · rename_i hc
        obtain ⟨hc1, hc2⟩ := hc
        have hcons := blocksFrom_cons hb hc2
        have hbl : j.blocks = (reads ++ [j.block n1]) ++ j.blocksFrom (n1 + 12 * j.blockdays) := by
          rw [hp.blocks, hcons]
          simp
        have hskip : j.streamOf (j.block n1) = [] → ReadSoFar j t1 (n1 + 12 * j.blockdays) (reads ++ [j.block n1]) out p h := by
          intro hst
          refine ⟨hbl, ?_⟩
          have := hp.kept
          rw [hcons] at this
          have e1 : j.record (j.block n1 :: j.blocksFrom (n1 + 12 * j.blockdays)) = j.record (j.blocksFrom (n1 + 12 * j.blockdays)) := by
            show j.streamOf (j.block n1) ++ _ = _
            rw [hst]
            rfl
          have e2 : j.record (reads ++ [j.block n1]) = j.record reads := by
            rw [record_append]
            show _ ++ (j.streamOf (j.block n1) ++ []) = _
            rw [hst]
            simp
          rw [e1] at this
          rw [e2]
          exact this
        cases hr : j.read (j.block n1) with
        | error x =>
          rw [hr] at hrun
          dsimp only at hrun
          split at hrun
          · exact ih _ _ _ (hskip (by unfold Job.streamOf; rw [hr])) hrun
          · cases hrun
        | ok d =>
          rw [hr] at hrun
          cases d with
          | nil => exact ih _ _ _ (hskip (by unfold Job.streamOf; rw [hr])) hrun
          | cons t d =>
            refine ih _ _ _ ⟨hbl, ?_⟩ hrun
            have hst : j.streamOf (j.block n1) = t :: d := by unfold Job.streamOf; rw [hr]
            have e1 : j.record (j.blocksFrom n1) = (t :: d) ++ j.record (j.blocksFrom (n1 + 12 * j.blockdays)) := by
              rw [hcons, ← hst]
              rfl
            have e2 : j.record (reads ++ [j.block n1]) = j.record reads ++ (t :: d) := by
              rw [record_append]
              show _ ++ (j.streamOf (j.block n1) ++ []) = _
              rw [hst]
              simp
            have hk := hp.kept
            have hinc := record_split hp.blocks ho
            rw [e1, samples_append] at hk hinc
            rw [e2, samples_append]
            have hod : InOrder (t :: d) := by
              have := ho
              rw [hp.blocks, record_append, e1] at this
              exact (inOrder_append.mp (inOrder_append.mp this).2.1).1
            refine kept_merge hod hinc hk ?_
            intro q hq
            have := le_stop hk.order hl hq
            omega
      · simp only [Run.done.injEq, Prod.mk.injEq] at hrun
        obtain ⟨rfl, rfl, rfl⟩ := hrun
        exact hp

theorem mainLoop_empty {j : Job} (n : Nat) (s s' : CState) (hp : s.w.p = []) (h : mainLoop j n s = .done s') : s'.w.p = [] := by
  cases n with
  | zero => simp [mainLoop] at h
  | succ n =>
    rw [mainLoop] at h
    split at h
    · simp only [Run.done.injEq] at h
      rw [← h]
      exact hp
    · split at h
      · simp only [Run.done.injEq] at h
        rw [← h]
        exact hp
      · exfalso
        dsimp only at h
        rw [hp] at h
        cases n with
        | zero => simp [readBlocks, Run.bind] at h
        | succ n => simp [readBlocks, Run.bind] at h

/-- Reading stops only behind `tt2` or after the last block. -/
theorem readBlocks_end {j : Job} {tt2 : Int} {out : List Trace} (n : Nat) (n1 : Rat) (p : List Trace) (reads : List (List Int)) (n2 : Rat) (p' : List Trace)
    (reads' : List (List Int)) (h : readBlocks j tt2 out n n1 p reads = .done (n2, p', reads')) :
    ∃ tr, p'.getLast? = some tr ∧ (tt2 ≤ 10000 * tr.stop ∨ n2 > j.last) := by
  induction n generalizing n1 p reads with
  | zero => simp [readBlocks] at h
  | succ n ih =>
    rw [readBlocks] at h
    cases hl : p.getLast? with
    | none => rw [hl] at h; cases h
    | some tr =>
      rw [hl] at h
      dsimp only at h
      split at h
      · cases hr : j.read (j.block n1) with
        | error x =>
          rw [hr] at h
          dsimp only at h
          split at h
          · exact ih _ _ _ h
          · cases h
        | ok d =>
          rw [hr] at h
          cases d with
          | nil => exact ih _ _ _ h
          | cons t d => exact ih _ _ _ h
      · rename_i hc
        simp only [Run.done.injEq, Prod.mk.injEq] at h
        obtain ⟨rfl, rfl, rfl⟩ := h
        refine ⟨tr, hl, ?_⟩
        by_contra hcon
        push Not at hcon
        exact hc hcon

/-- Why a conversion may stop reading: the interval is empty, there is nothing more, or the record reaches the last block before `t2`. -/
def MayStop (j : Job) (t0 : Int) (n1 : Rat) (reads : List (List Int)) : Prop :=
  j.t2 < t0 ∨ j.blocksFrom n1 = [] ∨ j.t2 < 0 ∨ ∃ r ∈ samples (j.record reads), j.t2 < 10000 * r.1 + j.day + 1000000

theorem kept_main {j : Job} {l : Int} (hb : 0 < j.blockdays) (hl : 0 < l) (hL : j.L = 10000 * l) (ho : InOrder (j.record j.blocks)) {t0 : Int} (n : Nat) (s s' : CState)
    (hp : ReadSoFar j t0 s.n1 s.reads s.w.out s.w.p s.w.h) (ht : s.t1 ≤ j.t2 ∨ MayStop j t0 s.n1 s.reads) (h : mainLoop j n s = .done s') :
    (ReadSoFar j t0 s'.n1 s'.reads s'.w.out s'.w.p s'.w.h ∧ MayStop j t0 s'.n1 s'.reads) ∨ s'.w.p = [] := by
  induction n generalizing s with
  | zero => simp [mainLoop] at h
  | succ n ih =>
    rw [mainLoop] at h
    split at h
    · rename_i hc
      simp only [Run.done.injEq] at h
      subst h
      exact Or.inl ⟨hp, Or.inr (Or.inl (blocksFrom_nil hb hc))⟩
    · split at h
      · simp only [Run.done.injEq] at h
        subst h
        exact Or.inl ⟨hp, by rcases ht with g | g; exacts [by omega, g]⟩
      · dsimp only at h
        have htl : min j.t2 (truncTime s.t1 j.day + j.day) ≤ j.t2 := min_le_left _ _
        generalize min j.t2 (truncTime s.t1 j.day + j.day) = tt2 at h htl
        cases hr : readBlocks j tt2 s.w.out n s.n1 s.w.p s.reads with
        | running => rw [hr] at h; cases h
        | raised x o => rw [hr] at h; cases h
        | done r =>
          obtain ⟨n2, p1, rd⟩ := r
          have h1 := kept_blocks hb ho htl s.w.out n s.n1 s.w.p s.reads hp n2 p1 rd hr
          have hstop : truncTime (tt2 + j.day + 1000000) j.day ≤ j.t2 ∨ MayStop j t0 n2 rd := by
            obtain ⟨tr, g1, g2⟩ := readBlocks_end n _ _ _ _ _ _ hr
            rcases g2 with g2 | g2
            · by_cases h0 : j.t2 < 0
              · exact Or.inr (Or.inr (Or.inr (Or.inl h0)))
              · have hday : 0 < j.day := by
                  unfold Job.day
                  exact Int.ceil_pos.mpr (by linarith)
                by_cases hx : 0 ≤ tt2 + j.day + 1000000
                · have := (truncTime_nonneg hx hday).1
                  by_cases hlt : truncTime (tt2 + j.day + 1000000) j.day ≤ j.t2
                  · exact Or.inl hlt
                  · refine Or.inr (Or.inr (Or.inr (Or.inr ?_)))
                    obtain ⟨x, r, er⟩ := last_samples g1 (h1.kept.order.1 tr (List.mem_of_getLast? g1))
                    obtain ⟨q, k1, k2⟩ := h1.kept.bounded (tr.stop, x) (List.mem_append_right _ (by rw [er]; simp))
                    refine ⟨q, k1, ?_⟩
                    dsimp only at k2
                    omega
                · left
                  have : truncTime (tt2 + j.day + 1000000) j.day ≤ 0 := by
                    unfold truncTime
                    have h1 : Int.tdiv (tt2 + j.day + 1000000) j.day ≤ 0 := by
                      have := Int.tdiv_nonneg (a := -(tt2 + j.day + 1000000)) (b := j.day) (by omega) hday.le
                      rw [Int.neg_tdiv] at this
                      omega
                    nlinarith
                  omega
            · exact Or.inr (Or.inr (Or.inl (blocksFrom_nil hb g2)))
          rw [hr] at h
          simp only [Run.bind] at h
          cases hw : writeFull j.L j.t2 n { s.w with p := p1 } with
          | running => rw [hw] at h; cases h
          | raised x o => rw [hw] at h; cases h
          | done w =>
            rw [hw] at h
            dsimp only at h
            have hinc := record_split h1.blocks ho
            cases ht : trimStream w.h j.t2 w.p with
            | error x => rw [ht] at h; cases h
            | ok p2 =>
              rw [ht] at h
              dsimp only at h
              rcases kept_full hinc hL hl n { s.w with p := p1 } w h1.kept hw with g | g
              · refine ih _ ?_ ?_ h
                · exact ⟨h1.blocks, kept_trim g ht⟩
                · exact hstop
              · rw [g, trimStream, Except.ok.injEq] at ht
                refine Or.inr (mainLoop_empty n _ s' ?_ h)
                exact ht.symm

theorem firstBlock_read {j : Job} (hb : 0 < j.blockdays) (n : Nat) (n1 : Rat) (reads : List (List Int)) (n2 : Rat) (p : List Trace) (rd : List (List Int))
    (h : firstBlock j n n1 reads = .done (n2, p, rd)) :
    ∃ more, rd = reads ++ more ∧ j.blocksFrom n1 = more ++ j.blocksFrom n2 ∧ j.record more = p ∧ p ≠ [] := by
  induction n generalizing n1 reads with
  | zero => simp [firstBlock] at h
  | succ n ih =>
    rw [firstBlock] at h
    split at h
    · rename_i hc
      have hcons := blocksFrom_cons hb hc
      have hskip : j.streamOf (j.block n1) = [] → firstBlock j n (n1 + 12 * j.blockdays) (reads ++ [j.block n1]) = .done (n2, p, rd) →
          ∃ more, rd = reads ++ more ∧ j.blocksFrom n1 = more ++ j.blocksFrom n2 ∧ j.record more = p ∧ p ≠ [] := by
        intro hst hrun
        obtain ⟨more, g1, g2, g3, g4⟩ := ih _ _ hrun
        refine ⟨j.block n1 :: more, by rw [g1]; simp, by rw [hcons, g2]; rfl, ?_, g4⟩
        show j.streamOf (j.block n1) ++ j.record more = p
        rw [hst, g3]
        rfl
      dsimp only at h
      cases hr : j.read (j.block n1) with
      | error x =>
        rw [hr] at h
        dsimp only at h
        split at h
        · exact hskip (by unfold Job.streamOf; rw [hr]) h
        · cases h
      | ok d =>
        rw [hr] at h
        cases d with
        | nil => exact hskip (by unfold Job.streamOf; rw [hr]) h
        | cons t d =>
          simp only [Run.done.injEq, Prod.mk.injEq] at h
          obtain ⟨rfl, rfl, rfl⟩ := h
          refine ⟨[j.block n1], rfl, by rw [hcons]; rfl, ?_, by simp⟩
          show j.streamOf (j.block n1) ++ [] = _
          unfold Job.streamOf
          rw [hr]
          simp
    · cases h

/-- Specification: where the output begins. With a `t1`, there; without, at the first full second that is not before the first sample. -/
def BeginsAt (t1 : Option Int) (rec : List (Int × Int)) (t0 : Int) : Prop :=
  match t1 with
  | some t => t0 = t
  | none => ∃ f rest, rec = f :: rest ∧ (1000000 : Int) ∣ t0 ∧ 10000 * f.1 ≤ t0 ∧ t0 < 10000 * f.1 + 1000000

/-- **C53, any number of blocks.** In every conversion that ends normally, for any reader, files, block size, `t1` and `t2`: the blocks read are the
first ones of the selected files. Every sample read that is between the limits is written. What is written is in order, without duplicates, and
consists (up to `t2`) of samples that were read and of the filling of small gaps between them. And no sample of the selected files, read or not, from
the start to `t2` less one block and a second is missing. Missing: the last block before `t2` (`C53_violated`), and conversions that
fail (`C33_violated_start`, `C33_violated_end`). -/
theorem C53_read_blocks_partial (j : Job) (l : Int) (hb : 0 < j.blockdays) (hl : 0 < l) (hL : j.L = 10000 * l) (ho : InOrder (j.record j.blocks))
    (t1 : Option Int) (n : Nat) (s : CState) (hrun : convertLoops j t1 n = .done s) :
    (∃ rest, j.blocks = s.reads ++ rest) ∧ ∃ t0, BeginsAt t1 (samples (j.record s.reads)) t0 ∧
      (∀ r ∈ samples (j.record s.reads), t0 ≤ 10000 * r.1 → 10000 * r.1 ≤ j.t2 → r ∈ samples s.w.out) ∧
      Increasing (samples s.w.out) ∧
      (∀ q ∈ samples s.w.out, 10000 * q.1 ≤ j.t2 → Fills (samples (j.record s.reads)) q) ∧
      (0 ≤ j.t2 → ∀ r ∈ samples (j.record j.blocks), t0 ≤ 10000 * r.1 → 10000 * r.1 + j.day + 1000000 ≤ j.t2 → r ∈ samples s.w.out) := by
  have hday : 0 ≤ j.day := by
    unfold Job.day
    exact Int.ceil_nonneg (by linarith)
  unfold convertLoops at hrun
  cases hf : firstBlock j n (j.nums.head?.getD 0 : Int) [] with
  | running => rw [hf] at hrun; cases hrun
  | raised x o => rw [hf] at hrun; cases hrun
  | done r =>
    obtain ⟨n2, p0, rd⟩ := r
    obtain ⟨more, e1, e2, e3, e4⟩ := firstBlock_read hb n _ _ n2 p0 rd hf
    simp only [List.nil_append] at e1
    subst e1
    have hblocks : j.blocks = rd ++ j.blocksFrom n2 := e2
    have hinc := record_split hblocks ho
    have hop : InOrder p0 := by
      have := ho
      rw [hblocks, record_append, e3] at this
      exact (inOrder_append.mp this).1
    rw [e3] at hinc
    rw [hf] at hrun
    simp only [Run.bind] at hrun
    -- from the state after the first block
    have main : ∀ (p : List Trace) (t h : Int), KeptSoFar t j.t2 (samples p0) (samples (j.record (j.blocksFrom n2))) [] p h →
        ((mainLoop j n ⟨n2, t, ⟨p, h, []⟩, rd⟩).bind fun s => (writeRest j.L j.t2 n s.w).bind fun w => .done { s with w := w }) = .done s →
        (∃ n1, j.blocks = s.reads ++ j.blocksFrom n1 ∧ MayStop j t n1 s.reads) ∧
        WrittenWithin t j.t2 (samples (j.record s.reads)) s.w.out ∧ samples (j.record s.reads) ≠ [] := by
      intro p t h hk hrun
      cases hm : mainLoop j n ⟨n2, t, ⟨p, h, []⟩, rd⟩ with
      | running => rw [hm] at hrun; cases hrun
      | raised x o => rw [hm] at hrun; cases hrun
      | done s1 =>
        rw [hm] at hrun
        simp only [Run.bind] at hrun
        cases hw : writeRest j.L j.t2 n s1.w with
        | running => rw [hw] at hrun; cases hrun
        | raised x o => rw [hw] at hrun; cases hrun
        | done w =>
          rw [hw] at hrun
          simp only [Run.done.injEq] at hrun
          subst hrun
          rcases kept_main hb hl hL ho n _ s1 (t0 := t) ⟨hblocks, by dsimp only; rw [e3]; exact hk⟩
            (by by_cases h' : t ≤ j.t2; exacts [Or.inl h', Or.inr (Or.inl (by omega))]) hm with ⟨g, gs⟩ | g
          · refine ⟨⟨_, g.blocks, gs⟩, kept_rest (record_split g.blocks ho) hL hl n s1.w w g.kept hw, ?_⟩
            cases hp1 : s1.w.p with
            | nil =>
              exfalso
              cases n with
              | zero => simp [writeRest] at hw
              | succ n => rw [writeRest, hp1] at hw; simp at hw
            | cons tr p1 =>
              have gk := g.kept
              rw [hp1] at gk
              obtain ⟨x, r0, er⟩ := head_samples (p := p1) (gk.order.1 tr (by simp))
              obtain ⟨q, k1, -⟩ := gk.bounded (tr.start, x) (List.mem_append_right _ (by rw [er]; simp))
              exact List.ne_nil_of_mem k1
          · exfalso
            cases n with
            | zero => simp [writeRest] at hw
            | succ n => rw [writeRest, g] at hw; simp at hw
    have all : ∀ (t n1), j.blocks = s.reads ++ j.blocksFrom n1 → MayStop j t n1 s.reads → WrittenWithin t j.t2 (samples (j.record s.reads)) s.w.out →
        0 ≤ j.t2 → ∀ r ∈ samples (j.record j.blocks), t ≤ 10000 * r.1 → 10000 * r.1 + j.day + 1000000 ≤ j.t2 → r ∈ samples s.w.out := by
      intro t n1 hbl hms hw h0 r hr h1 h2
      rw [hbl, record_append, samples_append] at hr
      rcases List.mem_append.mp hr with hr | hr
      · exact hw.kept r hr h1 (by omega)
      · exfalso
        rcases hms with g | g | g | ⟨q, hq, g⟩
        · omega
        · rw [g] at hr
          simp [Job.record, samples] at hr
        · omega
        · have := (increasing_append.mp (record_split hbl ho)).2.2 q hq r hr
          omega
    cases p0 with
    | nil => exact absurd rfl e4
    | cons tr0 p1 =>
      obtain ⟨x0, r0, er0⟩ := head_samples (p := p1) (hop.1 tr0 (by simp))
      obtain ⟨-, -, hlt⟩ := increasing_append.mp hinc
      have hfut : ∀ q ∈ samples (j.record (j.blocksFrom n2)), 10000 * tr0.start ≤ 10000 * q.1 := by
        intro q hq
        have := hlt (tr0.start, x0) (by rw [er0]; simp) q hq
        dsimp only at this
        omega
      cases t1 with
      | some t =>
        simp only [startTime] at hrun
        have hk : KeptSoFar t j.t2 (samples (tr0 :: p1)) (samples (j.record (j.blocksFrom n2))) [] (tr0 :: p1) (max t (10000 * tr0.start)) := by
          refine ⟨hop, ?_, List.Pairwise.nil, by simp [samples], fun r hr _ _ => hr, ?_, ?_, ?_⟩
          · intro r hr h1 _
            have := start_le hop hr
            exact Or.inr ⟨hr, by omega⟩
          · intro q hq h1
            have := hfut q hq
            omega
          · intro q hq _
            exact Or.inl (by simpa [samples] using hq)
          · intro q hq
            exact ⟨q, by simpa [samples] using hq, le_refl _⟩
        obtain ⟨⟨n1, g1, gs⟩, g2, -⟩ := main _ _ _ hk hrun
        exact ⟨⟨_, g1⟩, t, rfl, g2.kept, g2.sorted, g2.good, all t n1 g1 gs g2⟩
      | none =>
        simp only [startTime] at hrun
        cases hm : mergeGaps (tr0 :: p1) with
        | nil => rw [hm] at hrun; simp at hrun
        | cons tr p2 =>
          rw [hm] at hrun
          simp only at hrun
          have hst : tr.start = tr0.start := by
            have h1 : InOrder (tr :: p2) := by rw [← hm]; exact inOrder_mergeGaps hop
            obtain ⟨x, r, er⟩ := head_samples (p := p2) (h1.1 tr (by simp))
            have h2 := samples_mergeGaps hop
            rw [hm, er, er0] at h2
            cases r0 <;> simp [fillIn] at h2 <;> exact h2.1.1
          have hk : ∀ t, KeptSoFar t j.t2 (samples (tr0 :: p1)) (samples (j.record (j.blocksFrom n2))) [] (tr :: p2) (max t (10000 * tr.start)) := by
            intro t
            rw [← hm]
            have := kept_merge (t1 := t) (t2 := j.t2) (rec := []) (out := []) (p := []) (h := max t (10000 * tr.start)) hop hinc
              ⟨by simp [InOrder, samples, Increasing], by simp, by simp [samples, Increasing], by simp [samples], by simp, ?_, by simp [samples], by simp [samples]⟩ (by simp [samples])
            · exact this
            · intro q hq h1
              rcases List.mem_append.mp hq with hq | hq
              · have := start_le hop hq
                omega
              · have := hfut q hq
                omega
          obtain ⟨⟨n1, hrest, gs⟩, g2, g3⟩ := main _ _ _ (hk _) hrun
          refine ⟨⟨_, hrest⟩, _, ?_, g2.kept, g2.sorted, g2.good, all _ n1 hrest gs g2⟩
          obtain ⟨f, fr, ef⟩ := List.exists_cons_of_ne_nil g3
          refine ⟨f, fr, ef, Dvd.intro _ rfl, ?_⟩
          have : samples (j.record j.blocks) = samples (j.record j.blocks) := rfl
          conv at this => lhs; rw [hblocks, record_append, samples_append, e3, er0]
          rw [hrest, record_append, samples_append, ef] at this
          simp only [List.cons_append, List.cons.injEq] at this
          rw [← this.1, hst]
          dsimp only
          omega

/-- Two blocks, with a small gap between and large gaps within them, converted from the first full second to a `t2`, to files of 0.1 s. -/
def demoLimits : Job :=
  ⟨[0, 12], 1, 100000, 1400000, fun b => if b == [0] then .ok [⟨50, [1]⟩, ⟨100, [1, 2]⟩] else .ok [⟨104, [7]⟩, ⟨130, [3]⟩, ⟨144, [9]⟩]⟩

example : 0 < demoLimits.blockdays ∧ demoLimits.L = 10000 * 10 ∧ InOrder (demoLimits.record demoLimits.blocks) ∧
    demoLimits.blocks = [[0], [12]] ∧
    ∃ s, convertLoops demoLimits none 8 = .done s ∧ s.reads = [[0], [12]] ∧
      samples s.w.out = [(100, 1), (101, 2), (102, 3), (103, 5), (104, 7), (130, 3)] := by
  refine ⟨by decide +kernel, by decide +kernel, ⟨by decide +kernel, by unfold Increasing; decide +kernel⟩, by decide +kernel, ?_⟩
  exact ⟨⟨24, 86400000000, ⟨[], 1400000, [⟨100, [1, 2, 3, 5, 7]⟩, ⟨130, [3]⟩]⟩, [[0], [12]]⟩,
    by decide +kernel, by decide +kernel, by decide +kernel⟩

/-- The first block with data. -/
theorem firstBlock_first {j : Job} (hb : 0 < j.blockdays) (n : Nat) (n1 : Rat) (reads : List (List Int)) (n2 : Rat) (p : List Trace) (rd : List (List Int))
    (h : firstBlock j n n1 reads = .done (n2, p, rd)) :
    ∃ m b, rd = reads ++ (m ++ [b]) ∧ j.blocksFrom n1 = m ++ b :: j.blocksFrom n2 ∧ j.record m = [] ∧ j.streamOf b = p ∧ p ≠ [] := by
  induction n generalizing n1 reads with
  | zero => simp [firstBlock] at h
  | succ n ih =>
    rw [firstBlock] at h
    split at h
    · rename_i hc
      have hcons := blocksFrom_cons hb hc
      have hskip : j.streamOf (j.block n1) = [] → firstBlock j n (n1 + 12 * j.blockdays) (reads ++ [j.block n1]) = .done (n2, p, rd) →
          ∃ m b, rd = reads ++ (m ++ [b]) ∧ j.blocksFrom n1 = m ++ b :: j.blocksFrom n2 ∧ j.record m = [] ∧ j.streamOf b = p ∧ p ≠ [] := by
        intro hst hrun
        obtain ⟨m, b, g1, g2, g3, g4⟩ := ih _ _ hrun
        refine ⟨j.block n1 :: m, b, by rw [g1]; simp, by rw [hcons, g2]; rfl, ?_, g4⟩
        show j.streamOf (j.block n1) ++ j.record m = []
        rw [hst, g3]
        rfl
      dsimp only at h
      cases hr : j.read (j.block n1) with
      | error x =>
        rw [hr] at h
        dsimp only at h
        split at h
        · exact hskip (by unfold Job.streamOf; rw [hr]) h
        · cases h
      | ok d =>
        rw [hr] at h
        cases d with
        | nil => exact hskip (by unfold Job.streamOf; rw [hr]) h
        | cons t d =>
          simp only [Run.done.injEq, Prod.mk.injEq] at h
          obtain ⟨rfl, rfl, rfl⟩ := h
          refine ⟨[], j.block n1, rfl, by rw [hcons]; rfl, rfl, ?_, by simp⟩
          unfold Job.streamOf
          rw [hr]
    · cases h

theorem first_unique {j : Job} {a c a' c' : List (List Int)} {b b' : List Int} (h : a ++ b :: c = a' ++ b' :: c') (ha : j.record a = []) (ha' : j.record a' = [])
    (hb : j.streamOf b ≠ []) (hb' : j.streamOf b' ≠ []) : a = a' ∧ b = b' ∧ c = c' := by
  induction a generalizing a' with
  | nil =>
    cases a' with
    | nil => simpa using h
    | cons x a' =>
      exfalso
      simp only [List.nil_append, List.cons_append, List.cons.injEq] at h
      rw [h.1] at hb
      exact hb (List.append_eq_nil_iff.mp (show j.streamOf x ++ j.record a' = [] from ha')).1
  | cons y a ih =>
    have hy := List.append_eq_nil_iff.mp (show j.streamOf y ++ j.record a = [] from ha)
    cases a' with
    | nil =>
      exfalso
      simp only [List.nil_append, List.cons_append, List.cons.injEq] at h
      rw [← h.1] at hb'
      exact hb' hy.1
    | cons x a' =>
      simp only [List.cons_append, List.cons.injEq] at h
      have hx := List.append_eq_nil_iff.mp (show j.streamOf x ++ j.record a' = [] from ha')
      obtain ⟨g1, g2⟩ := ih h.2 hy.2 hx.2
      exact ⟨by rw [h.1, g1], g2⟩

/-- **C53, violated: blocks that are never read.** If the first block that has data reaches into the block length (usually the day) after the one of `t1`, and
`t2` is there, then a conversion that ends normally has read no other block, and whatever data the other blocks have before `t2` are not
converted. (`C53_violated` is such a conversion.) -/
theorem C53_violated_unread (j : Job) (l t1 : Int) (hb : 0 < j.blockdays) (hl : 0 < l) (hL : j.L = 10000 * l) (ho : InOrder (j.record j.blocks)) (h0 : 0 ≤ t1)
    (before after : List (List Int)) (b : List Int) (hblocks : j.blocks = before ++ b :: after) (hbefore : j.record before = [])
    (q : Int × Int) (hq : q ∈ samples (j.streamOf b)) (hlate : (t1 / j.day + 1) * j.day ≤ 10000 * q.1) (ht2 : j.t2 < (t1 / j.day + 2) * j.day)
    (n : Nat) (s : CState) (hrun : convertLoops j (some t1) n = .done s) :
    s.reads = before ++ [b] ∧ ∀ r ∈ samples (j.record after), 10000 * r.1 ≤ j.t2 → r ∉ samples s.w.out := by
  have hday : 0 < j.day := by
    unfold Job.day
    exact Int.ceil_pos.mpr (by linarith)
  have htr : ∀ x, 0 ≤ x → truncTime x j.day = x / j.day * j.day := by
    intro x hx
    unfold truncTime
    rw [Int.tdiv_eq_ediv_of_nonneg hx]
  have hdata : j.streamOf b ≠ [] := by
    intro h
    rw [h] at hq
    simp [samples] at hq
  have hob : InOrder (j.streamOf b) := by
    have := ho
    rw [hblocks, record_append] at this
    exact (inOrder_append.mp (show InOrder (j.streamOf b ++ j.record after) from (inOrder_append.mp this).2.1)).1
  have hreads : s.reads = before ++ [b] := by
    have hrun := hrun
    unfold convertLoops at hrun
    cases hf : firstBlock j n (j.nums.head?.getD 0 : Int) [] with
    | running => rw [hf] at hrun; cases hrun
    | raised x o => rw [hf] at hrun; cases hrun
    | done r =>
      obtain ⟨n2, p0, rd⟩ := r
      obtain ⟨m, b', e1, e2, e3, e4, e5⟩ := firstBlock_first hb n _ _ n2 p0 rd hf
      have e2' : j.blocks = m ++ b' :: j.blocksFrom n2 := e2
      obtain ⟨rfl, rfl, -⟩ := first_unique (hblocks.symm.trans e2') hbefore e3 hdata (by rw [e4]; exact e5)
      simp only [List.nil_append] at e1
      subst e1
      rw [hf] at hrun
      simp only [Run.bind, startTime] at hrun
      subst e4
      have key : ∀ (h : Int) (n : Nat) (s1 : CState), mainLoop j n ⟨n2, t1, ⟨j.streamOf b, h, []⟩, before ++ [b]⟩ = .done s1 → s1.reads = before ++ [b] := by
        intro h n s1 hm
        cases n with
        | zero => simp [mainLoop] at hm
        | succ n =>
          rw [mainLoop] at hm
          split at hm
          · simp only [Run.done.injEq] at hm
            rw [← hm]
          · split at hm
            · simp only [Run.done.injEq] at hm
              rw [← hm]
            · rename_i hlt
              dsimp only at hm hlt
              obtain ⟨tt2, htt⟩ : ∃ tt2, tt2 = min j.t2 (truncTime t1 j.day + j.day) := ⟨_, rfl⟩
              rw [← htt] at hm
              have htt1 : tt2 ≤ 10000 * q.1 ∧ 0 ≤ tt2 ∧ j.t2 < truncTime (tt2 + j.day + 1000000) j.day := by
                rw [htr t1 h0] at htt
                have k1 : 0 ≤ t1 / j.day * j.day := mul_nonneg (Int.ediv_nonneg h0 hday.le) hday.le
                have k2 : (t1 / j.day + 1) * j.day = t1 / j.day * j.day + j.day := by ring
                have k3 : (t1 / j.day + 2) * j.day = t1 / j.day * j.day + j.day + j.day := by ring
                have k4 : 0 ≤ tt2 := by omega
                refine ⟨by omega, k4, ?_⟩
                have k5 := (truncTime_nonneg (x := tt2 + j.day + 1000000) (by omega) hday).2
                by_cases hc : j.t2 ≤ t1 / j.day * j.day + j.day
                · omega
                · have k6 : tt2 = t1 / j.day * j.day + j.day := by omega
                  rw [htr _ (by omega)] at k5 ⊢
                  have k7 : (t1 / j.day + 2) * j.day < ((tt2 + j.day + 1000000) / j.day + 1) * j.day := by
                    have : ((tt2 + j.day + 1000000) / j.day + 1) * j.day = (tt2 + j.day + 1000000) / j.day * j.day + j.day := by ring
                    omega
                  have k8 : t1 / j.day + 2 ≤ (tt2 + j.day + 1000000) / j.day := by
                    have := lt_of_mul_lt_mul_right k7 hday.le
                    omega
                  have k9 := mul_le_mul_of_nonneg_right k8 hday.le
                  omega
              cases hr : readBlocks j tt2 [] n n2 (j.streamOf b) (before ++ [b]) with
              | running => rw [hr] at hm; cases hm
              | raised x o => rw [hr] at hm; cases hm
              | done r =>
                have hr' : r = (n2, j.streamOf b, before ++ [b]) := by
                  cases n with
                  | zero => simp [readBlocks] at hr
                  | succ n =>
                    rw [readBlocks] at hr
                    cases hl' : (j.streamOf b).getLast? with
                    | none => rw [hl'] at hr; cases hr
                    | some tr =>
                      rw [hl'] at hr
                      have := le_stop hob hl' hq
                      dsimp only at hr
                      rw [if_neg (by omega)] at hr
                      simpa using hr.symm
                subst hr'
                rw [hr] at hm
                simp only [Run.bind] at hm
                cases hw : writeFull j.L j.t2 n ⟨j.streamOf b, h, []⟩ with
                | running => rw [hw] at hm; cases hm
                | raised x o => rw [hw] at hm; cases hm
                | done w =>
                  rw [hw] at hm
                  dsimp only at hm
                  cases ht : trimStream w.h j.t2 w.p with
                  | error x => rw [ht] at hm; cases hm
                  | ok p2 =>
                    rw [ht] at hm
                    dsimp only at hm
                    cases n with
                    | zero => simp [mainLoop] at hm
                    | succ n =>
                      rw [mainLoop] at hm
                      split at hm
                      · simp only [Run.done.injEq] at hm
                        rw [← hm]
                      · rw [if_pos (by dsimp only; omega)] at hm
                        simp only [Run.done.injEq] at hm
                        rw [← hm]
      have fin : ∀ h : Int, ((mainLoop j n ⟨n2, t1, ⟨j.streamOf b, h, []⟩, before ++ [b]⟩).bind fun s =>
          (writeRest j.L j.t2 n s.w).bind fun w => .done { s with w := w }) = .done s → s.reads = before ++ [b] := by
        intro h hrun
        cases hm : mainLoop j n ⟨n2, t1, ⟨j.streamOf b, h, []⟩, before ++ [b]⟩ with
        | running => rw [hm] at hrun; cases hrun
        | raised x o => rw [hm] at hrun; cases hrun
        | done s1 =>
          rw [hm] at hrun
          simp only [Run.bind] at hrun
          have := key h n s1 hm
          cases hw : writeRest j.L j.t2 n s1.w with
          | running => rw [hw] at hrun; cases hrun
          | raised x o => rw [hw] at hrun; cases hrun
          | done w =>
            rw [hw] at hrun
            simp only [Run.done.injEq] at hrun
            rw [← hrun]
            exact this
      exact fin _ hrun
  refine ⟨hreads, ?_⟩
  intro r hr hrt hout
  obtain ⟨-, -, -, -, -, hf, -⟩ := C53_read_blocks_partial j l hb hl hL ho (some t1) n s hrun
  have hinc := ho.2
  rw [hblocks, show before ++ b :: after = (before ++ [b]) ++ after by simp, record_append, samples_append, ← hreads] at hinc
  have hlt := (increasing_append.mp hinc).2.2
  rcases hf r hout hrt with g | ⟨-, -, -, c, hc, -, g, -⟩
  · exact absurd (hlt r g r hr) (lt_irrefl _)
  · exact absurd (hlt c hc r hr) (by omega)

example : InOrder (c53Job.record c53Job.blocks) ∧ c53Job.blocks = [] ++ [0] :: [[12]] ∧ (10800000, 2) ∈ samples (c53Job.streamOf [0]) ∧
    (0 / c53Job.day + 1) * c53Job.day ≤ 10000 * 10800000 ∧ c53Job.t2 < (0 / c53Job.day + 2) * c53Job.day ∧
    (11880000, 3) ∈ samples (c53Job.record [[12]]) ∧ 10000 * 11880000 ≤ c53Job.t2 :=
  ⟨⟨by decide +kernel, by unfold Increasing; decide +kernel⟩, by decide +kernel, by decide +kernel, by decide +kernel, by decide +kernel, by decide +kernel,
    by decide +kernel⟩

end Gemlog
