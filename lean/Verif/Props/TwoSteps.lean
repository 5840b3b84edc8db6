import Verif.Props.Convert

/-!
# C123: converting the files of two visits separately
-/

namespace Gemlog

/-! ## Specification -/

/-- The samples that the files of a conversion hold, in order. -/
def Job.recorded (j : Job) : List (Int × Int) := samples (j.record j.blocks)

/-- The first whole second at or after the first sample of a record, in microseconds. -/
def firstSecond (s : List (Int × Int)) : Int := -((-((s.head?.map Prod.fst).getD 0)) / 100) * 1000000

/-- A conversion in which nothing unusual happens: blocks that cannot be read are skipped, the samples are in order and begin after 1970, the record reaches a whole second, and no upper limit
of time is near. -/
structure Ordinary (j : Job) : Prop where
  block : 0 < j.blockdays
  length : ∃ l, 0 < l ∧ j.L = 10000 * l
  skips : j.OnlySkips
  order : InOrder (j.record j.blocks)
  positive : ∀ q ∈ j.recorded, 0 ≤ q.1
  far : ∀ q ∈ j.recorded, 10000 * q.1 + j.L + j.day + 1000000 ≤ j.t2
  reaches : ∃ q ∈ j.recorded, firstSecond j.recorded ≤ 10000 * q.1

/-! ## Proof -/

theorem firstData_exists (j : Job) : ∀ (bs : List (List Int)), j.record bs ≠ [] →
    ∃ before b after, bs = before ++ b :: after ∧ j.record before = [] ∧ j.streamOf b ≠ []
  | [], h => absurd rfl h
  | b :: bs, h => by
    by_cases hb : j.streamOf b = []
    · have h' : j.record bs ≠ [] := by
        intro e
        apply h
        unfold Job.record at e ⊢
        rw [List.flatMap_cons, hb, e]
        rfl
      obtain ⟨before, b', after, e1, e2, e3⟩ := firstData_exists j bs h'
      refine ⟨b :: before, b', after, by rw [e1]; rfl, ?_, e3⟩
      unfold Job.record at e2 ⊢
      rw [List.flatMap_cons, hb, e2]
      rfl
    · exact ⟨[], b, bs, rfl, rfl, hb⟩

theorem ordinary_out {j : Job} (h : Ordinary j) :
    ∃ s, Settles (convertLoops j none) (.done s) ∧ samples s.w.out = from_ (firstSecond j.recorded) (fillIn j.recorded) := by
  obtain ⟨q, hq, hq2⟩ := h.reaches
  have hne : j.record j.blocks ≠ [] := by
    intro e
    unfold Job.recorded at hq
    rw [e] at hq
    simp [samples] at hq
  obtain ⟨before, b, after, e1, e2, e3⟩ := firstData_exists j j.blocks hne
  have hd : FirstData j (j.streamOf b) (j.record after) := ⟨⟨before, b, after, e1, e2, rfl, rfl⟩, e3⟩
  have hrec : j.record j.blocks = j.streamOf b ++ j.record after := by
    unfold Job.record at e2 ⊢
    rw [e1, List.flatMap_append, e2, List.flatMap_cons]
    rfl
  have ho := h.order
  rw [hrec] at ho
  obtain ⟨k, x0, r, hk⟩ : ∃ k x0 r, samples (j.streamOf b) = (k, x0) :: r := by
    obtain ⟨tr, p, hp⟩ := List.exists_cons_of_ne_nil e3
    obtain ⟨y, r, e⟩ := head_samples (p := p) (ho.1 tr (by rw [hp]; simp))
    exact ⟨tr.start, y, r, by rw [hp]; exact e⟩
  have hfs : firstSecond j.recorded = -((-k) / 100) * 1000000 := by
    unfold firstSecond Job.recorded
    rw [hrec, samples_append, hk]
    rfl
  obtain ⟨l, hl, hL⟩ := h.length
  have hr : j.recorded = samples (j.streamOf b ++ j.record after) := by unfold Job.recorded; rw [hrec]
  obtain ⟨s, h1, h2, _⟩ := C29_nothing_lost j l h.block hl hL h.skips _ _ hd ho (by rw [← hr]; exact h.positive) (by rw [← hr]; exact h.far) k x0
    (firstSecond j.recorded) (by rw [hk]; rfl) (by omega) (by omega) (by omega) (by rw [← hr]; exact ⟨q, hq, hq2⟩)
  exact ⟨s, h1, by rw [h2, hr]⟩

theorem fillIn_parts {a b : List (Int × Int)} (ha : a ≠ []) (hb : b ≠ []) : ∃ x y, x ∈ a ∧ b.head? = some y ∧ (a.getLast? = some x) ∧
    fillIn (a ++ b) = fillIn a ++ between x y ++ fillIn b := by
  obtain ⟨y, t, rfl⟩ := List.exists_cons_of_ne_nil hb
  rcases List.eq_nil_or_concat a with rfl | ⟨r, x, rfl⟩
  · exact absurd rfl ha
  · rw [List.concat_eq_append]
    refine ⟨x, y, by simp, rfl, by simp, ?_⟩
    rw [List.append_assoc, List.singleton_append, fillIn_append, List.append_assoc]

theorem between_inside {x y q : Int × Int} (h : q ∈ between x y) : x.1 < q.1 ∧ q.1 < y.1 := by
  unfold between at h
  split at h
  · simp only [List.mem_singleton] at h; subst h; simp only; omega
  · split at h
    · simp only [List.mem_cons, List.not_mem_nil, or_false] at h
      rcases h with rfl | rfl <;> simp only <;> omega
    · simp at h

theorem ordinary_ne {j : Job} (h : Ordinary j) : j.recorded ≠ [] := by
  obtain ⟨q, hq, _⟩ := h.reaches
  exact List.ne_nil_of_mem hq

theorem firstSecond_ge {s : List (Int × Int)} {y : Int × Int} (hy : s.head? = some y) :
    10000 * y.1 ≤ firstSecond s ∧ firstSecond s < 10000 * y.1 + 1000000 := by
  unfold firstSecond
  rw [hy]
  simp only [Option.map_some, Option.getD_some]
  omega

theorem head_least {s : List (Int × Int)} (hs : Increasing s) {y : Int × Int} (hy : s.head? = some y) : ∀ q ∈ s, y.1 ≤ q.1 := by
  cases s with
  | nil => simp at hy
  | cons z s =>
    simp only [List.head?_cons, Option.some.injEq] at hy
    subst hy
    intro q hq
    rcases List.mem_cons.mp hq with rfl | hq
    · exact le_refl _
    · exact le_of_lt ((List.pairwise_cons.mp hs).1 q hq)

/-- **C123.** Convert the files of two visits one after the other, in one call and in two. Everything that the two conversions write is written by the one, in the same order. All that is missing
from the two are samples between the last sample of the first visit and the first whole second of the second visit: less than a second after the first sample of the second visit.
Missing: those samples. -/
theorem C123_two_visits_partial (j j1 j2 : Job) (h : Ordinary j) (h1 : Ordinary j1) (h2 : Ordinary j2) (hrec : j.recorded = j1.recorded ++ j2.recorded) :
    ∃ s s1 s2, Settles (convertLoops j none) (.done s) ∧ Settles (convertLoops j1 none) (.done s1) ∧ Settles (convertLoops j2 none) (.done s2) ∧
      (samples s1.w.out ++ samples s2.w.out).Sublist (samples s.w.out) ∧
      ∀ q ∈ samples s.w.out, q ∈ samples s1.w.out ∨ q ∈ samples s2.w.out ∨
        (∀ r ∈ j1.recorded, r.1 < q.1) ∧ 10000 * q.1 < firstSecond j2.recorded ∧ ∀ r ∈ j2.recorded, q.1 < r.1 + 100 := by
  obtain ⟨s, a1, a2⟩ := ordinary_out h
  obtain ⟨s1, b1, b2⟩ := ordinary_out h1
  obtain ⟨s2, c1, c2⟩ := ordinary_out h2
  have hinc : Increasing j.recorded := h.order.2
  have hinc1 : Increasing j1.recorded := h1.order.2
  have hinc2 : Increasing j2.recorded := h2.order.2
  have hcross : ∀ p ∈ j1.recorded, ∀ q ∈ j2.recorded, p.1 < q.1 := by
    rw [hrec] at hinc
    exact (List.pairwise_append.mp hinc).2.2
  have hfs : firstSecond j.recorded = firstSecond j1.recorded := by
    unfold firstSecond
    obtain ⟨y, t, e⟩ := List.exists_cons_of_ne_nil (ordinary_ne h1)
    rw [hrec, e]
    rfl
  obtain ⟨x, y, hx, hy, hlast, hfill⟩ := fillIn_parts (ordinary_ne h1) (ordinary_ne h2)
  have hfs2 := firstSecond_ge hy
  obtain ⟨q1, hq1, hq1'⟩ := h1.reaches
  have hle2 : firstSecond j1.recorded ≤ firstSecond j2.recorded := by
    have := hcross q1 hq1 y (List.mem_of_mem_head? hy)
    omega
  have hsplit : samples s.w.out = samples s1.w.out ++ from_ (firstSecond j1.recorded) (between x y) ++ from_ (firstSecond j1.recorded) (fillIn j2.recorded) := by
    rw [a2, hfs, hrec, hfill, b2]
    unfold from_
    rw [List.filter_append, List.filter_append]
  have hxlast : ∀ r ∈ j1.recorded, r.1 ≤ x.1 := by
    intro r hr
    obtain ⟨l, e⟩ := List.getLast?_eq_some_iff.mp hlast
    rw [e] at hr hinc1
    rcases List.mem_append.mp hr with hr | hr
    · exact le_of_lt ((List.pairwise_append.mp hinc1).2.2 r hr x (by simp))
    · rw [List.mem_singleton.mp hr]
  refine ⟨s, s1, s2, a1, b1, c1, ?_, ?_⟩
  · rw [hsplit, List.append_assoc]
    refine List.Sublist.append (List.Sublist.refl _) ?_
    refine List.Sublist.trans ?_ (List.sublist_append_right _ _)
    rw [c2]
    unfold from_
    exact List.monotone_filter_right _ fun q hq => by simp only [decide_eq_true_eq] at hq ⊢; omega
  · intro q hq
    rw [hsplit, List.append_assoc, List.mem_append, List.mem_append] at hq
    rcases hq with hq | hq | hq
    · exact .inl hq
    · right; right
      obtain ⟨i1, i2⟩ := between_inside (mem_from.mp hq).1
      refine ⟨fun r hr => by have := hxlast r hr; omega, by omega, ?_⟩
      intro r hr
      have := head_least hinc2 hy r hr
      omega
    · obtain ⟨m1, m2⟩ := mem_from.mp hq
      by_cases hf : firstSecond j2.recorded ≤ 10000 * q.1
      · right; left
        rw [c2]
        exact mem_from.mpr ⟨m1, hf⟩
      · right; right
        obtain ⟨⟨p, hp, hpq⟩, _⟩ := fillIn_bounds hinc2 m1
        refine ⟨fun r hr => by have := hcross r hr p hp; omega, by omega, ?_⟩
        intro r hr
        have := head_least hinc2 hy r hr
        omega

/-- **C123 is violated.** Whatever the data: the samples of the second visit before its first whole second are written when all files are converted together, and by neither conversion when
the visits are converted separately. -/
theorem C123_violated_joint (j j1 j2 : Job) (h : Ordinary j) (h1 : Ordinary j1) (h2 : Ordinary j2) (hrec : j.recorded = j1.recorded ++ j2.recorded)
    (r : Int × Int) (hr : r ∈ j2.recorded) (hearly : 10000 * r.1 < firstSecond j2.recorded) :
    ∃ s s1 s2, Settles (convertLoops j none) (.done s) ∧ Settles (convertLoops j1 none) (.done s1) ∧ Settles (convertLoops j2 none) (.done s2) ∧
      r ∈ samples s.w.out ∧ (∀ q ∈ samples s1.w.out, q.1 ≠ r.1) ∧ ∀ q ∈ samples s2.w.out, q.1 ≠ r.1 := by
  obtain ⟨s, a1, a2⟩ := ordinary_out h
  obtain ⟨s1, b1, b2⟩ := ordinary_out h1
  obtain ⟨s2, c1, c2⟩ := ordinary_out h2
  have hinc : Increasing j.recorded := h.order.2
  have hcross : ∀ p ∈ j1.recorded, ∀ q ∈ j2.recorded, p.1 < q.1 := by
    rw [hrec] at hinc
    exact (List.pairwise_append.mp hinc).2.2
  have hfs : firstSecond j.recorded = firstSecond j1.recorded := by
    unfold firstSecond
    obtain ⟨y, t, e⟩ := List.exists_cons_of_ne_nil (ordinary_ne h1)
    rw [hrec, e]
    rfl
  obtain ⟨q1, hq1, hq1'⟩ := h1.reaches
  refine ⟨s, s1, s2, a1, b1, c1, ?_, ?_, ?_⟩
  · rw [a2]
    refine mem_from.mpr ⟨(fillIn_sublist _).subset (by rw [hrec]; exact List.mem_append_right _ hr), ?_⟩
    have := hcross q1 hq1 r hr
    omega
  · intro q hq
    rw [b2] at hq
    obtain ⟨_, ⟨p, hp, hpq⟩⟩ := fillIn_bounds h1.order.2 (mem_from.mp hq).1
    have := hcross p hp r hr
    omega
  · intro q hq e
    rw [c2] at hq
    have := (mem_from.mp hq).2
    omega

/-! ## Example -/

/-- The files of the first and of the second visit in the example of `C29_nothing_lost`; the second begins at 10:00:00.02. -/
def firstVisit : Job := { demoJob with nums := [3, 4] }
def secondVisit : Job := { demoJob with nums := [40, 41] }

theorem demoJob_ordinary : Ordinary demoJob :=
  ⟨by decide, ⟨720000, by decide, rfl⟩, demoJob_skips, ⟨by decide +kernel, by unfold Increasing; decide +kernel⟩, by decide +kernel, by decide +kernel,
    ⟨(9359900, 4), by decide +kernel, by decide +kernel⟩⟩

theorem skips_visit (nums : List Int) : ({ demoJob with nums := nums } : Job).OnlySkips := by
  intro b _ x h
  have h' : (if b = [3, 4] then (.ok [⟨9359850, [1, 2, 3]⟩, ⟨9359898, [6, 5, 4, 3]⟩, ⟨9359998, [7, 8]⟩] : Except Exc (List Trace))
    else if b = [40, 41] then .ok [⟨9360002, [2, 2]⟩, ⟨9360500, [9]⟩] else .error .missingRaw) = .error x := h
  split at h'
  · cases h'
  · split at h'
    · cases h'
    · cases h'; rfl

theorem firstVisit_ordinary : Ordinary firstVisit :=
  ⟨by decide, ⟨720000, by decide, rfl⟩, skips_visit _, ⟨by decide +kernel, by unfold Increasing; decide +kernel⟩, by decide +kernel, by decide +kernel,
    ⟨(9359900, 4), by decide +kernel, by decide +kernel⟩⟩

theorem secondVisit_ordinary : Ordinary secondVisit :=
  ⟨by decide, ⟨720000, by decide, rfl⟩, skips_visit _, ⟨by decide +kernel, by unfold Increasing; decide +kernel⟩, by decide +kernel, by decide +kernel,
    ⟨(9360500, 9), by decide +kernel, by decide +kernel⟩⟩

example : demoJob.recorded = firstVisit.recorded ++ secondVisit.recorded ∧ (9360002, 2) ∈ secondVisit.recorded ∧
    10000 * 9360002 < firstSecond secondVisit.recorded := by decide +kernel

end Gemlog
