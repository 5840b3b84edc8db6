import Verif.Model.Gaps
import Verif.Lemmas.Union
import Verif.Props.Database
import Verif.Props.Inventory

/-!
# C87, C88: gaps in converted data
-/

namespace Gemlog

/-! ## C87: `check_discontinuity` -/

/-- The traces of a channel. -/
def recordedBy (id : List Nat) (st : List (List Nat × Trace)) : List Trace := (st.filter fun q => q.1 = id).map Prod.snd

/-- Merging and splitting traces that agree gives the runs of their samples. -/
theorem remerge_spec {l : List Trace} (hne : ∀ tr ∈ l, tr.data ≠ []) (hc : Consistent (samples l)) :
    Separate (remerge l) ∧ ∀ q, q ∈ samples (remerge l) ↔ q ∈ samples l := by
  by_cases hl : l = []
  · subst hl
    exact ⟨⟨by intro tr h; simp [remerge, mergeTraces, sortTraces] at h, List.IsChain.nil⟩, fun q => Iff.rfl⟩
  · obtain ⟨m, h1, _, h3, _⟩ := merge_union hl hne hc
    have e : remerge l = m.split := by unfold remerge; rw [h1]
    rw [e]
    exact ⟨split_apart m, fun q => (mem_split m q.1 q.2).trans (h3 q.1 q.2)⟩

theorem splitAll_eq (st : List (List Nat × Trace)) :
    splitAll st = (sortNames (uniqueIn (st.map Prod.fst))).flatMap fun id => (remerge (recordedBy id st)).map fun tr => (id, tr) := by
  unfold splitAll
  congr 1
  funext id
  unfold remerge recordedBy
  rw [List.map_map]
  rw [show (Trace.toM ∘ Prod.snd : List Nat × Trace → MTrace) = fun q => q.2.toM from rfl]
  cases mergeTraces false ((st.filter fun q => q.1 = id).map fun q => q.2.toM) <;> rfl

theorem filter_flatMap_tag (f : List Nat → List Trace) (id : List Nat) : ∀ ids : List (List Nat), ids.Nodup →
    ((ids.flatMap fun i => (f i).map fun tr => (i, tr)).filter fun q => q.1 = id) = if id ∈ ids then (f id).map fun tr => (id, tr) else [] := by
  intro ids
  induction ids with
  | nil => intro _; rfl
  | cons a ids ih =>
    intro hn
    have hn' := List.nodup_cons.mp hn
    rw [List.flatMap_cons, List.filter_append, ih hn'.2]
    by_cases h : a = id
    · subst h
      rw [if_neg hn'.1, if_pos (by simp), List.append_nil, List.filter_eq_self]
      intro q hq
      obtain ⟨tr, _, rfl⟩ := List.mem_map.mp hq
      simp
    · have e : (((f a).map fun tr => (a, tr)).filter fun q => decide (q.1 = id)) = [] := by
        rw [List.filter_eq_nil_iff]
        intro q hq
        obtain ⟨tr, _, rfl⟩ := List.mem_map.mp hq
        simp [h]
      rw [e, List.nil_append]
      have : (id ∈ a :: ids) ↔ id ∈ ids := by
        rw [List.mem_cons]
        exact ⟨fun h' => h'.resolve_left fun h'' => h h''.symm, Or.inr⟩
      by_cases hm : id ∈ ids
      · rw [if_pos hm, if_pos (this.mpr hm)]
      · rw [if_neg hm, if_neg fun h' => hm (this.mp h')]

theorem splitAll_channel (st : List (List Nat × Trace)) (id : List Nat) :
    (splitAll st).filter (fun q => q.1 = id) = (remerge (recordedBy id st)).map fun tr => (id, tr) := by
  rw [splitAll_eq, filter_flatMap_tag _ id _ ((sortNames_perm _).nodup_iff.mpr (uniqueIn_nodup _))]
  by_cases h : id ∈ sortNames (uniqueIn (st.map Prod.fst))
  · rw [if_pos h]
  · rw [if_neg h]
    have : recordedBy id st = [] := by
      unfold recordedBy
      rw [List.map_eq_nil_iff, List.filter_eq_nil_iff]
      intro q hq hqi
      refine h ((sortNames_perm _).mem_iff.mpr ((mem_uniqueIn _ _).mpr (List.mem_map.mpr ⟨q, hq, ?_⟩)))
      simpa using hqi
    rw [this]
    rfl

theorem splitAll_ids (st : List (List Nat × Trace)) : ∀ q ∈ splitAll st, q.1 ∈ st.map Prod.fst := by
  intro q hq
  rw [splitAll_eq] at hq
  obtain ⟨id, hid, hq⟩ := List.mem_flatMap.mp hq
  obtain ⟨tr, _, rfl⟩ := List.mem_map.mp hq
  exact (mem_uniqueIn _ _).mp ((sortNames_perm _).mem_iff.mp hid)

/-- The printed lines: `check_discontinuity` prints either nothing or, for each channel, the times of the first and last sample of each run
of consecutive samples, in order, and the runs hold exactly the recorded samples of the channel. Nothing is printed exactly if the files
together hold at most one run. -/
theorem C87_lines {read : List Nat → Option (List (List Nat × Trace))} {files : List (List Nat)} {l : List (List (List Nat × Trace))}
    (hl : files.mapM read = some l) (hne : ∀ q ∈ l.flatten, q.2.data ≠ [])
    (hc : ∀ id, Consistent (samples (recordedBy id l.flatten))) :
    ∃ out, checkDiscontinuity read files = some out ∧ ∃ runs : List Nat → List Trace,
      (∀ id, Separate (runs id) ∧ ∀ q, q ∈ samples (runs id) ↔ q ∈ samples (recordedBy id l.flatten)) ∧
      (out = [] ∨ ∀ id, out.filter (fun q => q.1 = id) = (runs id).map fun tr => (id, tr.start, tr.stop)) ∧
      (out = [] ↔ ∀ id id' tr tr', tr ∈ runs id → tr' ∈ runs id' → id = id' ∧ tr = tr') := by
  have hne' : ∀ id, ∀ tr ∈ recordedBy id l.flatten, tr.data ≠ [] := by
    intro id tr htr
    obtain ⟨q, hq, rfl⟩ := List.mem_map.mp htr
    exact hne q (List.mem_filter.mp hq).1
  have hr := fun id => remerge_spec (hne' id) (hc id)
  have hmem : ∀ id tr, tr ∈ remerge (recordedBy id l.flatten) ↔ (id, tr) ∈ splitAll l.flatten := by
    intro id tr
    constructor
    · intro h
      have : (id, tr) ∈ (splitAll l.flatten).filter fun q => q.1 = id := by
        rw [splitAll_channel]
        exact List.mem_map_of_mem h
      exact (List.mem_filter.mp this).1
    · intro h
      have : (id, tr) ∈ (splitAll l.flatten).filter fun q => q.1 = id := List.mem_filter.mpr ⟨h, by simp⟩
      rw [splitAll_channel] at this
      obtain ⟨tr', h', e⟩ := List.mem_map.mp this
      rw [← (Prod.mk.inj e).2]
      exact h'
  refine ⟨_, by unfold checkDiscontinuity; rw [hl], fun id => remerge (recordedBy id l.flatten), hr, ?_, ?_⟩
  · by_cases h : (splitAll l.flatten).length > 1
    · right
      intro id
      simp only [if_pos h]
      rw [List.filter_map]
      have := splitAll_channel l.flatten id
      rw [show ((fun q : List Nat × Int × Int => decide (q.1 = id)) ∘ fun q : List Nat × Trace => (q.1, q.2.start, q.2.stop)) =
        fun q : List Nat × Trace => decide (q.1 = id) from rfl, this, List.map_map]
      rfl
    · left
      simp only [if_neg h]
  · constructor
    · intro h id id' tr tr' htr htr'
      have hlen : ¬ (splitAll l.flatten).length > 1 := by
        intro hgt
        simp only [if_pos hgt, List.map_eq_nil_iff] at h
        rw [h] at hgt
        simp at hgt
      have h1 := (hmem _ _).mp htr
      have h2 := (hmem _ _).mp htr'
      cases hs : splitAll l.flatten with
      | nil => rw [hs] at h1; simp at h1
      | cons a t =>
        rw [hs] at h1 h2 hlen
        have : t = [] := by
          cases t with
          | nil => rfl
          | cons b t => simp at hlen
        subst this
        rw [List.mem_singleton] at h1 h2
        have := h1.trans h2.symm
        exact Prod.mk.inj this
    · intro h
      have hlen : ¬ (splitAll l.flatten).length > 1 := by
        intro hgt
        cases hs : splitAll l.flatten with
        | nil => rw [hs] at hgt; simp at hgt
        | cons a t =>
          cases t with
          | nil => rw [hs] at hgt; simp at hgt
          | cons b t =>
            obtain ⟨ia, ta⟩ := a
            obtain ⟨ib, tb⟩ := b
            obtain ⟨e1, e2⟩ := h ia ib ta tb ((hmem _ _).mpr (by rw [hs]; simp)) ((hmem _ _).mpr (by rw [hs]; simp))
            subst e1
            subst e2
            have hf := splitAll_channel l.flatten ia
            rw [hs, List.filter_cons_of_pos (by simp), List.filter_cons_of_pos (by simp)] at hf
            have hpw := apart_pairwise (hr ia).1
            have hnd : (remerge (recordedBy ia l.flatten)).Nodup := by
              refine List.Pairwise.imp_of_mem ?_ hpw
              intro a b ha _ hab he
              subst he
              have := stop_of_ne ((hr ia).1.1 a ha)
              omega
            have hnd' : ((remerge (recordedBy ia l.flatten)).map fun tr => (ia, tr)).Nodup :=
              List.Nodup.map (fun a b e => (Prod.mk.inj e).2) hnd
            rw [← hf] at hnd'
            simp at hnd'
      simp only [if_neg hlen]

theorem apart_single_iff {p : List Trace} (h : Separate p) : p.length ≤ 1 ↔ Gapless (samples p) := by
  constructor
  · intro hl
    match p, hl with
    | [], _ => intro a ha; simp [samples_nil] at ha
    | [tr], _ =>
      intro a ha b hb t h1 h2
      rw [samples_cons, samples_nil, List.append_nil] at ha hb
      have e1 := (mem_stamps_range ha).1
      have e2 := sample_le_stop hb
      obtain ⟨x, hx⟩ := toM_full (h.1 tr (by simp)) (t := t) (by omega) (by omega)
      refine ⟨x, ?_⟩
      rw [samples_cons, samples_nil, List.append_nil]
      exact (toM_at _ _ _).mp hx
  · intro hg
    match p with
    | [] => simp
    | [_] => simp
    | a :: b :: r =>
      exfalso
      have hp := apart_pairwise h
      have hab := (List.pairwise_cons.mp hp).1
      have hb := (List.pairwise_cons.mp (List.pairwise_cons.mp hp).2).1
      obtain ⟨x, hx⟩ := stop_mem (p := a :: b :: r) (tr := a) (by simp) (h.1 a (by simp))
      obtain ⟨y, hy⟩ := mem_samples_start (p := a :: b :: r) (tr := b) (by simp) (h.1 b (by simp))
      have h1 := hab b (by simp)
      obtain ⟨z, hz⟩ := hg _ hx _ hy (a.stop + 1) (by simp) (by simp only; omega)
      obtain ⟨c, hc, hcz⟩ := List.mem_flatMap.mp (show _ ∈ (a :: b :: r).flatMap fun tr => stamps tr.start tr.data from hz)
      have r1 := (mem_stamps_range hcz).1
      have r2 := sample_le_stop hcz
      simp only at r1 r2
      rcases List.mem_cons.mp hc with rfl | hc
      · omega
      · have := hab c hc
        omega

/-- Files of one channel: nothing is printed exactly if no sample is missing between the first and the last. -/
theorem C87_single {read : List Nat → Option (List (List Nat × Trace))} {files : List (List Nat)} {l : List (List (List Nat × Trace))}
    {id : List Nat} (hl : files.mapM read = some l) (hne : ∀ q ∈ l.flatten, q.2.data ≠ []) (hid : ∀ q ∈ l.flatten, q.1 = id)
    (hc : Consistent (samples (l.flatten.map Prod.snd))) :
    ∃ out, checkDiscontinuity read files = some out ∧ (out = [] ↔ Gapless (samples (l.flatten.map Prod.snd))) := by
  have hch : recordedBy id l.flatten = l.flatten.map Prod.snd := by
    unfold recordedBy
    rw [List.filter_eq_self.mpr]
    intro q hq
    simp [hid q hq]
  have hoth : ∀ i, i ≠ id → recordedBy i l.flatten = [] := by
    intro i hi
    unfold recordedBy
    rw [List.map_eq_nil_iff, List.filter_eq_nil_iff]
    intro q hq hqi
    simp only [decide_eq_true_eq] at hqi
    exact hi (hqi.symm.trans (hid q hq))
  have hc' : ∀ i, Consistent (samples (recordedBy i l.flatten)) := by
    intro i
    by_cases hi : i = id
    · subst hi
      rw [hch]
      exact hc
    · rw [hoth i hi]
      intro t x y hx
      simp [samples_nil] at hx
  obtain ⟨out, h1, runs, h2, _, h4⟩ := C87_lines hl hne hc'
  refine ⟨out, h1, h4.trans ?_⟩
  have hg : Gapless (samples (l.flatten.map Prod.snd)) ↔ Gapless (samples (runs id)) := by
    unfold Gapless
    simp only [(h2 id).2, hch]
  rw [hg, ← apart_single_iff (h2 id).1]
  have hro : ∀ i, i ≠ id → runs i = [] := by
    intro i hi
    refine (samples_eq_nil (h2 i).1.1).mp ?_
    rw [List.eq_nil_iff_forall_not_mem]
    intro q hq
    rw [(h2 i).2, hoth i hi] at hq
    simp [samples_nil] at hq
  constructor
  · intro h
    by_contra hlen
    match hr : runs id with
    | [] => rw [hr] at hlen; simp at hlen
    | [_] => rw [hr] at hlen; simp at hlen
    | a :: b :: r =>
      have := (h id id a b (by rw [hr]; simp) (by rw [hr]; simp)).2
      subst this
      have hp := apart_pairwise (h2 id).1
      rw [hr] at hp
      have := (List.pairwise_cons.mp hp).1 a (by simp)
      have e := stop_of_ne ((h2 id).1.1 a (by rw [hr]; simp))
      omega
  · intro hlen i i' tr tr' htr htr'
    have e : ∀ j tr, tr ∈ runs j → j = id := by
      intro j tr h
      by_contra hj
      rw [hro j hj] at h
      simp at h
    have e1 := e i tr htr
    have e2 := e i' tr' htr'
    subst e1
    subst e2
    refine ⟨rfl, ?_⟩
    match hr : runs i' with
    | [] => rw [hr] at htr; simp at htr
    | [a] =>
      rw [hr, List.mem_singleton] at htr htr'
      rw [htr, htr']
    | a :: b :: r => rw [hr] at hlen; simp at hlen

/-- Violated: files of two or more channels always give output that looks like discontinuities, even if every channel is complete. -/
theorem C87_violated_channels {read : List Nat → Option (List (List Nat × Trace))} {files : List (List Nat)}
    {l : List (List (List Nat × Trace))} (hl : files.mapM read = some l) (hne : ∀ q ∈ l.flatten, q.2.data ≠ [])
    (hc : ∀ id, Consistent (samples (recordedBy id l.flatten))) {q q' : List Nat × Trace} (hq : q ∈ l.flatten) (hq' : q' ∈ l.flatten)
    (hd : q.1 ≠ q'.1) : ∃ out, checkDiscontinuity read files = some out ∧ out ≠ [] := by
  obtain ⟨out, h1, runs, h2, _, h4⟩ := C87_lines hl hne hc
  refine ⟨out, h1, fun he => ?_⟩
  have hex : ∀ q ∈ l.flatten, ∃ tr, tr ∈ runs q.1 := by
    intro q hq
    have : q.2 ∈ recordedBy q.1 l.flatten := List.mem_map.mpr ⟨q, List.mem_filter.mpr ⟨hq, by simp⟩, rfl⟩
    obtain ⟨x, hx⟩ := mem_samples_start this (hne q hq)
    rw [← (h2 q.1).2] at hx
    obtain ⟨tr, htr, _⟩ := List.mem_flatMap.mp (show _ ∈ (runs q.1).flatMap fun tr => stamps tr.start tr.data from hx)
    exact ⟨tr, htr⟩
  obtain ⟨tr, htr⟩ := hex q hq
  obtain ⟨tr', htr'⟩ := hex q' hq'
  exact hd (h4.mp he _ _ tr tr' htr htr').1

/-- Two hours of one logger with one sample missing in between, and an hour of another. -/
def demoGapFile (f : List Nat) : Option (List (List Nat × Trace)) :=
  if f = bytes "a" then some [(bytes "076", ⟨0, [5, 6, 7]⟩)]
  else if f = bytes "b" then some [(bytes "076", ⟨4, [8]⟩)]
  else if f = bytes "c" then some [(bytes "077", ⟨0, [1, 2]⟩)]
  else if f = bytes "d" then some [(bytes "076", ⟨3, [9]⟩)]
  else none

example : checkDiscontinuity demoGapFile [bytes "b", bytes "a"] = some [(bytes "076", 0, 2), (bytes "076", 4, 4)] ∧
    checkDiscontinuity demoGapFile [bytes "b", bytes "a", bytes "d"] = some [] ∧
    checkDiscontinuity demoGapFile [bytes "a", bytes "c"] = some [(bytes "076", 0, 2), (bytes "077", 0, 1)] := by decide +kernel

/-- The hypotheses of `C87_single` are met by these files. -/
example : ([bytes "b", bytes "a"].mapM demoGapFile = some [[(bytes "076", ⟨4, [8]⟩)], [(bytes "076", ⟨0, [5, 6, 7]⟩)]]) ∧
    Consistent (samples [⟨4, [8]⟩, ⟨0, [5, 6, 7]⟩]) := by
  refine ⟨by decide +kernel, ?_⟩
  intro t x y hx hy
  simp [samples, stamps] at hx hy
  omega

/-- The hypotheses of `C87_violated_channels` are met by complete files of two loggers. -/
example : ([bytes "a", bytes "c"].mapM demoGapFile = some [[(bytes "076", ⟨0, [5, 6, 7]⟩)], [(bytes "077", ⟨0, [1, 2]⟩)]]) ∧
    ∀ id, Consistent (samples (recordedBy id [(bytes "076", ⟨0, [5, 6, 7]⟩), (bytes "077", ⟨0, [1, 2]⟩)])) := by
  refine ⟨by decide +kernel, ?_⟩
  intro id t x y hx hy
  by_cases h1 : bytes "076" = id
  · have h2 : bytes "077" ≠ id := by rw [← h1]; decide +kernel
    simp [recordedBy, h1, h2, samples, stamps] at hx hy
    omega
  · by_cases h2 : bytes "077" = id
    · simp [recordedBy, h1, h2, samples, stamps] at hx hy
      omega
    · simp [recordedBy, h1, h2, samples] at hx

end Gemlog
