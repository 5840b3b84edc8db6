import Mathlib.Tactic.Linarith
import Mathlib.Tactic.Ring
import Mathlib.Data.List.Count
import Verif.Model.Days

/-!
# C60: the daily loop

`(files.flatMap DFile.all).count x` is how often the sample `x` (channel, time, value) is in the files. The theorems say how often it
is handed to the analysis of each day.
-/

namespace Gemlog

/-! ## The days -/

theorem nextMidnight_gt (t : Int) : t + 2000000 < nextMidnight t := by
  unfold nextMidnight
  dsimp only
  omega

theorem nextMidnight_le (t : Int) : nextMidnight t < t + 86403000000 := by
  unfold nextMidnight
  dsimp only
  omega

/-- For a time in the first second of a day it is the same time of the next day. -/
theorem nextMidnight_aligned {t : Int} (h : t % 86400000000 < 1000000) : nextMidnight t = t + 86400000000 := by
  unfold nextMidnight
  dsimp only
  omega

theorem moreStarts_ge (t2 : Int) : ∀ (fuel : Nat) (t : Int), ∀ s ∈ moreStarts t2 fuel t, t ≤ s
  | 0, t, s, hs => by simp [moreStarts] at hs
  | fuel + 1, t, s, hs => by
    rw [moreStarts] at hs
    split at hs
    · have := nextMidnight_gt t
      rcases List.mem_cons.mp hs with rfl | hs
      · omega
      · have := moreStarts_ge t2 fuel _ s hs
        omega
    · simp at hs

theorem moreStarts_sorted (t2 : Int) : ∀ (fuel : Nat) (t : Int), (t :: moreStarts t2 fuel t).Pairwise (· ≤ ·)
  | 0, t => by simp [moreStarts]
  | fuel + 1, t => by
    rw [moreStarts]
    split
    · have h := moreStarts_sorted t2 fuel (nextMidnight t)
      refine List.pairwise_cons.mpr ⟨?_, h⟩
      intro s hs
      have := nextMidnight_gt t
      rcases List.mem_cons.mp hs with rfl | hs
      · omega
      · have := moreStarts_ge t2 fuel _ s hs
        omega
    · simp

/-- For a start in the first second of a day, the starts are a day apart, up to the end. -/
theorem moreStarts_aligned (t2 : Int) : ∀ (fuel : Nat) (t : Int), t % 86400000000 < 1000000 → t2 - t ≤ fuel →
    ∀ k : Nat, (moreStarts t2 fuel t)[k]? =
      if t + (k + 1) * 86400000000 < t2 then some (t + (k + 1) * 86400000000) else none
  | 0, t, _, hf, k => by
    rw [moreStarts, if_neg (by push_cast at hf; nlinarith)]
    rfl
  | fuel + 1, t, ha, hf, k => by
    rw [moreStarts, nextMidnight_aligned ha]
    by_cases hlt : t + 86400000000 < t2
    · rw [if_pos hlt]
      cases k with
      | zero => simp [hlt]
      | succ k =>
        rw [List.getElem?_cons_succ, moreStarts_aligned t2 fuel _ (by omega) (by push_cast at hf; omega) k]
        have : t + 86400000000 + (k + 1) * 86400000000 = t + ((k + 1 : Nat) + 1) * 86400000000 := by push_cast; ring
        rw [this]
    · rw [if_neg hlt, if_neg (by nlinarith)]
      rfl

/-- Their ends are the next start, and for the last one the end of the range. -/
theorem moreEnds_aligned (t2 : Int) : ∀ (fuel : Nat) (t : Int), t % 86400000000 < 1000000 → t2 - t < fuel →
    ∀ k : Nat, t + k * 86400000000 < t2 →
      (moreEnds t2 fuel t)[k]? = some (min (t + (k + 1) * 86400000000) t2)
  | 0, t, _, hf, k, hk => by
    exfalso; push_cast at hf; nlinarith
  | fuel + 1, t, ha, hf, k, hk => by
    rw [moreEnds, nextMidnight_aligned ha]
    by_cases hlt : t + 86400000000 < t2
    · rw [if_pos hlt]
      cases k with
      | zero => simp; omega
      | succ k =>
        rw [List.getElem?_cons_succ, moreEnds_aligned t2 fuel _ (by omega) (by push_cast at hf; omega) k (by push_cast at hk; linarith)]
        have : t + 86400000000 + (k + 1) * 86400000000 = t + ((k + 1 : Nat) + 1) * 86400000000 := by push_cast; ring
        rw [this]
    · rw [if_neg hlt]
      cases k with
      | zero => simp; omega
      | succ k => exfalso; push_cast at hk; nlinarith

/-! ## The data -/

/-- The times of a trace are in order. -/
def TimeOrdered (files : List DFile) : Prop := ∀ f ∈ files, ∀ tr ∈ f.traces, tr.samples.Pairwise fun a b => a.1 ≤ b.1

theorem le_last {l : List (Int × Rat)} (ho : l.Pairwise fun a b => a.1 ≤ b.1) {b : Int × Rat} (hb : l.getLast? = some b)
    {s : Int × Rat} (hs : s ∈ l) : s.1 ≤ b.1 := by
  have h := List.dropLast_append_getLast? b hb
  rw [← h] at ho hs
  rcases List.mem_append.mp hs with hs | hs
  · exact (List.pairwise_append.mp ho).2.2 s hs b (by simp)
  · rw [List.mem_singleton.mp hs]

theorem rowOf_spans {name : List Nat} {tr : DTrace} (ho : tr.samples.Pairwise fun a b => a.1 ≤ b.1) {s : Int × Rat}
    (hs : s ∈ tr.samples) : ∃ r, rowOf name tr = some r ∧ r.name = name ∧ r.id = tr.id ∧ r.t1 ≤ s.1 ∧ s.1 ≤ r.t2 := by
  obtain ⟨id, samples⟩ := tr
  cases samples with
  | nil => simp at hs
  | cons a l =>
    cases hb : (a :: l).getLast? with
    | none => simp at hb
    | some b =>
      refine ⟨⟨name, a.1, b.1, id⟩, by simp only [rowOf, List.head?_cons, hb], rfl, rfl, ?_, le_last ho hb hs⟩
      rcases List.mem_cons.mp hs with rfl | hs
      · exact le_refl _
      · exact (List.pairwise_cons.mp ho).1 s hs

/-- How often a sample is in the files with the names given. -/
def doneCount (files : List DFile) (done : List (List Nat)) (x : DSample) : Nat :=
  ((files.filter fun f => decide (f.name ∈ done)).flatMap DFile.all).count x

theorem doneCount_nil (files : List DFile) (x : DSample) : doneCount files [] x = 0 := by
  unfold doneCount
  simp

theorem doneCount_cons (f : DFile) (files : List DFile) (done : List (List Nat)) (x : DSample) :
    doneCount (f :: files) done x = (if f.name ∈ done then f.all.count x else 0) + doneCount files done x := by
  unfold doneCount
  rw [List.filter_cons]
  by_cases h : f.name ∈ done
  · simp [h, List.count_append]
  · simp [h]

theorem doneCount_absent (x : DSample) (done : List (List Nat)) (n : List Nat) : ∀ files : List DFile, n ∉ files.map DFile.name →
    doneCount files (done ++ [n]) x = doneCount files done x
  | [], _ => rfl
  | f :: files, h => by
    simp only [List.map_cons, List.mem_cons, not_or] at h
    rw [doneCount_cons, doneCount_cons, doneCount_absent x done n files h.2]
    congr 1
    have : f.name ∈ done ++ [n] ↔ f.name ∈ done := by
      simp only [List.mem_append, List.mem_singleton]
      exact ⟨fun h' => h'.resolve_right (fun e => h.1 e.symm), Or.inl⟩
    simp only [this]

theorem doneCount_add (x : DSample) (done : List (List Nat)) (n : List Nat) (hn : n ∉ done) (g : DFile) :
    ∀ files : List DFile, (files.map DFile.name).Nodup → (files.find? fun f => f.name = n) = some g →
      doneCount files (done ++ [n]) x = doneCount files done x + g.all.count x
  | [], _, h => by simp at h
  | f :: files, hnd, h => by
    rw [List.map_cons, List.nodup_cons] at hnd
    rw [List.find?_cons] at h
    rw [doneCount_cons, doneCount_cons]
    by_cases hf : f.name = n
    · simp only [hf, decide_true, Option.some.injEq] at h
      subst h
      rw [doneCount_absent x done n files (hf ▸ hnd.1), hf, if_neg hn, if_pos (by simp)]
      omega
    · simp only [hf, decide_false] at h
      rw [doneCount_add x done n hn g files hnd.2 h]
      have : f.name ∈ done ++ [n] ↔ f.name ∈ done := by
        simp only [List.mem_append, List.mem_singleton, hf, or_false]
      simp only [this]
      omega

/-- If the files not read do not have the sample, those read have it as often as all. -/
theorem doneCount_all (x : DSample) (done : List (List Nat)) : ∀ files : List DFile,
    (∀ f ∈ files, x ∈ f.all → f.name ∈ done) → doneCount files done x = (files.flatMap DFile.all).count x
  | [], _ => rfl
  | f :: files, h => by
    rw [doneCount_cons, doneCount_all x done files (fun g hg => h g (List.mem_cons_of_mem _ hg)), List.flatMap_cons,
      List.count_append]
    by_cases hx : x ∈ f.all
    · rw [if_pos (h f (List.mem_cons_self) hx)]
    · rw [List.count_eq_zero_of_not_mem hx]
      split <;> rfl

theorem readNew_inv (files : List DFile) (hnd : (files.map DFile.name).Nodup) (x : DSample) :
    ∀ (names : List (List Nat)) (s : List DSample × List (List Nat)), s.1.count x = doneCount files s.2 x →
      (readNew files names s).1.count x = doneCount files (readNew files names s).2 x
  | [], s, h => by rw [readNew]; exact h
  | n :: rest, (st, done), h => by
    rw [readNew]
    split
    · exact readNew_inv files hnd x rest _ h
    · rename_i hn
      split
      · rename_i f hf
        apply readNew_inv files hnd x rest
        dsimp only
        rw [doneCount_add x done n hn f files hnd hf, List.count_append]
        dsimp only at h
        omega
      · exact readNew_inv files hnd x rest _ h

theorem readNew_done (files : List DFile) : ∀ (names : List (List Nat)) (s : List DSample × List (List Nat)) (n : List Nat),
    (n ∈ s.2 ∨ (n ∈ names ∧ n ∈ files.map DFile.name)) → n ∈ (readNew files names s).2
  | [], s, n, h => by
    rw [readNew]
    exact h.resolve_right (by simp)
  | m :: rest, (st, done), n, h => by
    rw [readNew]
    split
    · rename_i hm
      apply readNew_done files rest
      rcases h with h | ⟨h1, h2⟩
      · exact Or.inl h
      · rcases List.mem_cons.mp h1 with rfl | h1
        · exact Or.inl hm
        · exact Or.inr ⟨h1, h2⟩
    · split
      · apply readNew_done files rest
        rcases h with h | ⟨h1, h2⟩
        · exact Or.inl (by simp [show n ∈ done from h])
        · rcases List.mem_cons.mp h1 with rfl | h1
          · exact Or.inl (by simp)
          · exact Or.inr ⟨h1, h2⟩
      · rename_i hf
        apply readNew_done files rest
        rcases h with h | ⟨h1, h2⟩
        · exact Or.inl h
        · rcases List.mem_cons.mp h1 with rfl | h1
          · obtain ⟨g, hg, hgn⟩ := List.mem_map.mp h2
            have := List.find?_eq_none.mp hf g hg
            simp [hgn] at this
          · exact Or.inr ⟨h1, h2⟩

theorem count_filter' (l : List DSample) (p : DSample → Bool) (x : DSample) : (l.filter p).count x = if p x then l.count x else 0 := by
  by_cases h : p x
  · rw [if_pos h, List.count_filter h]
  · rw [if_neg h, List.count_eq_zero]
    intro hm
    exact h (List.mem_filter.mp hm).2

/-- The sample is of a wanted channel, between `lo` and `hi`. -/
def InRange (ids : List (List Nat)) (lo hi : Int) (x : DSample) : Prop := x.id ∈ ids ∧ lo ≤ x.t ∧ x.t ≤ hi

instance (ids : List (List Nat)) (lo hi : Int) (x : DSample) : Decidable (InRange ids lo hi x) := by
  unfold InRange; infer_instance

theorem mem_all {f : DFile} {x : DSample} (h : x ∈ f.all) : ∃ tr ∈ f.traces, ∃ s ∈ tr.samples, tr.id = x.id ∧ s.1 = x.t := by
  unfold DFile.all at h
  obtain ⟨tr, htr, h⟩ := List.mem_flatMap.mp h
  obtain ⟨s, hs, rfl⟩ := List.mem_map.mp h
  exact ⟨tr, htr, s, hs, rfl, rfl⟩

theorem kept_has {files : List DFile} (ho : TimeOrdered files) {ids : List (List Nat)} {t1 t2 lo hi : Int} {x : DSample}
    (hx : InRange ids lo hi x) (hlo : t1 ≤ lo) (hhi : x.t ≤ t2) {f : DFile} (hf : f ∈ files) (hm : x ∈ f.all) :
    f.name ∈ ((keptRows t1 t2 ids (fileTable files)).filter fun r => decide (r.t1 ≤ hi) && decide (lo ≤ r.t2)).map DRow.name := by
  obtain ⟨tr, htr, s, hs, hid, hst⟩ := mem_all hm
  obtain ⟨r, hr, hrn, hri, hr1, hr2⟩ := rowOf_spans (name := f.name) (ho f hf tr htr) hs
  obtain ⟨hxid, hx1, hx2⟩ := hx
  refine List.mem_map.mpr ⟨r, List.mem_filter.mpr ⟨List.mem_filter.mpr ⟨?_, ?_⟩, ?_⟩, hrn⟩
  · exact List.mem_flatMap.mpr ⟨f, hf, List.mem_filterMap.mpr ⟨tr, htr, hr⟩⟩
  · have h1 : t1 ≤ r.t2 := by omega
    have h2 : r.t1 ≤ t2 := by omega
    have h3 : r.id ∈ ids := by rw [hri, hid]; exact hxid
    simp [h1, h2, h3]
  · have h1 : r.t1 ≤ hi := by omega
    have h2 : lo ≤ r.t2 := by omega
    simp [h1, h2]

theorem dayLoop_count (files : List DFile) (hnd : (files.map DFile.name).Nodup) (ho : TimeOrdered files) (ids : List (List Nat))
    (t1 t2 : Int) : ∀ (days : List (Int × Int)) (s : List DSample × List (List Nat)) (lo : Int), t1 ≤ lo →
      (∀ d ∈ days, lo ≤ d.1) → (days.map Prod.fst).Pairwise (· ≤ ·) →
      (∀ x, InRange ids lo t2 x → s.1.count x = doneCount files s.2 x) →
      (dayLoop files (keptRows t1 t2 ids (fileTable files)) ids t2 days s).length = days.length ∧
      ∀ (k : Nat) (d : Int × Int) (out : List DSample), days[k]? = some d →
        (dayLoop files (keptRows t1 t2 ids (fileTable files)) ids t2 days s)[k]? = some out →
        ∀ x, out.count x = if InRange ids d.1 (min d.2 t2) x then (files.flatMap DFile.all).count x else 0
  | [], s, lo, _, _, _, _ => ⟨rfl, fun k d out h => by simp at h⟩
  | d :: rest, s, lo, h1, hlo, hp, hinv => by
    rw [List.map_cons, List.pairwise_cons] at hp
    rw [dayLoop]
    set rows := keptRows t1 t2 ids (fileTable files) with hrows
    set names := (rows.filter fun r => decide (r.t1 ≤ d.2) && decide (d.1 ≤ r.t2)).map DRow.name with hnames
    have hd1 : lo ≤ d.1 := hlo d (List.mem_cons_self)
    have hst : ∀ x, InRange ids d.1 t2 x →
        (readNew files names s).1.count x = doneCount files (readNew files names s).2 x := by
      intro x hx
      exact readNew_inv files hnd x names s (hinv x ⟨hx.1, by have := hx.2.1; omega, hx.2.2⟩)
    have hcnt : ∀ x, (oneDay files rows ids t2 d s).1.1.count x =
        if InRange ids d.1 t2 x then (readNew files names s).1.count x else 0 := by
      intro x
      unfold oneDay
      dsimp only
      rw [count_filter', count_filter']
      by_cases ha : x.id ∈ ids <;> by_cases hb : d.1 ≤ x.t <;> by_cases hc : x.t ≤ t2 <;> simp [InRange, ha, hb, hc, hnames]
    have hdone : (oneDay files rows ids t2 d s).1.2 = (readNew files names s).2 := rfl
    have hout : ∀ x, (oneDay files rows ids t2 d s).2.count x =
        if InRange ids d.1 (min d.2 t2) x then (readNew files names s).1.count x else 0 := by
      intro x
      have : (oneDay files rows ids t2 d s).2 =
          (oneDay files rows ids t2 d s).1.1.filter fun x => decide (d.1 ≤ x.t) && decide (x.t ≤ d.2) := rfl
      rw [this, count_filter', hcnt]
      by_cases ha : x.id ∈ ids <;> by_cases hb : d.1 ≤ x.t <;> by_cases hc : x.t ≤ t2 <;> by_cases he : x.t ≤ d.2 <;>
        simp [InRange, ha, hb, hc, he]
    obtain ⟨hl, ih⟩ := dayLoop_count files hnd ho ids t1 t2 rest (oneDay files rows ids t2 d s).1 d.1 (by omega)
      (fun e he => hp.1 e.1 (List.mem_map.mpr ⟨e, he, rfl⟩)) hp.2 (by
        intro x hx
        rw [hcnt, if_pos hx, hdone]
        exact hst x hx)
    refine ⟨by rw [List.length_cons, List.length_cons, hl], ?_⟩
    intro k d' out hd hk x
    cases k with
    | succ k => exact ih k d' out (by simpa using hd) (by simpa using hk) x
    | zero =>
      simp only [List.getElem?_cons_zero, Option.some.injEq] at hd hk
      subst hd
      subst hk
      rw [hout]
      by_cases hx : InRange ids d.1 (min d.2 t2) x
      · rw [if_pos hx, if_pos hx]
        have hx' : InRange ids d.1 t2 x := ⟨hx.1, hx.2.1, by have := hx.2.2; omega⟩
        rw [hst x hx']
        apply doneCount_all
        intro f hf hm
        apply readNew_done
        refine Or.inr ⟨?_, List.mem_map.mpr ⟨f, hf, rfl⟩⟩
        exact kept_has ho (hi := d.2) ⟨hx.1, hx.2.1, by have := hx.2.2; omega⟩ (by omega) hx'.2.2 hf hm
      · rw [if_neg hx, if_neg hx]

/-! ## The range of the run -/

/-- `m` is the time of the first sample in the files. -/
def FirstTime (files : List DFile) (m : Int) : Prop :=
  (∃ x ∈ files.flatMap DFile.all, x.t = m) ∧ ∀ x ∈ files.flatMap DFile.all, m ≤ x.t

/-- `m` is the time of the last sample in the files. -/
def LastTime (files : List DFile) (m : Int) : Prop :=
  (∃ x ∈ files.flatMap DFile.all, x.t = m) ∧ ∀ x ∈ files.flatMap DFile.all, x.t ≤ m

theorem foldl_min_spec (rows : List DRow) : ∀ m : Int, (rows.foldl (fun m r => min m r.t1) m ≤ m) ∧
    (∀ r ∈ rows, rows.foldl (fun m r => min m r.t1) m ≤ r.t1) ∧
    (rows.foldl (fun m r => min m r.t1) m = m ∨ ∃ r ∈ rows, rows.foldl (fun m r => min m r.t1) m = r.t1) := by
  induction rows with
  | nil => intro m; simp
  | cons a l ih =>
    intro m
    obtain ⟨h1, h2, h3⟩ := ih (min m a.t1)
    rw [List.foldl_cons]
    refine ⟨by omega, ?_, ?_⟩
    · intro r hr
      rcases List.mem_cons.mp hr with rfl | hr
      · omega
      · exact h2 r hr
    · rcases h3 with h3 | ⟨r, hr, h3⟩
      · rcases le_total m a.t1 with h | h
        · left; omega
        · right; exact ⟨a, List.mem_cons_self, by omega⟩
      · right; exact ⟨r, List.mem_cons_of_mem _ hr, h3⟩

theorem foldl_max_spec (rows : List DRow) : ∀ m : Int, (m ≤ rows.foldl (fun m r => max m r.t2) m) ∧
    (∀ r ∈ rows, r.t2 ≤ rows.foldl (fun m r => max m r.t2) m) ∧
    (rows.foldl (fun m r => max m r.t2) m = m ∨ ∃ r ∈ rows, rows.foldl (fun m r => max m r.t2) m = r.t2) := by
  induction rows with
  | nil => intro m; simp
  | cons a l ih =>
    intro m
    obtain ⟨h1, h2, h3⟩ := ih (max m a.t2)
    rw [List.foldl_cons]
    refine ⟨by omega, ?_, ?_⟩
    · intro r hr
      rcases List.mem_cons.mp hr with rfl | hr
      · omega
      · exact h2 r hr
    · rcases h3 with h3 | ⟨r, hr, h3⟩
      · rcases le_total m a.t2 with h | h
        · right; exact ⟨a, List.mem_cons_self, by omega⟩
        · left; omega
      · right; exact ⟨r, List.mem_cons_of_mem _ hr, h3⟩

theorem mem_fileTable {files : List DFile} {r : DRow} (h : r ∈ fileTable files) :
    (∃ x ∈ files.flatMap DFile.all, x.t = r.t1) ∧ ∃ x ∈ files.flatMap DFile.all, x.t = r.t2 := by
  unfold fileTable at h
  obtain ⟨f, hf, h⟩ := List.mem_flatMap.mp h
  obtain ⟨tr, htr, h⟩ := List.mem_filterMap.mp h
  unfold rowOf at h
  split at h
  · rename_i a b ha hb
    injection h with h
    subst h
    refine ⟨⟨⟨tr.id, a.1, a.2⟩, ?_, rfl⟩, ⟨⟨tr.id, b.1, b.2⟩, ?_, rfl⟩⟩
    · exact List.mem_flatMap.mpr ⟨f, hf, List.mem_flatMap.mpr ⟨tr, htr, List.mem_map.mpr ⟨a, List.mem_of_head? ha, rfl⟩⟩⟩
    · exact List.mem_flatMap.mpr ⟨f, hf, List.mem_flatMap.mpr ⟨tr, htr, List.mem_map.mpr ⟨b, List.mem_of_getLast? hb, rfl⟩⟩⟩
  · simp at h

theorem fileTable_spans {files : List DFile} (ho : TimeOrdered files) {x : DSample} (h : x ∈ files.flatMap DFile.all) :
    ∃ r ∈ fileTable files, r.t1 ≤ x.t ∧ x.t ≤ r.t2 := by
  obtain ⟨f, hf, hm⟩ := List.mem_flatMap.mp h
  obtain ⟨tr, htr, s, hs, hid, hst⟩ := mem_all hm
  obtain ⟨r, hr, -, -, h1, h2⟩ := rowOf_spans (name := f.name) (ho f hf tr htr) hs
  exact ⟨r, List.mem_flatMap.mpr ⟨f, hf, List.mem_filterMap.mpr ⟨tr, htr, hr⟩⟩, by omega, by omega⟩

theorem cutRange_eq {files : List DFile} (ho : TimeOrdered files) {m n : Int} (hm : FirstTime files m) (hn : LastTime files n)
    (t1 t2 : Int) : cutRange t1 t2 (fileTable files) = (max t1 m, min t2 n) := by
  obtain ⟨⟨x, hx, hxm⟩, hm⟩ := hm
  obtain ⟨⟨y, hy, hyn⟩, hn⟩ := hn
  obtain ⟨r, hr, hr1, -⟩ := fileTable_spans ho hx
  obtain ⟨r', hr', -, hr2⟩ := fileTable_spans ho hy
  unfold cutRange
  have hhead : (fileTable files).headD ⟨[], t1, t2, []⟩ ∈ fileTable files := by
    cases ht : fileTable files with
    | nil => rw [ht] at hr; simp at hr
    | cons a l => simp
  have hlow : ∀ r ∈ fileTable files, m ≤ r.t1 := by
    intro r hr
    obtain ⟨⟨z, hz, e⟩, -⟩ := mem_fileTable hr
    rw [← e]; exact hm z hz
  have hhigh : ∀ r ∈ fileTable files, r.t2 ≤ n := by
    intro r hr
    obtain ⟨-, ⟨z, hz, e⟩⟩ := mem_fileTable hr
    rw [← e]; exact hn z hz
  obtain ⟨-, a2, a3⟩ := foldl_min_spec (fileTable files) ((fileTable files).headD ⟨[], t1, t2, []⟩).t1
  obtain ⟨-, b2, b3⟩ := foldl_max_spec (fileTable files) ((fileTable files).headD ⟨[], t1, t2, []⟩).t2
  have e1 : (fileTable files).foldl (fun m r => min m r.t1) ((fileTable files).headD ⟨[], t1, t2, []⟩).t1 = m := by
    have := a2 r hr
    rcases a3 with h | ⟨q, hq, h⟩
    · have := hlow _ hhead; omega
    · have := hlow _ hq; omega
  have e2 : (fileTable files).foldl (fun m r => max m r.t2) ((fileTable files).headD ⟨[], t1, t2, []⟩).t2 = n := by
    have := b2 r' hr'
    rcases b3 with h | ⟨q, hq, h⟩
    · have := hhigh _ hhead; omega
    · have := hhigh _ hq; omega
  rw [e1, e2]

theorem zip_fst_sorted : ∀ (a b : List Int), a.Pairwise (· ≤ ·) → ((a.zip b).map Prod.fst).Pairwise (· ≤ ·)
  | [], _, _ => by simp
  | _ :: _, [], _ => by simp
  | x :: a, y :: b, h => by
    rw [List.pairwise_cons] at h
    simp only [List.zip_cons_cons, List.map_cons, List.pairwise_cons]
    refine ⟨?_, zip_fst_sorted a b h.2⟩
    intro z hz
    obtain ⟨⟨p, q⟩, hp, rfl⟩ := List.mem_map.mp hz
    exact h.1 _ (List.of_mem_zip hp).1

/-- What each day gets: its part of the files' samples of the wanted channels. -/
theorem loopThroughDays_count {files : List DFile} (hnd : (files.map DFile.name).Nodup) (ho : TimeOrdered files) {m n : Int}
    (hm : FirstTime files m) (hn : LastTime files n) {ids : List (List Nat)} {t1 t2 : Int} {days : List (List DSample)}
    (hr : loopThroughDays files ids t1 t2 = some days) :
    days.length = (dayList (max t1 m) (min t2 n)).length ∧
    ∀ (k : Nat) (d : Int × Int) (out : List DSample), (dayList (max t1 m) (min t2 n))[k]? = some d → days[k]? = some out →
      ∀ x, out.count x = if InRange ids d.1 (min d.2 (min t2 n)) x then (files.flatMap DFile.all).count x else 0 := by
  unfold loopThroughDays at hr
  dsimp only at hr
  rw [cutRange_eq ho hm hn] at hr
  dsimp only at hr
  split at hr
  · simp at hr
  · injection hr with hr
    subst hr
    refine dayLoop_count files hnd ho ids _ _ _ ([], []) (max t1 m) (le_refl _) ?_ ?_ ?_
    · intro d hd
      unfold dayList at hd
      have := (List.of_mem_zip (a := d.1) (b := d.2) hd).1
      rcases List.mem_cons.mp this with h | h
      · omega
      · exact moreStarts_ge _ _ _ _ h
    · exact zip_fst_sorted _ _ (moreStarts_sorted _ _ _)
    · intro x _
      rw [doneCount_nil]
      rfl

/-- The days of a run that starts in the first second of a day. -/
theorem dayList_aligned {a b : Int} (ha : a % 86400000000 < 1000000) (k : Nat) :
    (∃ e, (dayList a b)[k]? = some (a + k * 86400000000, e) ∧ min e b = min (a + (k + 1) * 86400000000) b ∧
      (k = 0 ∨ a + k * 86400000000 < b)) ∨
    ((dayList a b)[k]? = none ∧ b ≤ a + k * 86400000000 ∧ k ≠ 0) := by
  unfold dayList
  cases k with
  | zero =>
    left
    exact ⟨a + 86400000000, by simp, by simp, Or.inl rfl⟩
  | succ k =>
    have hs := moreStarts_aligned b ((b - a).toNat + 1) a ha (by omega) k
    by_cases hlt : a + (k + 1) * 86400000000 < b
    · left
      rw [if_pos hlt] at hs
      have he := moreEnds_aligned b ((b - a).toNat + 1) (a + 86400000000) (by omega) (by omega) k (by linarith)
      refine ⟨min (a + 86400000000 + ((k : Int) + 1) * 86400000000) b, ?_, ?_, Or.inr (by push_cast; exact hlt)⟩
      · rw [List.zip_cons_cons, List.getElem?_cons_succ, List.getElem?_zip_eq_some]
        exact ⟨by rw [hs]; push_cast; rfl, he⟩
      · have : a + 86400000000 + ((k : Int) + 1) * 86400000000 = a + (((k + 1 : Nat) : Int) + 1) * 86400000000 := by push_cast; ring
        rw [this]
        omega
    · right
      rw [if_neg hlt] at hs
      refine ⟨?_, by push_cast; omega, by omega⟩
      rw [List.zip_cons_cons, List.getElem?_cons_succ, List.getElem?_eq_none_iff, List.length_zip]
      have := List.getElem?_eq_none_iff.mp hs
      omega

/-- C60. If the run starts in the first second of a UTC day, every sample of a wanted channel between `t1` and `t2` is handed to
exactly one daily analysis, and there as often as it is in the files; other samples are handed to none. Partial: samples at the
boundaries between the days are excepted (see `C60_violated_midnight`), and so are runs that start at another time of day (see
`C60_violated_part_day`). The run starts at `t1`, or at the first sample if that is later. -/
theorem C60_once_partial (files : List DFile) (hnd : (files.map DFile.name).Nodup) (ho : TimeOrdered files) (m n : Int)
    (hm : FirstTime files m) (hn : LastTime files n) (ids : List (List Nat)) (t1 t2 : Int) (days : List (List DSample))
    (hr : loopThroughDays files ids t1 t2 = some days) (hal : max t1 m % 86400000000 < 1000000) (x : DSample)
    (hx : x ∈ files.flatMap DFile.all) :
    (x.id ∈ ids ∧ t1 ≤ x.t ∧ x.t ≤ t2 →
      (∀ k : Nat, 0 < k → max t1 m + k * 86400000000 < min t2 n → x.t ≠ max t1 m + k * 86400000000) →
      ∃ (k : Nat) (out : List DSample), days[k]? = some out ∧ out.count x = (files.flatMap DFile.all).count x ∧
        ∀ (j : Nat) (out' : List DSample), j ≠ k → days[j]? = some out' → x ∉ out') ∧
    (¬ (x.id ∈ ids ∧ t1 ≤ x.t ∧ x.t ≤ t2) → ∀ out ∈ days, x ∉ out) := by
  obtain ⟨hlen, hcount⟩ := loopThroughDays_count hnd ho hm hn hr
  have hmx : m ≤ x.t := hm.2 x hx
  have hnx : x.t ≤ n := hn.2 x hx
  generalize ha : max t1 m = a at *
  generalize hb : min t2 n = b at *
  have hget : ∀ (j : Nat) (out : List DSample), days[j]? = some out → ∃ e,
      (j = 0 ∨ a + j * 86400000000 < b) ∧ min e b = min (a + (j + 1) * 86400000000) b ∧
      out.count x = if InRange ids (a + j * 86400000000) (min e b) x then (files.flatMap DFile.all).count x else 0 := by
    intro j out hj
    rcases dayList_aligned (b := b) hal j with ⟨e, he1, he2, he3⟩ | ⟨hnone, -, -⟩
    · exact ⟨e, he3, he2, hcount j _ out he1 hj x⟩
    · have h1 := List.getElem?_eq_none_iff.mp hnone
      have h2 := (List.getElem?_eq_some_iff.mp hj).1
      omega
  constructor
  · rintro ⟨hid, hx1, hx2⟩ hnb
    have hax : a ≤ x.t := by omega
    have hxb : x.t ≤ b := by omega
    -- the day of the sample
    obtain ⟨k, hk1, hk2⟩ : ∃ k : Nat, (x.t = a ∧ k = 0 ∨ a + k * 86400000000 < x.t) ∧ x.t ≤ a + (k + 1) * 86400000000 := by
      by_cases hxa : x.t = a
      · exact ⟨0, Or.inl ⟨hxa, rfl⟩, by omega⟩
      · refine ⟨((x.t - a - 1) / 86400000000).toNat, ?_, ?_⟩
        · right
          have : 0 ≤ (x.t - a - 1) / 86400000000 := by omega
          rw [Int.toNat_of_nonneg this]
          omega
        · have : 0 ≤ (x.t - a - 1) / 86400000000 := by omega
          rw [Int.toNat_of_nonneg this]
          omega
    have hday : k = 0 ∨ a + k * 86400000000 < b := by
      rcases hk1 with ⟨-, h⟩ | h
      · exact Or.inl h
      · right; omega
    have hkl : k < days.length := by
      rcases dayList_aligned (b := b) hal k with ⟨e, he1, -, -⟩ | ⟨-, h2, h3⟩
      · have := (List.getElem?_eq_some_iff.mp he1).1
        omega
      · rcases hday with h | h
        · exact absurd h h3
        · omega
    refine ⟨k, days[k], List.getElem?_eq_getElem hkl, ?_, ?_⟩
    · obtain ⟨e, -, he2, hc⟩ := hget k _ (List.getElem?_eq_getElem hkl)
      rw [hc, if_pos]
      refine ⟨hid, ?_, ?_⟩
      · rcases hk1 with ⟨h, rfl⟩ | h
        · simp; omega
        · omega
      · rw [he2]; omega
    · intro j out' hjk hj hmem
      obtain ⟨e, he1, he2, hc⟩ := hget j _ hj
      have hpos : 0 < out'.count x := List.count_pos_iff.mpr hmem
      rw [hc] at hpos
      split at hpos
      · rename_i hin
        obtain ⟨-, hlo, hhi⟩ := hin
        rw [he2] at hhi
        have hhi' : x.t ≤ a + (j + 1) * 86400000000 := by omega
        have hcase : j < k ∨ k < j := Nat.lt_or_gt_of_ne hjk
        rcases hcase with hc | hc
        · have : (j : Int) + 1 ≤ k := by exact_mod_cast hc
          rcases hk1 with ⟨-, h⟩ | h
          · omega
          · nlinarith
        · have : (k : Int) + 1 ≤ j := by exact_mod_cast hc
          have heq : x.t = a + j * 86400000000 := by nlinarith
          exact hnb j (by omega) (by omega) heq
      · omega
  · intro hno out hout hmem
    obtain ⟨j, hj⟩ := List.getElem?_of_mem hout
    obtain ⟨e, -, he2, hc⟩ := hget j _ hj
    have hpos : 0 < out.count x := List.count_pos_iff.mpr hmem
    rw [hc] at hpos
    split at hpos
    · rename_i hin
      obtain ⟨hid, hlo, hhi⟩ := hin
      refine hno ⟨hid, ?_, ?_⟩
      · have : (0 : Int) ≤ j * 86400000000 := by positivity
        omega
      · omega
    · omega

/-- C60 is violated: a sample at the midnight between the first and the second day is handed to both. -/
theorem C60_violated_midnight (files : List DFile) (hnd : (files.map DFile.name).Nodup) (ho : TimeOrdered files) (m n : Int)
    (hm : FirstTime files m) (hn : LastTime files n) (ids : List (List Nat)) (t1 t2 : Int) (days : List (List DSample))
    (hr : loopThroughDays files ids t1 t2 = some days) (hal : max t1 m % 86400000000 < 1000000) (x : DSample)
    (hx : x ∈ files.flatMap DFile.all) (hid : x.id ∈ ids) (ht : x.t = max t1 m + 86400000000) (hlt : x.t < min t2 n) :
    ∃ d0 d1, days[0]? = some d0 ∧ days[1]? = some d1 ∧ x ∈ d0 ∧ x ∈ d1 := by
  obtain ⟨hlen, hcount⟩ := loopThroughDays_count hnd ho hm hn hr
  have hpos : 0 < (files.flatMap DFile.all).count x := List.count_pos_iff.mpr hx
  generalize max t1 m = a at *
  generalize min t2 n = b at *
  rcases dayList_aligned (b := b) hal 0 with ⟨e0, h0, h0', -⟩ | ⟨-, -, h⟩
  · rcases dayList_aligned (b := b) hal 1 with ⟨e1, h1, h1', -⟩ | ⟨-, h, -⟩
    · have hl := (List.getElem?_eq_some_iff.mp h1).1
      refine ⟨days[0]'(by omega), days[1]'(by omega), List.getElem?_eq_getElem _, List.getElem?_eq_getElem _, ?_, ?_⟩
      · apply List.count_pos_iff.mp
        rw [hcount 0 _ _ h0 (List.getElem?_eq_getElem _), if_pos]
        · exact hpos
        · exact ⟨hid, by push_cast; omega, by push_cast at h0'; omega⟩
      · apply List.count_pos_iff.mp
        rw [hcount 1 _ _ h1 (List.getElem?_eq_getElem _), if_pos]
        · exact hpos
        · exact ⟨hid, by push_cast; omega, by push_cast at h1'; omega⟩
    · push_cast at h; omega
  · exact absurd rfl h

/-- C60 is violated: if the run starts at another time of day (after the first second, and before the last two), everything from
the next midnight to 24 hours after the start is handed to the first two days both. -/
theorem C60_violated_part_day (files : List DFile) (hnd : (files.map DFile.name).Nodup) (ho : TimeOrdered files) (m n : Int)
    (hm : FirstTime files m) (hn : LastTime files n) (ids : List (List Nat)) (t1 t2 : Int) (days : List (List DSample))
    (hr : loopThroughDays files ids t1 t2 = some days) (hlo : 1000000 ≤ max t1 m % 86400000000)
    (hhi : max t1 m % 86400000000 < 86398000000) (x : DSample) (hx : x ∈ files.flatMap DFile.all) (hid : x.id ∈ ids)
    (h1 : max t1 m - max t1 m % 86400000000 + 86401000000 ≤ x.t) (h2 : x.t ≤ max t1 m + 86400000000) (h3 : x.t ≤ t2) :
    ∃ d0 d1, days[0]? = some d0 ∧ days[1]? = some d1 ∧ x ∈ d0 ∧ x ∈ d1 := by
  obtain ⟨hlen, hcount⟩ := loopThroughDays_count hnd ho hm hn hr
  have hpos : 0 < (files.flatMap DFile.all).count x := List.count_pos_iff.mpr hx
  have hxb : x.t ≤ min t2 n := by have := hn.2 x hx; omega
  generalize max t1 m = a at *
  generalize min t2 n = b at *
  have hnext : nextMidnight a = a - a % 86400000000 + 86400000000 + a % 1000000 := by
    unfold nextMidnight; dsimp only; omega
  have hnext2 : nextMidnight (a + 86400000000) = a - a % 86400000000 + 172800000000 + a % 1000000 := by
    unfold nextMidnight; dsimp only; omega
  have hlt : nextMidnight a < b := by omega
  have hd0 : (dayList a b)[0]? = some (a, a + 86400000000) := rfl
  obtain ⟨e, hd1, he⟩ : ∃ e, (dayList a b)[1]? = some (nextMidnight a, e) ∧ x.t ≤ e := by
    unfold dayList
    rw [moreStarts, if_pos hlt, moreEnds]
    split
    · exact ⟨_, rfl, by rw [hnext2]; omega⟩
    · exact ⟨_, rfl, hxb⟩
  have hl := (List.getElem?_eq_some_iff.mp hd1).1
  refine ⟨days[0]'(by omega), days[1]'(by omega), List.getElem?_eq_getElem _, List.getElem?_eq_getElem _, ?_, ?_⟩
  · apply List.count_pos_iff.mp
    rw [hcount 0 _ _ hd0 (List.getElem?_eq_getElem _), if_pos]
    · exact hpos
    · exact ⟨hid, by dsimp only; omega, by dsimp only; omega⟩
  · apply List.count_pos_iff.mp
    rw [hcount 1 _ _ hd1 (List.getElem?_eq_getElem _), if_pos]
    · exact hpos
    · exact ⟨hid, by dsimp only; omega, by dsimp only; omega⟩

/-! ### Example: samples every 6 hours from the start of a day, in two files, of two channels -/

def demoDayFiles : List DFile :=
  [⟨bytes "a", [⟨bytes "X", [(0, 1), (21600000000, 2), (43200000000, 3), (64800000000, 4), (86400000000, 5)]⟩]⟩,
    ⟨bytes "b", [⟨bytes "X", [(108000000000, 6), (129600000000, 7)]⟩, ⟨bytes "Y", [(108000000000, 60), (129600000000, 70)]⟩]⟩]

example : (demoDayFiles.map DFile.name).Nodup := by decide +kernel
example : TimeOrdered demoDayFiles := by unfold TimeOrdered; decide +kernel
example : FirstTime demoDayFiles 0 ∧ LastTime demoDayFiles 129600000000 := by unfold FirstTime LastTime; decide +kernel

-- the sample at midnight, 5, is in both days; the other channel in none
example : loopThroughDays demoDayFiles [bytes "X"] (-5) 999999999999 =
    some [[⟨bytes "X", 0, 1⟩, ⟨bytes "X", 21600000000, 2⟩, ⟨bytes "X", 43200000000, 3⟩, ⟨bytes "X", 64800000000, 4⟩,
      ⟨bytes "X", 86400000000, 5⟩],
      [⟨bytes "X", 86400000000, 5⟩, ⟨bytes "X", 108000000000, 6⟩, ⟨bytes "X", 129600000000, 7⟩]] := by decide +kernel

-- starting at 12:00: the samples 5, 6, 7 are in both days
example : loopThroughDays demoDayFiles [bytes "X"] 43200000000 999999999999 =
    some [[⟨bytes "X", 43200000000, 3⟩, ⟨bytes "X", 64800000000, 4⟩, ⟨bytes "X", 86400000000, 5⟩, ⟨bytes "X", 108000000000, 6⟩,
      ⟨bytes "X", 129600000000, 7⟩],
      [⟨bytes "X", 86400000000, 5⟩, ⟨bytes "X", 108000000000, 6⟩, ⟨bytes "X", 129600000000, 7⟩]] := by decide +kernel

end Gemlog
