import Verif.Model.XcorrAll
import Verif.Props.Days
import Verif.Props.Windows
import Verif.Props.Xcorr
import Verif.Props.Database

/-!
# C109: a gap in one channel costs only the windows it lies in
-/

namespace Gemlog

/-! ## Specification -/

/-- All samples of the files. -/
def samplesIn (files : List DFile) : List DSample := files.flatMap DFile.all

/-- Converted data: files with different names, the samples of each trace in order, those of a channel at multiples of the interval `d` from each
other, and no two different values for one channel and time. -/
structure GoodFiles (d : Int) (files : List DFile) : Prop where
  pos : 0 < d
  names : (files.map DFile.name).Nodup
  ordered : TimeOrdered files
  grid : ∀ x ∈ samplesIn files, ∀ y ∈ samplesIn files, x.id = y.id → d ∣ x.t - y.t
  single : ∀ x ∈ samplesIn files, ∀ y ∈ samplesIn files, x.id = y.id → x.t = y.t → x.v = y.v

/-- A sample of the channel is missing at the time `t`: there are samples before and after, but none at that time. -/
def MissingAt (d : Int) (files : List DFile) (id : List Nat) (t : Int) : Prop :=
  (∃ x ∈ samplesIn files, x.id = id ∧ x.t < t ∧ d ∣ t - x.t) ∧ (∃ y ∈ samplesIn files, y.id = id ∧ t < y.t) ∧
    ∀ z ∈ samplesIn files, z.id = id → z.t ≠ t

/-- The traces show the samples of the channels `ids` from `lo` to `hi`, sorted by channel and time. -/
structure ShowsDay (files : List DFile) (ids : List (List Nat)) (lo hi : Int) (st : List WTrace) : Prop where
  sorted : (st.map WTrace.id).Pairwise (· < ·)
  filled : ∀ tr ∈ st, tr.samples ≠ []
  inOrder : ∀ tr ∈ st, tr.samples.Pairwise fun a b => a.1 < b.1
  exactly : ∀ (id : List Nat) (t v : Rat), (∃ tr ∈ st, tr.id = id ∧ (t, v) ∈ tr.samples) ↔
    ∃ x ∈ samplesIn files, x.id = id ∧ (x.t : Rat) / 1000000 = t ∧ x.v = v ∧ id ∈ ids ∧ lo ≤ x.t ∧ x.t ≤ hi

/-! ## Merging -/

theorem foldl_min_int : ∀ (l : List Int) (a : Int), (l.foldl min a ≤ a ∧ ∀ x ∈ l, l.foldl min a ≤ x) ∧ (l.foldl min a = a ∨ l.foldl min a ∈ l)
  | [], a => by simp
  | x :: l, a => by
    obtain ⟨⟨h1, h2⟩, h3⟩ := foldl_min_int l (min a x)
    rw [List.foldl_cons]
    refine ⟨⟨by omega, ?_⟩, ?_⟩
    · intro y hy
      rcases List.mem_cons.mp hy with rfl | hy
      · omega
      · exact h2 y hy
    · rcases h3 with h3 | h3
      · rcases le_total a x with h | h
        · left; rw [h3, min_eq_left h]
        · right; rw [h3, min_eq_right h]; exact List.mem_cons_self
      · right; exact List.mem_cons_of_mem _ h3

theorem foldl_max_int : ∀ (l : List Int) (a : Int), (a ≤ l.foldl max a ∧ ∀ x ∈ l, x ≤ l.foldl max a) ∧ (l.foldl max a = a ∨ l.foldl max a ∈ l)
  | [], a => by simp
  | x :: l, a => by
    obtain ⟨⟨h1, h2⟩, h3⟩ := foldl_max_int l (max a x)
    rw [List.foldl_cons]
    refine ⟨⟨by omega, ?_⟩, ?_⟩
    · intro y hy
      rcases List.mem_cons.mp hy with rfl | hy
      · omega
      · exact h2 y hy
    · rcases h3 with h3 | h3
      · rcases le_total a x with h | h
        · right; rw [h3, max_eq_right h]; exact List.mem_cons_self
        · left; rw [h3, max_eq_left h]
      · right; exact List.mem_cons_of_mem _ h3

/-- The samples of a channel are at multiples of `d` from each other. -/
def OnGrid (d : Int) (st : List MSample) : Prop := ∀ x ∈ st, ∀ y ∈ st, x.id = y.id → d ∣ x.t - y.t

theorem mem_mergeChannel {d : Int} (hd : 0 < d) {st : List MSample} (hg : OnGrid d st) (id : List Nat) (s : MSample) :
    s ∈ mergeChannel d st id ↔ s.id = id ∧ (∃ a ∈ st, a.id = id ∧ a.t ≤ s.t ∧ d ∣ s.t - a.t) ∧ (∃ b ∈ st, b.id = id ∧ s.t ≤ b.t) ∧
      s.v = valueAt st id s.t := by
  have hmem : ∀ t, t ∈ (st.filter fun s => s.id = id).map MSample.t ↔ ∃ a ∈ st, a.id = id ∧ a.t = t := by
    intro t
    simp only [List.mem_map, List.mem_filter, decide_eq_true_eq]
    constructor
    · rintro ⟨a, ⟨h1, h2⟩, h3⟩; exact ⟨a, h1, h2, h3⟩
    · rintro ⟨a, h1, h2, h3⟩; exact ⟨a, ⟨h1, h2⟩, h3⟩
  unfold mergeChannel
  cases hl : (st.filter fun s => s.id = id).map MSample.t with
  | nil =>
    rw [hl] at hmem
    simp only [List.not_mem_nil, false_iff]
    rintro ⟨-, ⟨a, h1, h2, -⟩, -⟩
    simpa using (hmem a.t).mpr ⟨a, h1, h2, rfl⟩
  | cons t ts =>
    rw [hl] at hmem
    dsimp only
    obtain ⟨⟨hmin1, hmin2⟩, hmin3⟩ := foldl_min_int ts t
    obtain ⟨⟨hmax1, hmax2⟩, hmax3⟩ := foldl_max_int ts t
    generalize ha : ts.foldl min t = a at hmin1 hmin2 hmin3
    generalize hb : ts.foldl max t = b at hmax1 hmax2 hmax3
    obtain ⟨A, hA, hAid, rfl⟩ := (hmem a).mp (by rcases hmin3 with h | h <;> simp [h])
    obtain ⟨B, hB, hBid, rfl⟩ := (hmem b).mp (by rcases hmax3 with h | h <;> simp [h])
    have hlo : ∀ c ∈ st, c.id = id → A.t ≤ c.t := by
      intro c hc hci
      rcases List.mem_cons.mp ((hmem c.t).mpr ⟨c, hc, hci, rfl⟩) with h | h
      · omega
      · exact hmin2 _ h
    have hhi : ∀ c ∈ st, c.id = id → c.t ≤ B.t := by
      intro c hc hci
      rcases List.mem_cons.mp ((hmem c.t).mpr ⟨c, hc, hci, rfl⟩) with h | h
      · omega
      · exact hmax2 _ h
    have hAB := hlo B hB hBid
    constructor
    · intro h
      obtain ⟨k, hk, rfl⟩ := List.mem_map.mp h
      rw [List.mem_range] at hk
      have hk' : (k : Int) ≤ (B.t - A.t) / d := by
        have := Int.ediv_nonneg (a := B.t - A.t) (b := d) (by omega) hd.le
        omega
      have hkd : (k : Int) * d ≤ B.t - A.t := (Int.mul_le_mul_of_nonneg_right hk' hd.le).trans (Int.ediv_mul_le _ hd.ne')
      have hk0 : 0 ≤ (k : Int) * d := by positivity
      exact ⟨rfl, ⟨A, hA, hAid, by dsimp only; omega, ⟨k, by dsimp only; ring⟩⟩, ⟨B, hB, hBid, by dsimp only; omega⟩, rfl⟩
    · rintro ⟨h1, ⟨c, hc, hci, hct, hcd⟩, ⟨e, he, hei, het⟩, hv⟩
      have hdiv : d ∣ s.t - A.t := by
        have := (hg c hc A hA (by rw [hci, hAid]))
        have := Int.dvd_add hcd this
        rwa [show s.t - c.t + (c.t - A.t) = s.t - A.t by ring] at this
      obtain ⟨k, hk⟩ := hdiv
      have h2 := hlo c hc hci
      have h3 := hhi e he hei
      have hk0 : 0 ≤ k := by
        by_contra hneg
        have : d * k ≤ d * (-1) := Int.mul_le_mul_of_nonneg_left (by omega) hd.le
        omega
      have hkle : k ≤ (B.t - A.t) / d := by
        rw [Int.le_ediv_iff_mul_le hd]
        have : k * d = d * k := by ring
        omega
      refine List.mem_map.mpr ⟨k.toNat, by rw [List.mem_range]; omega, ?_⟩
      have ht : A.t + (k.toNat : Int) * d = s.t := by
        rw [Int.toNat_of_nonneg hk0]
        have : k * d = d * k := by ring
        omega
      rw [ht, ← hv]
      cases s
      simp only [MSample.mk.injEq, and_true] at *
      exact h1.symm

theorem mem_mergeMasked {d : Int} (hd : 0 < d) {st : List MSample} (hg : OnGrid d st) (s : MSample) :
    s ∈ mergeMasked d st ↔ (∃ a ∈ st, a.id = s.id ∧ a.t ≤ s.t ∧ d ∣ s.t - a.t) ∧ (∃ b ∈ st, b.id = s.id ∧ s.t ≤ b.t) ∧
      s.v = valueAt st s.id s.t := by
  unfold mergeMasked
  rw [List.mem_flatMap]
  constructor
  · rintro ⟨id, -, h⟩
    obtain ⟨rfl, h⟩ := (mem_mergeChannel hd hg id s).mp h
    exact h
  · rintro h
    refine ⟨s.id, ?_, (mem_mergeChannel hd hg _ s).mpr ⟨rfl, h⟩⟩
    obtain ⟨⟨a, ha, hi, -⟩, -⟩ := h
    rw [(sortNames_perm _).mem_iff, mem_uniqueIn]
    exact List.mem_map.mpr ⟨a, ha, hi⟩

/-- One value for each channel and time. -/
def OneValue (st : List MSample) : Prop := ∀ x ∈ st, ∀ y ∈ st, x.id = y.id → x.t = y.t → ∀ v w, x.v = some v → y.v = some w → v = w

theorem valueAt_some {st : List MSample} (h1 : OneValue st) (id : List Nat) (t : Int) (v : Rat) :
    valueAt st id t = some v ↔ (⟨id, t, some v⟩ : MSample) ∈ st := by
  unfold valueAt
  constructor
  · intro h
    obtain ⟨s, hs, hv⟩ := List.exists_of_findSome?_eq_some h
    split at hv
    · rename_i hc
      obtain ⟨i, u, w⟩ := s
      obtain ⟨rfl, rfl⟩ := hc
      dsimp only at hv
      rw [← hv]
      exact hs
    · simp at hv
  · intro h
    cases hf : st.findSome? fun s => if s.id = id ∧ s.t = t then s.v else none with
    | none =>
      rw [List.findSome?_eq_none_iff] at hf
      simpa using hf _ h
    | some w =>
      obtain ⟨s, hs, hv⟩ := List.exists_of_findSome?_eq_some hf
      split at hv
      · rename_i hc
        rw [h1 s hs _ h hc.1 hc.2 w v hv rfl]
      · simp at hv

/-- Merging keeps the samples and adds masked ones only. -/
theorem mergeMasked_real {d : Int} (hd : 0 < d) {st : List MSample} (hg : OnGrid d st) (h1 : OneValue st) (id : List Nat) (t : Int) (v : Rat) :
    (⟨id, t, some v⟩ : MSample) ∈ mergeMasked d st ↔ (⟨id, t, some v⟩ : MSample) ∈ st := by
  rw [mem_mergeMasked hd hg]
  dsimp only
  constructor
  · rintro ⟨-, -, h⟩
    exact (valueAt_some h1 id t v).mp h.symm
  · intro h
    exact ⟨⟨_, h, rfl, le_refl _, by simp⟩, ⟨_, h, rfl, le_refl _⟩, ((valueAt_some h1 id t v).mpr h).symm⟩

/-! ## From day to day -/

/-- By channel, then by time. -/
def Earlier (a b : MSample) : Prop := a.id < b.id ∨ (a.id = b.id ∧ a.t < b.t)

theorem mergeMasked_sorted {d : Int} (hd : 0 < d) {st : List MSample} (hg : OnGrid d st) : (mergeMasked d st).Pairwise Earlier := by
  unfold mergeMasked
  rw [List.pairwise_flatMap]
  constructor
  · intro id _
    unfold mergeChannel
    split
    · exact List.Pairwise.nil
    · rw [List.pairwise_map]
      apply List.pairwise_lt_range.imp
      intro i j hij
      refine Or.inr ⟨rfl, ?_⟩
      dsimp only
      have : (i : Int) * d < (j : Int) * d := Int.mul_lt_mul_of_pos_right (by exact_mod_cast hij) hd
      omega
  · have h1 := sortNames_sorted (uniqueIn (st.map MSample.id))
    have h2 : (sortNames (uniqueIn (st.map MSample.id))).Nodup := (sortNames_perm _).nodup_iff.mpr (uniqueIn_nodup _)
    refine (h1.and h2).imp ?_
    rintro a b ⟨hle, hne⟩ x hx y hy
    left
    rw [((mem_mergeChannel hd hg a x).mp hx).1, ((mem_mergeChannel hd hg b y).mp hy).1]
    exact lt_of_le_of_ne hle hne

/-- How the stream with masked samples and the plain samples of `Model/Days.lean` belong together. -/
structure SimDays (d : Int) (files : List DFile) (st : List MSample) (plain : List DSample) : Prop where
  real : ∀ id t v, (⟨id, t, some v⟩ : MSample) ∈ st ↔ (⟨id, t, v⟩ : DSample) ∈ plain
  sub : ∀ x ∈ plain, x ∈ samplesIn files
  between : ∀ s ∈ st, (∃ a ∈ samplesIn files, a.id = s.id ∧ a.t ≤ s.t ∧ d ∣ s.t - a.t) ∧ ∃ b ∈ samplesIn files, b.id = s.id ∧ s.t ≤ b.t

theorem SimDays.onGrid {d : Int} {files : List DFile} {st : List MSample} {plain : List DSample} (h : SimDays d files st plain)
    (hf : GoodFiles d files) : OnGrid d st := by
  intro x hx y hy hid
  obtain ⟨⟨a, ha, hai, -, had⟩, -⟩ := h.between x hx
  obtain ⟨⟨b, hb, hbi, -, hbd⟩, -⟩ := h.between y hy
  have := hf.grid a ha b hb (by rw [hai, hbi, hid])
  have h1 := Int.dvd_sub (Int.dvd_add had this) hbd
  rwa [show x.t - a.t + (a.t - b.t) - (y.t - b.t) = x.t - y.t by ring] at h1

theorem SimDays.oneValue {d : Int} {files : List DFile} {st : List MSample} {plain : List DSample} (h : SimDays d files st plain)
    (hf : GoodFiles d files) : OneValue st := by
  rintro ⟨i, t, x⟩ hx ⟨i', t', y⟩ hy hid ht v w hv hw
  dsimp only at hid ht hv hw
  subst hid ht hv hw
  exact hf.single _ (h.sub _ ((h.real _ _ _).mp hx)) _ (h.sub _ ((h.real _ _ _).mp hy)) rfl rfl

theorem SimDays.merge {d : Int} {files : List DFile} {st : List MSample} {plain : List DSample} (h : SimDays d files st plain)
    (hf : GoodFiles d files) : SimDays d files (mergeMasked d st) plain where
  real id t v := by rw [mergeMasked_real hf.pos (h.onGrid hf) (h.oneValue hf), h.real]
  sub := h.sub
  between s hs := by
    obtain ⟨⟨a, ha, hai, hat, had⟩, ⟨b, hb, hbi, hbt⟩, -⟩ := (mem_mergeMasked hf.pos (h.onGrid hf) s).mp hs
    obtain ⟨⟨a', ha', hai', hat', had'⟩, -⟩ := h.between a ha
    obtain ⟨-, ⟨b', hb', hbi', hbt'⟩⟩ := h.between b hb
    refine ⟨⟨a', ha', by rw [hai', hai], by omega, ?_⟩, ⟨b', hb', by rw [hbi', hbi], by omega⟩⟩
    have := Int.dvd_add had had'
    rwa [show s.t - a.t + (a.t - a'.t) = s.t - a'.t by ring] at this

theorem SimDays.filter {d : Int} {files : List DFile} {st : List MSample} {plain : List DSample} (h : SimDays d files st plain)
    (p : List Nat → Int → Bool) : SimDays d files (st.filter fun x => p x.id x.t) (plain.filter fun x => p x.id x.t) where
  real id t v := by simp only [List.mem_filter, h.real]
  sub x hx := h.sub x (List.mem_filter.mp hx).1
  between s hs := h.between s (List.mem_filter.mp hs).1

theorem readNew_start (files : List DFile) : ∀ (names : List (List Nat)) (st : List DSample) (done : List (List Nat)),
    readNew files names (st, done) = (st ++ (readNew files names ([], done)).1, (readNew files names ([], done)).2)
  | [], st, done => by simp [readNew]
  | n :: rest, st, done => by
    rw [readNew, readNew]
    split
    · exact readNew_start files rest st done
    · split
      · rename_i f _
        rw [readNew_start files rest (st ++ f.all), readNew_start files rest ([] ++ f.all)]
        simp
      · exact readNew_start files rest st done

theorem readNew_sub (files : List DFile) : ∀ (names : List (List Nat)) (st : List DSample) (done : List (List Nat)),
    (∀ x ∈ st, x ∈ samplesIn files) → ∀ x ∈ (readNew files names (st, done)).1, x ∈ samplesIn files
  | [], st, done, h => h
  | n :: rest, st, done, h => by
    rw [readNew]
    split
    · exact readNew_sub files rest st done h
    · split
      · rename_i f hf
        refine readNew_sub files rest _ _ ?_
        intro x hx
        rcases List.mem_append.mp hx with hx | hx
        · exact h x hx
        · exact List.mem_flatMap.mpr ⟨f, List.mem_of_find?_eq_some hf, hx⟩
      · exact readNew_sub files rest st done h

/-- What is handed to the analysis of a day, compared with the plain samples. -/
structure DayRel (d : Int) (files : List DFile) (ids : List (List Nat)) (t2 : Int) (day : Int × Int) (sl : List MSample) (out : List DSample) : Prop where
  sim : SimDays d files sl out
  within : ∀ s ∈ sl, s.id ∈ ids ∧ day.1 ≤ s.t ∧ s.t ≤ min day.2 t2
  closed : ∀ x ∈ out, ∀ y ∈ out, x.id = y.id → ∀ b, x.t ≤ b → b ≤ y.t → d ∣ b - x.t → ∃ v, (⟨x.id, b, v⟩ : MSample) ∈ sl
  sorted : sl.Pairwise Earlier

theorem maskedDay_sim {d : Int} {files : List DFile} (hf : GoodFiles d files) (rows : List DRow) (ids : List (List Nat)) (t2 : Int)
    (day : Int × Int) {st : List MSample} {plain : List DSample} (h : SimDays d files st plain) (done : List (List Nat)) :
    SimDays d files (maskedDay d files rows ids t2 day (st, done)).1.1 (oneDay files rows ids t2 day (plain, done)).1.1 ∧
    (maskedDay d files rows ids t2 day (st, done)).1.2 = (oneDay files rows ids t2 day (plain, done)).1.2 ∧
    DayRel d files ids t2 day (maskedDay d files rows ids t2 day (st, done)).2 (oneDay files rows ids t2 day (plain, done)).2 := by
  set names := (rows.filter fun r => decide (r.t1 ≤ day.2) && decide (day.1 ≤ r.t2)).map DRow.name with hnames
  have hnew := readNew_sub files names [] done (by simp)
  set new := readNew files names ([], done) with hnewdef
  have h0 : SimDays d files (st ++ new.1.map fun x => ⟨x.id, x.t, some x.v⟩) (plain ++ new.1) := by
    refine ⟨?_, ?_, ?_⟩
    · intro id t v
      rw [List.mem_append, List.mem_append, h.real]
      refine or_congr Iff.rfl ?_
      simp only [List.mem_map, MSample.mk.injEq, Option.some.injEq]
      constructor
      · rintro ⟨⟨i, u, w⟩, hx, rfl, rfl, rfl⟩; exact hx
      · intro hx; exact ⟨_, hx, rfl, rfl, rfl⟩
    · intro x hx
      rcases List.mem_append.mp hx with hx | hx
      · exact h.sub x hx
      · exact hnew x hx
    · intro s hs
      rcases List.mem_append.mp hs with hs | hs
      · exact h.between s hs
      · obtain ⟨x, hx, rfl⟩ := List.mem_map.mp hs
        exact ⟨⟨x, hnew x hx, rfl, le_refl _, by simp⟩, ⟨x, hnew x hx, rfl, le_refl _⟩⟩
  have h1 := h0.merge hf
  have h2 := (h1.filter fun _ t => decide (day.1 ≤ t) && decide (t ≤ t2)).filter fun id _ => decide (id ∈ ids)
  have h3 := h2.filter fun _ t => decide (day.1 ≤ t) && decide (t ≤ day.2)
  have hone : oneDay files rows ids t2 day (plain, done) =
      ((((plain ++ new.1).filter fun x => decide (day.1 ≤ x.t) && decide (x.t ≤ t2)).filter fun x => decide (x.id ∈ ids), new.2),
        (((plain ++ new.1).filter fun x => decide (day.1 ≤ x.t) && decide (x.t ≤ t2)).filter fun x => decide (x.id ∈ ids)).filter
          fun x => decide (day.1 ≤ x.t) && decide (x.t ≤ day.2)) := by
    unfold oneDay
    dsimp only
    rw [readNew_start]
  rw [hone]
  refine ⟨h2, rfl, h3, ?_, ?_, ?_⟩
  · intro s hs
    obtain ⟨hs, hc⟩ := List.mem_filter.mp hs
    obtain ⟨hs, hb⟩ := List.mem_filter.mp hs
    obtain ⟨hs, ha⟩ := List.mem_filter.mp hs
    simp only [Bool.and_eq_true, decide_eq_true_eq] at ha hb hc
    exact ⟨hb, hc.1, by omega⟩
  · intro x hx y hy hid b hb1 hb2 hbd
    obtain ⟨hx, hxc⟩ := List.mem_filter.mp hx
    obtain ⟨hx, hxb⟩ := List.mem_filter.mp hx
    obtain ⟨hx, hxa⟩ := List.mem_filter.mp hx
    obtain ⟨hy, hyc⟩ := List.mem_filter.mp hy
    obtain ⟨hy, hyb⟩ := List.mem_filter.mp hy
    obtain ⟨hy, hya⟩ := List.mem_filter.mp hy
    simp only [Bool.and_eq_true, decide_eq_true_eq] at hxa hxb hxc hya hyb hyc
    refine ⟨valueAt (st ++ new.1.map fun x => ⟨x.id, x.t, some x.v⟩) x.id b,
      List.mem_filter.mpr ⟨List.mem_filter.mpr ⟨List.mem_filter.mpr ⟨(mem_mergeMasked hf.pos (h0.onGrid hf) _).mpr ⟨?_, ?_, rfl⟩, ?_⟩, ?_⟩, ?_⟩⟩
    · exact ⟨_, (h0.real x.id x.t x.v).mpr hx, rfl, hb1, hbd⟩
    · exact ⟨_, (h0.real y.id y.t y.v).mpr hy, hid.symm, hb2⟩
    · simp only [Bool.and_eq_true, decide_eq_true_eq]; omega
    · simpa using hxb
    · simp only [Bool.and_eq_true, decide_eq_true_eq]; omega
  · exact (((mergeMasked_sorted hf.pos (h0.onGrid hf)).filter _).filter _).filter _

theorem maskedLoop_rel {d : Int} {files : List DFile} (hf : GoodFiles d files) (rows : List DRow) (ids : List (List Nat)) (t2 : Int) :
    ∀ (days : List (Int × Int)) (st : List MSample) (plain : List DSample) (done : List (List Nat)), SimDays d files st plain →
      (maskedLoop d files rows ids t2 days (st, done)).length = days.length ∧
      ∀ (k : Nat) (day : Int × Int) (sl : List MSample) (out : List DSample), days[k]? = some day →
        (maskedLoop d files rows ids t2 days (st, done))[k]? = some sl → (dayLoop files rows ids t2 days (plain, done))[k]? = some out →
        DayRel d files ids t2 day sl out
  | [], st, plain, done, _ => ⟨rfl, fun k day sl out h => by simp at h⟩
  | day :: rest, st, plain, done, h => by
    obtain ⟨h1, h2, h3⟩ := maskedDay_sim hf rows ids t2 day h done
    rw [maskedLoop, dayLoop]
    obtain ⟨hl, ih⟩ := maskedLoop_rel hf rows ids t2 rest _ _ (maskedDay d files rows ids t2 day (st, done)).1.2 h1
    refine ⟨by rw [List.length_cons, List.length_cons, ← hl], ?_⟩
    intro k dy sl out hd hsl hout
    cases k with
    | zero =>
      simp only [List.getElem?_cons_zero, Option.some.injEq] at hd hsl hout
      subst hd hsl hout
      exact h3
    | succ k =>
      refine ih k dy sl out (by simpa using hd) (by simpa using hsl) ?_
      rw [h2]
      simpa using hout

/-- What is handed to the analysis of a day, in terms of the files. -/
structure SliceOf (d : Int) (files : List DFile) (ids : List (List Nat)) (lo hi : Int) (sl : List MSample) : Prop where
  real : ∀ id t v, (⟨id, t, some v⟩ : MSample) ∈ sl ↔ (⟨id, t, v⟩ : DSample) ∈ samplesIn files ∧ id ∈ ids ∧ lo ≤ t ∧ t ≤ hi
  between : ∀ s ∈ sl, (∃ a ∈ samplesIn files, a.id = s.id ∧ a.t ≤ s.t ∧ d ∣ s.t - a.t) ∧ ∃ b ∈ samplesIn files, b.id = s.id ∧ s.t ≤ b.t
  within : ∀ s ∈ sl, s.id ∈ ids ∧ lo ≤ s.t ∧ s.t ≤ hi
  closed : ∀ x ∈ samplesIn files, ∀ y ∈ samplesIn files, x.id ∈ ids → lo ≤ x.t → y.t ≤ hi → x.id = y.id → ∀ b, x.t ≤ b → b ≤ y.t → d ∣ b - x.t →
    ∃ v, (⟨x.id, b, v⟩ : MSample) ∈ sl
  sorted : sl.Pairwise Earlier

theorem loopResults_slices {V : Type} {analyse : List MSample → Except Exc (WTable V)} {d : Int} {files : List DFile} (hf : GoodFiles d files)
    {m n : Int} (hm : FirstTime files m) (hn : LastTime files n) {ids : List (List Nat)} {t1 t2 : Int} {res : DaysOut V}
    (hr : loopResults analyse d files ids t1 t2 = some res) :
    ∃ sls, res = collectDays analyse (max t1 m) sls ∧ sls.length = (dayList (max t1 m) (min t2 n)).length ∧
      ∀ (k : Nat) (day : Int × Int) (sl : List MSample), (dayList (max t1 m) (min t2 n))[k]? = some day → sls[k]? = some sl →
        SliceOf d files ids day.1 (min day.2 (min t2 n)) sl := by
  have hlt : ∃ out, loopThroughDays files ids t1 t2 = some out := by
    unfold loopResults at hr
    unfold loopThroughDays
    dsimp only at hr ⊢
    split at hr
    · simp at hr
    · rename_i h
      exact ⟨_, by rw [if_neg h]⟩
  obtain ⟨out, hout⟩ := hlt
  obtain ⟨hlen, hcount⟩ := loopThroughDays_count hf.names hf.ordered hm hn hout
  unfold loopThroughDays at hout
  unfold loopResults at hr
  dsimp only at hr hout
  rw [cutRange_eq hf.ordered hm hn] at hr hout
  dsimp only at hr hout
  split at hr
  · simp at hr
  · rename_i hk
    rw [if_neg hk] at hout
    injection hr with hr
    injection hout with hout
    set kept := keptRows (max t1 m) (min t2 n) ids (fileTable files)
    have h0 : SimDays d files [] [] := ⟨by simp, by simp, by simp⟩
    obtain ⟨hl, hrel⟩ := maskedLoop_rel hf kept ids (min t2 n) (dayList (max t1 m) (min t2 n)) [] [] [] h0
    refine ⟨_, hr.symm, hl, ?_⟩
    intro k day sl hday hsl
    obtain ⟨o, ho⟩ : ∃ o, out[k]? = some o := by
      have := (List.getElem?_eq_some_iff.mp hday).1
      exact ⟨out[k]'(by omega), List.getElem?_eq_getElem _⟩
    have hrl := hrel k day sl o hday hsl (by rw [hout]; exact ho)
    have hmem : ∀ x, x ∈ o ↔ x ∈ samplesIn files ∧ InRange ids day.1 (min day.2 (min t2 n)) x := by
      intro x
      have h := hcount k day o hday ho x
      rw [← List.count_pos_iff, h]
      by_cases hx : InRange ids day.1 (min day.2 (min t2 n)) x
      · rw [if_pos hx, List.count_pos_iff]
        exact ⟨fun h => ⟨h, hx⟩, fun h => h.1⟩
      · rw [if_neg hx]
        exact ⟨fun h => absurd h (lt_irrefl 0), fun h => absurd h.2 hx⟩
    refine ⟨?_, hrl.sim.between, hrl.within, ?_, hrl.sorted⟩
    · intro id t v
      rw [hrl.sim.real, hmem]
      rfl
    · intro x hx y hy hid h1 h2 hxy b hb1 hb2 hbd
      refine hrl.closed x ((hmem x).mpr ⟨hx, hid, h1, by omega⟩) y ((hmem y).mpr ⟨hy, by rw [← hxy]; exact hid, by omega, h2⟩) hxy b hb1 hb2 hbd

/-- A missing sample of a wanted channel, within the day, is masked. -/
theorem SliceOf.masked {d : Int} {files : List DFile} {ids : List (List Nat)} {lo hi : Int} {sl : List MSample} (h : SliceOf d files ids lo hi sl)
    {x y : DSample} (hx : x ∈ samplesIn files) (hy : y ∈ samplesIn files) (hid : x.id ∈ ids) (hxy : x.id = y.id) (hlo : lo ≤ x.t) (hhi : y.t ≤ hi) {b : Int}
    (hb1 : x.t < b) (hb2 : b < y.t) (hbd : d ∣ b - x.t) (hno : ∀ z ∈ samplesIn files, z.id = x.id → z.t ≠ b) : (sl.any fun s => s.v.isNone) = true := by
  obtain ⟨v, hv⟩ := h.closed x hx y hy hid hlo hhi hxy b hb1.le hb2.le hbd
  rw [List.any_eq_true]
  refine ⟨_, hv, ?_⟩
  cases v with
  | none => rfl
  | some v => exact absurd rfl (hno _ ((h.real _ _ _).mp hv).1 rfl)

/-- No masked samples if nothing is missing. -/
theorem SliceOf.unmasked {d : Int} {files : List DFile} {ids : List (List Nat)} {lo hi : Int} {sl : List MSample} (h : SliceOf d files ids lo hi sl)
    (hu : ∀ id ∈ ids, ∀ t, ¬ MissingAt d files id t) : ∀ s ∈ sl, ∃ v, s.v = some v := by
  intro s hs
  obtain ⟨⟨a, ha, hai, hat, had⟩, ⟨b, hb, hbi, hbt⟩⟩ := h.between s hs
  obtain ⟨hid, h1, h2⟩ := h.within s hs
  have hz : ∃ z ∈ samplesIn files, z.id = s.id ∧ z.t = s.t := by
    by_contra hno
    push Not at hno
    refine hu s.id hid s.t ⟨⟨a, ha, hai, ?_, had⟩, ⟨b, hb, hbi, ?_⟩, hno⟩
    · exact lt_of_le_of_ne hat (hno a ha hai)
    · exact lt_of_le_of_ne hbt (hno b hb hbi).symm
  obtain ⟨z, hz, hzi, hzt⟩ := hz
  have hreal := (h.real z.id z.t z.v).mpr ⟨hz, by rw [hzi]; exact hid, by omega, by omega⟩
  have : s = ⟨z.id, z.t, some z.v⟩ := by
    by_contra hne
    have hr : ∀ a b : MSample, Earlier a b → ¬ (a.id = b.id ∧ a.t = b.t) := by
      rintro a b (hab | hab) ⟨he, ht⟩
      · rw [he] at hab; exact lt_irrefl _ hab
      · omega
    have h1 : sl.Pairwise fun a b => a ≠ b → ¬ (a.id = b.id ∧ a.t = b.t) := h.sorted.imp (S := fun a b => a ≠ b → ¬ (a.id = b.id ∧ a.t = b.t))
      (by intro a b hab _; exact hr a b hab)
    have h2 : sl.Pairwise fun a b => b ≠ a → ¬ (b.id = a.id ∧ b.t = a.t) := h.sorted.imp (S := fun a b => b ≠ a → ¬ (b.id = a.id ∧ b.t = a.t))
      (by intro a b hab _ hc; exact hr a b hab ⟨hc.1.symm, hc.2.symm⟩)
    have := List.Pairwise.forall_of_forall_of_flip (R := fun a b : MSample => a ≠ b → ¬ (a.id = b.id ∧ a.t = b.t)) (l := sl)
      (fun a _ hne => absurd rfl hne) h1 h2
    exact this hs hreal hne ⟨hzi.symm, hzt.symm⟩
  exact ⟨z.v, by rw [this]⟩

theorem uniqueGo_sublist : ∀ (l seen : List (List Nat)), (uniqueGo seen l).Sublist (seen ++ l)
  | [], seen => by simp [uniqueGo]
  | x :: l, seen => by
    rw [uniqueGo]
    split
    · exact (uniqueGo_sublist l seen).trans (List.Sublist.append_left (List.sublist_cons_self x l) seen)
    · simpa using uniqueGo_sublist l (seen ++ [x])

theorem uniqueIn_sublist (l : List (List Nat)) : (uniqueIn l).Sublist l := by simpa [uniqueIn] using uniqueGo_sublist l []

/-- Without masked samples the traces show the day. -/
theorem SliceOf.shows {d : Int} {files : List DFile} {ids : List (List Nat)} {lo hi : Int} {sl : List MSample} (h : SliceOf d files ids lo hi sl)
    (hv : ∀ s ∈ sl, ∃ v, s.v = some v) : ShowsDay files ids lo hi (wavesOf sl) where
  sorted := by
    have h1 : (sl.map MSample.id).Pairwise (· ≤ ·) := by
      rw [List.pairwise_map]
      refine h.sorted.imp ?_
      rintro a b (hab | hab)
      · exact hab.le
      · exact hab.1.le
    have h2 : (wavesOf sl).map WTrace.id = uniqueIn (sl.map MSample.id) := by
      unfold wavesOf
      rw [List.map_map]
      exact (List.map_congr_left (fun _ _ => rfl)).trans (List.map_id _)
    rw [h2]
    refine ((h1.sublist (uniqueIn_sublist _)).and (uniqueIn_nodup _)).imp ?_
    rintro a b ⟨hle, hne⟩
    exact lt_of_le_of_ne hle hne
  filled tr htr := by
    obtain ⟨id, hid, rfl⟩ := List.mem_map.mp htr
    obtain ⟨s, hs, rfl⟩ := List.mem_map.mp ((mem_uniqueIn _ _).mp hid)
    intro he
    have := List.map_eq_nil_iff.mp he
    rw [List.filter_eq_nil_iff] at this
    exact this s hs (by simp)
  inOrder tr htr := by
    obtain ⟨id, hid, rfl⟩ := List.mem_map.mp htr
    dsimp only
    rw [List.pairwise_map]
    refine (List.Pairwise.and (h.sorted.filter _) (List.pairwise_of_forall_mem_list (r := fun a b : MSample => a.id = b.id) ?_)).imp ?_
    · intro a ha b hb
      have h1 := (List.mem_filter.mp ha).2
      have h2 := (List.mem_filter.mp hb).2
      simp only [decide_eq_true_eq] at h1 h2
      rw [h1, h2]
    · rintro a b ⟨hab | hab, he⟩
      · rw [he] at hab; exact absurd hab (lt_irrefl _)
      · have : (a.t : Rat) < b.t := by exact_mod_cast hab.2
        dsimp only
        linarith
  exactly id t v := by
    constructor
    · rintro ⟨tr, htr, rfl, hm⟩
      obtain ⟨id, hid, rfl⟩ := List.mem_map.mp htr
      obtain ⟨s, hs, he⟩ := List.mem_map.mp hm
      obtain ⟨hs', hsi⟩ := List.mem_filter.mp hs
      clear hs
      simp only [decide_eq_true_eq] at hsi
      obtain ⟨w, hw⟩ := hv s hs'
      rw [hw] at he
      simp only [Option.getD_some, Prod.mk.injEq] at he
      obtain ⟨i, u, x⟩ := s
      dsimp only at hw hsi he
      subst hw hsi
      obtain ⟨h1, h2, h3, h4⟩ := (h.real _ _ _).mp hs'
      exact ⟨_, h1, rfl, he.1, he.2, h2, h3, h4⟩
    · rintro ⟨x, hx, rfl, rfl, rfl, hid, h1, h2⟩
      have hs := (h.real x.id x.t x.v).mpr ⟨hx, hid, h1, h2⟩
      refine ⟨_, List.mem_map.mpr ⟨x.id, (mem_uniqueIn _ _).mpr (List.mem_map.mpr ⟨_, hs, rfl⟩), rfl⟩, rfl, ?_⟩
      exact List.mem_map.mpr ⟨_, List.mem_filter.mpr ⟨hs, by simp⟩, rfl⟩

/-! ## The table of all days -/

/-- The rows of a day: the middle of each window and the results for it; an error if there are no windows or the analysis of one of them fails. -/
def windowRows {V : Type} (f : List WTrace → Except Exc (List (List Nat × V))) (win overlap : Rat) (st : List WTrace) :
    Except Exc (List (Rat × List (List Nat × V))) :=
  (windowStarts st win overlap).bind fun starts => starts.mapM fun s => (f (windowData st win s)).map fun w => (s + win / 2, w)

/-- The names of the results of a window are different, and none of them is `t_mid`. -/
def PlainNames {V : Type} (f : List WTrace → Except Exc (List (List Nat × V))) : Prop :=
  ∀ st w, f st = .ok w → (w.map Prod.fst).Nodup ∧ bytes "t_mid" ∉ w.map Prod.fst

theorem windowLoop_rows {V : Type} (f : List WTrace → Except Exc (List (List Nat × V))) (hf : PlainNames f) (st : List WTrace) (win : Rat) :
    ∀ (starts : List Rat) (t : WTable V) (ws : List (List (List Nat × V))) (mids : List Rat), Holds t ws mids →
      (∃ e, windowLoop f st win ws.length t starts = .error e ∧
        ∃ e', (starts.mapM fun s => (f (windowData st win s)).map fun w => (s + win / 2, w)) = .error e') ∨
      ∃ r rows, windowLoop f st win ws.length t starts = .ok r ∧
        (starts.mapM fun s => (f (windowData st win s)).map fun w => (s + win / 2, w)) = .ok rows ∧
        Holds r (ws ++ rows.map Prod.snd) (mids ++ rows.map Prod.fst)
  | [], t, ws, mids, h => Or.inr ⟨t, [], rfl, rfl, by simpa using h⟩
  | s :: rest, t, ws, mids, h => by
    rw [windowLoop, List.mapM_cons]
    cases hfs : f (windowData st win s) with
    | error e => exact Or.inl ⟨e, rfl, e, rfl⟩
    | ok w =>
      dsimp only
      obtain ⟨hnd, ht⟩ := hf _ _ hfs
      have hlen : ws.length + 1 = (ws ++ [w]).length := by simp
      rw [hlen]
      rcases windowLoop_rows f hf st win rest _ (ws ++ [w]) (mids ++ [s + win / 2]) (putWindow_holds h w _ hnd ht) with
        ⟨e, h1, e', h2⟩ | ⟨r, rows, h1, h2, h3⟩
      · exact Or.inl ⟨e, h1, e', by rw [h2]; rfl⟩
      · exact Or.inr ⟨r, (s + win / 2, w) :: rows, h1, by rw [h2]; rfl, by simpa using h3⟩

/-- A day has a table if and only if it has rows, and the table holds the rows. -/
theorem applyWindows_rows {V : Type} (f : List WTrace → Except Exc (List (List Nat × V))) (hf : PlainNames f) (st : List WTrace) (win overlap : Rat) :
    ((applyWindows f st win overlap).toOption = none ∧ (windowRows f win overlap st).toOption = none) ∨
    ∃ r rows, applyWindows f st win overlap = .ok r ∧ windowRows f win overlap st = .ok rows ∧ Holds r (rows.map Prod.snd) (rows.map Prod.fst) := by
  unfold applyWindows windowRows
  cases windowStarts st win overlap with
  | error e => exact Or.inl ⟨rfl, rfl⟩
  | ok starts =>
    have h0 : Holds (V := V) [(bytes "t_mid", [])] [] [] := by
      constructor
      · rfl
      · intro key hk
        rw [List.lookup_cons, beq_eq_false_iff_ne.mpr hk]
        simp
    rcases windowLoop_rows f hf st win starts _ [] [] h0 with ⟨e, h1, e', h2⟩ | ⟨r, rows, h1, h2, h3⟩
    · left
      refine ⟨?_, ?_⟩
      · dsimp only; rw [show (0 : Nat) = ([] : List (List (List Nat × V))).length from rfl, h1]; rfl
      · simp only [Except.bind]; rw [h2]; rfl
    · right
      exact ⟨r, rows, h1, h2, by simpa using h3⟩

theorem lookup_map_keys {α : Type} (g : List Nat → α) (key : List Nat) : ∀ keys : List (List Nat),
    (keys.map fun k => (k, g k)).lookup key = if key ∈ keys then some (g key) else none
  | [] => by simp
  | k :: keys => by
    rw [List.map_cons, List.lookup_cons]
    by_cases h : key = k
    · subst h; simp
    · rw [beq_eq_false_iff_ne.mpr h, lookup_map_keys g key keys]
      simp [h]

theorem Holds.cells {V : Type} {t : WTable V} {ws : List (List (List Nat × V))} {mids : List Rat} (h : Holds t ws mids) (hl : ws.length = mids.length)
    {key : List Nat} (hk : key ≠ bytes "t_mid") : t.cells key = ws.map (cellOf key) := by
  have hh : t.height = mids.length := by unfold WTable.height; rw [h.1]; simp
  unfold WTable.cells
  rw [h.2 key hk]
  split
  · rfl
  · rename_i hno
    rw [Option.getD_none, hh, ← hl]
    symm
    rw [List.eq_replicate_iff]
    refine ⟨by simp, ?_⟩
    intro c hc
    obtain ⟨w, hw, rfl⟩ := List.mem_map.mp hc
    exact cellOf_absent fun hm => hno ⟨w, hw, hm⟩

theorem Holds.has_key {V : Type} {t : WTable V} {ws : List (List (List Nat × V))} {mids : List Rat} (h : Holds t ws mids) {key : List Nat}
    (hk : key ≠ bytes "t_mid") : key ∈ t.map Prod.fst ↔ ∃ w ∈ ws, key ∈ w.map Prod.fst := by
  have hl := h.2 key hk
  have hiff := lookup_none_iff key t
  split at hl
  · rename_i hex
    refine ⟨fun _ => hex, fun _ => ?_⟩
    by_contra hno
    rw [hiff.mpr hno] at hl
    simp at hl
  · rename_i hex
    exact ⟨fun hm => absurd hm (hiff.mp hl), fun he => absurd he hex⟩

/-- Joined tables hold the rows of all of them. -/
theorem joinTables_holds {V : Type} {ts : List (WTable V)} {parts : List (List (Rat × List (List Nat × V)))}
    (h : List.Forall₂ (fun t rows => Holds t (rows.map Prod.snd) (rows.map Prod.fst)) ts parts) (hne : ts ≠ []) :
    Holds (joinTables ts) (parts.flatten.map Prod.snd) (parts.flatten.map Prod.fst) := by
  have hmid : ts.flatMap (fun t => t.cells (bytes "t_mid")) = (parts.flatten.map Prod.fst).map WCell.time := by
    clear hne
    induction h with
    | nil => rfl
    | cons h1 h2 ih =>
      rw [List.flatMap_cons, ih, List.flatten_cons, List.map_append, List.map_append]
      congr 1
      unfold WTable.cells
      rw [h1.1]
      rfl
  have hkey : ∀ key, key ≠ bytes "t_mid" → ts.flatMap (fun t => t.cells key) = (parts.flatten.map Prod.snd).map (cellOf key) := by
    intro key hk
    clear hne hmid
    induction h with
    | nil => rfl
    | cons h1 h2 ih =>
      rw [List.flatMap_cons, ih, List.flatten_cons, List.map_append, List.map_append, h1.cells (by simp) hk]
  have hin : ∀ key, key ≠ bytes "t_mid" →
      (key ∈ ts.flatMap (fun t => t.map Prod.fst) ↔ ∃ w ∈ parts.flatten.map Prod.snd, key ∈ w.map Prod.fst) := by
    intro key hk
    clear hne hmid hkey
    induction h with
    | nil => simp
    | cons h1 h2 ih =>
      rw [List.flatMap_cons, List.mem_append, ih, List.flatten_cons, List.map_append]
      rw [h1.has_key hk]
      constructor
      · rintro (⟨w, hw, hm⟩ | ⟨w, hw, hm⟩)
        · exact ⟨w, List.mem_append_left _ hw, hm⟩
        · exact ⟨w, List.mem_append_right _ hw, hm⟩
      · rintro ⟨w, hw, hm⟩
        rcases List.mem_append.mp hw with hw | hw
        · exact Or.inl ⟨w, hw, hm⟩
        · exact Or.inr ⟨w, hw, hm⟩
  constructor
  · unfold joinTables
    rw [lookup_map_keys (fun key => ts.flatMap fun t => t.cells key), if_pos, hmid]
    rw [mem_uniqueIn]
    cases h with
    | nil => exact absurd rfl hne
    | cons h1 h2 =>
      rw [List.flatMap_cons, List.mem_append]
      left
      by_contra hno
      have := (lookup_none_iff _ _).mpr hno
      rw [h1.1] at this
      simp at this
  · intro key hk
    unfold joinTables
    rw [lookup_map_keys (fun key => ts.flatMap fun t => t.cells key), hkey key hk]
    exact if_congr ((mem_uniqueIn _ _).trans (hin key hk)) rfl rfl

/-! ## C109 -/

theorem oneDayTable_masked {V : Type} (process : List WTrace → List WTrace) (f : List WTrace → Except Exc (List (List Nat × V))) (win overlap : Rat)
    {sl : List MSample} (h : (sl.any fun s => s.v.isNone) = true) : oneDayTable process f win overlap sl = .error .other := by
  unfold oneDayTable
  rw [if_pos h]

theorem oneDayTable_whole {V : Type} (process : List WTrace → List WTrace) (f : List WTrace → Except Exc (List (List Nat × V))) (win overlap : Rat)
    {sl : List MSample} (h : ∀ s ∈ sl, ∃ v, s.v = some v) :
    oneDayTable process f win overlap sl = applyWindows f (process (wavesOf sl)) win overlap := by
  unfold oneDayTable
  rw [if_neg]
  rw [Bool.not_eq_true, List.any_eq_false]
  intro s hs
  obtain ⟨v, hv⟩ := h s hs
  simp [hv]

/-- **C109, complete channels.** If no sample of the chosen channels is missing between its first and its last, the table returned holds the
rows of all days whose windows can be analysed, one after the other; each day's rows are those of exactly the samples that the files have
for the chosen channels on this day. -/
theorem C109_complete {V : Type} (process : List WTrace → List WTrace) (f : List WTrace → Except Exc (List (List Nat × V))) (hp : PlainNames f)
    (win overlap : Rat) (d : Int) (files : List DFile) (hf : GoodFiles d files) (m n : Int) (hm : FirstTime files m) (hn : LastTime files n)
    (ids : List (List Nat)) (t1 t2 : Int) (res : DaysOut V) (hr : loopResults (oneDayTable process f win overlap) d files ids t1 t2 = some res)
    (hu : ∀ id ∈ ids, ∀ t, ¬ MissingAt d files id t) :
    ∃ sts : List (List WTrace), sts.length = (dayList (max t1 m) (min t2 n)).length ∧
      (∀ (k : Nat) (day : Int × Int) (st : List WTrace), (dayList (max t1 m) (min t2 n))[k]? = some day → sts[k]? = some st →
        ShowsDay files ids day.1 (min day.2 (min t2 n)) st) ∧
      (res.table = none ↔ ∀ st ∈ sts, (windowRows f win overlap (process st)).toOption = none) ∧
      ∀ t, res.table = some t →
        Holds t ((sts.flatMap fun st => (windowRows f win overlap (process st)).toOption.getD []).map Prod.snd)
          ((sts.flatMap fun st => (windowRows f win overlap (process st)).toOption.getD []).map Prod.fst) := by
  obtain ⟨sls, rfl, hlen, hsl⟩ := loopResults_slices hf hm hn hr
  have hv : ∀ sl ∈ sls, ∀ s ∈ sl, ∃ v, s.v = some v := by
    intro sl h
    obtain ⟨k, hk, rfl⟩ := List.getElem_of_mem h
    exact (hsl k _ _ (List.getElem?_eq_getElem (by omega)) (List.getElem?_eq_getElem hk)).unmasked hu
  refine ⟨sls.map wavesOf, by simpa using hlen, ?_, ?_⟩
  · intro k day st hday hst
    rw [List.getElem?_map] at hst
    cases hk : sls[k]? with
    | none => rw [hk] at hst; simp at hst
    | some sl =>
      rw [hk] at hst
      simp only [Option.map_some, Option.some.injEq] at hst
      subst hst
      exact (hsl k day sl hday hk).shows (hv sl (List.mem_of_getElem? hk))
  · have hmain : ∀ sls : List (List MSample), (∀ sl ∈ sls, ∀ s ∈ sl, ∃ v, s.v = some v) →
        ((sls.map fun sl => (oneDayTable process f win overlap sl).toOption).filterMap id = [] ↔
          ∀ st ∈ sls.map wavesOf, (windowRows f win overlap (process st)).toOption = none) ∧
        ∃ parts : List (List (Rat × List (List Nat × V))),
          parts.flatten = (sls.map wavesOf).flatMap (fun st => (windowRows f win overlap (process st)).toOption.getD []) ∧
          List.Forall₂ (fun t rows => Holds t (rows.map Prod.snd) (rows.map Prod.fst))
            ((sls.map fun sl => (oneDayTable process f win overlap sl).toOption).filterMap id) parts := by
      intro sls
      induction sls with
      | nil => intro _; exact ⟨by simp, [], rfl, List.Forall₂.nil⟩
      | cons sl sls ih =>
        intro hv
        obtain ⟨h1, parts, h2, h3⟩ := ih fun sl h => hv sl (List.mem_cons_of_mem _ h)
        have hw := oneDayTable_whole process f win overlap (hv sl List.mem_cons_self)
        rcases applyWindows_rows f hp (process (wavesOf sl)) win overlap with ⟨ha, hb⟩ | ⟨r, rows, ha, hb, hc⟩
        · refine ⟨?_, parts, ?_, ?_⟩
          · rw [List.map_cons, hw, ha, List.filterMap_cons_none rfl, h1]
            simp [hb]
          · rw [List.map_cons, List.flatMap_cons, hb, h2]; rfl
          · rw [List.map_cons, hw, ha, List.filterMap_cons_none rfl]; exact h3
        · have ha' : (applyWindows f (process (wavesOf sl)) win overlap).toOption = some r := by rw [ha]; rfl
          refine ⟨?_, rows :: parts, ?_, ?_⟩
          · rw [List.map_cons, hw, ha', List.filterMap_cons_some (f := id) (b := r) rfl]
            simp [hb, Except.toOption]
          · rw [List.map_cons, List.flatMap_cons, hb, List.flatten_cons, h2]; rfl
          · rw [List.map_cons, hw, ha', List.filterMap_cons_some (f := id) (b := r) rfl]; exact List.Forall₂.cons hc h3
    obtain ⟨h1, parts, h2, h3⟩ := hmain sls hv
    unfold collectDays
    dsimp only
    refine ⟨?_, ?_⟩
    · rw [← h1]
      split
      · rename_i h; exact ⟨fun _ => h, fun _ => rfl⟩
      · rename_i h; exact ⟨fun hc => absurd hc (by simp), fun hc => absurd hc h⟩
    · intro t ht
      split at ht
      · simp at ht
      · rename_i h
        injection ht with ht
        rw [← ht, ← h2]
        exact joinTables_holds h3 h

/-- **C109 is violated.** A single sample of a single chosen channel missing on a day, between two samples of that day: the day is skipped, with all its
windows and all channels, whatever the analysis. -/
theorem C109_violated_day {V : Type} (process : List WTrace → List WTrace) (f : List WTrace → Except Exc (List (List Nat × V)))
    (win overlap : Rat) (d : Int) (files : List DFile) (hf : GoodFiles d files) (m n : Int) (hm : FirstTime files m) (hn : LastTime files n)
    (ids : List (List Nat)) (t1 t2 : Int) (res : DaysOut V) (hr : loopResults (oneDayTable process f win overlap) d files ids t1 t2 = some res)
    (k : Nat) (day : Int × Int) (hday : (dayList (max t1 m) (min t2 n))[k]? = some day) (x y : DSample) (hx : x ∈ samplesIn files) (hy : y ∈ samplesIn files)
    (hid : x.id ∈ ids) (hxy : x.id = y.id) (hlo : day.1 ≤ x.t) (hhi : y.t ≤ min day.2 (min t2 n)) (b : Int) (hb1 : x.t < b) (hb2 : b < y.t)
    (hbd : d ∣ b - x.t) (hno : ∀ z ∈ samplesIn files, z.id = x.id → z.t ≠ b) :
    res.days[k]? = some none := by
  obtain ⟨sls, rfl, hlen, hsl⟩ := loopResults_slices hf hm hn hr
  have hk := (List.getElem?_eq_some_iff.mp hday).1
  have hs := hsl k day (sls[k]'(by omega)) hday (List.getElem?_eq_getElem _)
  have := oneDayTable_masked process f win overlap (hs.masked hx hy hid hxy hlo hhi hb1 hb2 hbd hno)
  unfold collectDays
  dsimp only
  rw [List.getElem?_map, List.getElem?_eq_getElem (by omega : k < sls.length), Option.map_some, this]
  rfl

/-- **C109 is violated.** If the data asked for lie within a day, such a sample makes the whole analysis fail: nothing is returned, and the command
`waveform_calc_lags` ends with an exception and writes no file. -/
theorem C109_violated_none {V : Type} (process : List WTrace → List WTrace) (f : List WTrace → Except Exc (List (List Nat × V)))
    (win overlap : Rat) (d : Int) (files : List DFile) (hf : GoodFiles d files) (m n : Int) (hm : FirstTime files m) (hn : LastTime files n)
    (ids : List (List Nat)) (t1 t2 : Int) (res : DaysOut V) (hr : loopResults (oneDayTable process f win overlap) d files ids t1 t2 = some res)
    (hone : min t2 n ≤ nextMidnight (max t1 m)) (x y : DSample) (hx : x ∈ samplesIn files) (hy : y ∈ samplesIn files)
    (hid : x.id ∈ ids) (hxy : x.id = y.id) (hlo : t1 ≤ x.t) (hhi : y.t ≤ t2) (h24 : y.t ≤ max t1 m + 86400000000) (b : Int) (hb1 : x.t < b) (hb2 : b < y.t)
    (hbd : d ∣ b - x.t) (hno : ∀ z ∈ samplesIn files, z.id = x.id → z.t ≠ b) :
    res.table = none ∧ ∀ (isTime : List Nat → Bool) (writable : List Nat → Bool) (fs : FileSys) (a : LagArgs) (print : WTable V → List Nat),
      (xcorrTerminal isTime (fun _ => lagText print (some res)) writable fs a).1 ≠ none ∧
      (xcorrTerminal isTime (fun _ => lagText print (some res)) writable fs a).2 = fs := by
  have hdl : dayList (max t1 m) (min t2 n) = [(max t1 m, max t1 m + 86400000000)] := by
    unfold dayList
    rw [moreStarts, if_neg (by omega)]
    simp
  have h0 := C109_violated_day process f win overlap d files hf m n hm hn ids t1 t2 res hr 0 _ (by rw [hdl]; rfl) x y hx hy hid hxy
    (by have := hm.2 x hx; dsimp only; omega) (by have := hn.2 y hy; dsimp only; omega) b hb1 hb2 hbd hno
  obtain ⟨sls, hres, hlen, -⟩ := loopResults_slices hf hm hn hr
  have htab : res.table = none := by
    have hd : res.days = [none] := by
      have hl : res.days.length = 1 := by rw [hres]; unfold collectDays; dsimp only; rw [List.length_map, hlen, hdl]; rfl
      cases hc : res.days with
      | nil => rw [hc] at hl; simp at hl
      | cons o l =>
        rw [hc] at hl h0
        simp only [List.length_cons, Nat.add_eq_right, List.length_eq_zero_iff] at hl
        simp only [List.getElem?_cons_zero, Option.some.injEq] at h0
        rw [hl, h0]
    rw [hres] at hd ⊢
    unfold collectDays at hd ⊢
    dsimp only at hd ⊢
    rw [hd]
    rfl
  refine ⟨htab, ?_⟩
  intro isTime writable fs a print
  have hl : lagText print (some res) = .error .other := by unfold lagText; dsimp only; rw [htab]; rfl
  unfold xcorrTerminal
  cases a.output with
  | none => simp
  | some out =>
    dsimp only
    rw [hl]
    split
    · simp
    · split <;> simp

/-- **C109 is violated for the messages.** Every message about a skipped day names the beginning of the run, which is in no later day. -/
theorem C109_violated_message {V : Type} (analyse : List MSample → Except Exc (WTable V)) (d : Int) (files : List DFile) (hf : GoodFiles d files)
    (m n : Int) (hm : FirstTime files m) (hn : LastTime files n) (ids : List (List Nat)) (t1 t2 : Int) (res : DaysOut V)
    (hr : loopResults analyse d files ids t1 t2 = some res) :
    res.messages.length = (res.days.filter Option.isNone).length ∧
    ∀ msg ∈ res.messages, ∀ (k : Nat) (day : Int × Int), 0 < k → (dayList (max t1 m) (min t2 n))[k]? = some day → msg < day.1 := by
  obtain ⟨sls, rfl, hlen, -⟩ := loopResults_slices hf hm hn hr
  unfold collectDays
  dsimp only
  refine ⟨by simp, ?_⟩
  intro msg hmsg k day hk hday
  obtain ⟨_, -, rfl⟩ := List.mem_map.mp hmsg
  unfold dayList at hday
  cases k with
  | zero => omega
  | succ k =>
    have h1 := (List.getElem?_zip_eq_some.mp hday).1
    rw [List.getElem?_cons_succ] at h1
    have hmem := List.mem_of_getElem? h1
    generalize (min t2 n - max t1 m).toNat + 1 = fuel at hmem
    cases fuel with
    | zero => simp [moreStarts] at hmem
    | succ fuel =>
      rw [moreStarts] at hmem
      split at hmem
      · have hgt := nextMidnight_gt (max t1 m)
        rcases List.mem_cons.mp hmem with h | h
        · omega
        · have := moreStarts_ge _ _ _ _ h
          omega
      · simp at hmem

/-! ## Examples -/

/-- Half a day of two channels, a sample every 6 hours; one sample of the channel `Y` is missing. -/
def demoGapFiles : List DFile :=
  [⟨bytes "a", [⟨bytes "X", [(0, 1), (21600000000, 2), (43200000000, 3), (64800000000, 4)]⟩]⟩,
   ⟨bytes "b", [⟨bytes "Y", [(0, 5)]⟩, ⟨bytes "Y", [(43200000000, 6), (64800000000, 7)]⟩]⟩]

/-- For the examples: how many samples there are in the window. -/
def demoCount (st : List WTrace) : Except Exc (List (List Nat × Nat)) := .ok [(bytes "n", (st.map fun tr => tr.samples.length).sum)]

theorem demoGapFiles_good : GoodFiles 21600000000 demoGapFiles where
  pos := by decide
  names := by decide +kernel
  ordered := by unfold TimeOrdered; decide +kernel
  grid := by decide +kernel
  single := by decide +kernel

theorem demoDayFiles_good : GoodFiles 21600000000 demoDayFiles where
  pos := by decide
  names := by decide +kernel
  ordered := by unfold TimeOrdered; decide +kernel
  grid := by decide +kernel
  single := by decide +kernel

example : FirstTime demoGapFiles 0 ∧ LastTime demoGapFiles 64800000000 := by unfold FirstTime LastTime; decide +kernel

-- with the channel `X` alone there are two windows of 12 hours
example : (loopResults (oneDayTable id demoCount 43200 0) 21600000000 demoGapFiles [bytes "X"] (-5) 999999999999).map
    (fun r => (r.messages, r.table.map WTable.height)) = some ([], some 2) := by decide +kernel

-- one missing sample of `Y`, and there is no result at all
example : (loopResults (oneDayTable id demoCount 43200 0) 21600000000 demoGapFiles [bytes "X", bytes "Y"] (-5) 999999999999).map
    (fun r => (r.messages, r.table.map WTable.height)) = some ([0], none) := by decide +kernel
example : MissingAt 21600000000 demoGapFiles (bytes "Y") 21600000000 :=
  ⟨⟨⟨bytes "Y", 0, 5⟩, by decide +kernel, rfl, by decide, by decide⟩, ⟨⟨bytes "Y", 43200000000, 6⟩, by decide +kernel, rfl, by decide⟩,
    by decide +kernel⟩

-- two days of complete data
example : (loopResults (oneDayTable id demoCount 21600 0) 21600000000 demoDayFiles [bytes "X"] (-5) 999999999999).map
    (fun r => (r.messages, r.table.map WTable.height)) = some ([], some 6) := by decide +kernel

example : PlainNames demoCount := by
  intro st rows h
  injection h with h
  subst h
  simp only [List.map_cons, List.map_nil]
  decide

end Gemlog
