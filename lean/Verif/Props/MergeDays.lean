import Verif.Model.MergeDays
import Verif.Props.Rename
import Verif.Props.Inventory
import Verif.Lemmas.Runs
import Mathlib.Data.List.Sort

/-!
# C69, C70: merging files day by day
-/

namespace Gemlog

/-! ## Specification -/

/-- The record in which every sample is repeated until the next. -/
def holdIn : List (Int × Int) → List (Int × Int)
  | [] => []
  | [a] => [a]
  | a :: b :: l => stamps a.1 (List.replicate (b.1 - a.1).toNat a.2) ++ holdIn (b :: l)

/-! ## Merging -/

theorem holdIn_two (a b : Int × Int) (l : List (Int × Int)) :
    holdIn (a :: b :: l) = stamps a.1 (List.replicate (b.1 - a.1).toNat a.2) ++ holdIn (b :: l) := by rw [holdIn]

theorem holdIn_stamps (k : Int) (l : List Int) : holdIn (stamps k l) = stamps k l := by
  induction l generalizing k with
  | nil => rfl
  | cons x l ih =>
    cases l with
    | nil => rfl
    | cons y l =>
      have := ih (k + 1)
      rw [stamps] at this
      rw [stamps, stamps, holdIn, this, show (k + 1 - k).toNat = 1 by omega]
      rfl

theorem holdIn_append (a b : Int × Int) (t : List (Int × Int)) (hab : a.1 < b.1) : ∀ s : List (Int × Int),
    holdIn (s ++ [a] ++ b :: t) = holdIn (s ++ [a]) ++ stamps (a.1 + 1) (List.replicate (b.1 - a.1 - 1).toNat a.2) ++ holdIn (b :: t)
  | [] => by
    rw [List.nil_append, List.singleton_append, holdIn_two, show (b.1 - a.1).toNat = (b.1 - a.1 - 1).toNat + 1 by omega, List.replicate_succ, stamps]
    rfl
  | [c] => by
    have ih := holdIn_append a b t hab []
    rw [List.nil_append] at ih
    show holdIn (c :: a :: b :: t) = holdIn [c, a] ++ _ ++ _
    simp only [List.singleton_append] at ih
    rw [holdIn_two, holdIn_two c, ih]
    simp only [List.append_assoc]
  | c :: d :: s => by
    have ih := holdIn_append a b t hab (d :: s)
    simp only [List.cons_append] at ih ⊢
    rw [holdIn_two, holdIn_two, ih]
    simp only [List.append_assoc]

theorem holdIn_last : ∀ {s : List (Int × Int)} {a : Int × Int}, s.getLast? = some a → (holdIn s).getLast? = some a
  | [], a, h => by simp at h
  | [b], a, h => h
  | b :: c :: l, a, h => by
    rw [List.getLast?_cons_cons] at h
    have ih := holdIn_last h
    rw [holdIn, List.getLast?_append, ih]
    rfl

theorem stamps_last {k : Int} {l : List Int} {a : Int × Int} (h : (stamps k l).getLast? = some a) :
    a.1 = k + l.length - 1 ∧ l.getLast? = some a.2 := by
  rcases List.eq_nil_or_concat l with rfl | ⟨r, x, rfl⟩
  · simp [stamps] at h
  · rw [List.concat_eq_append, stamps_append] at h
    simp only [stamps, List.getLast?_append, List.getLast?_singleton, Option.some_or, Option.some.injEq] at h
    rw [← h]
    simp
    omega

theorem addLatest_holds {cur tr : Trace} {s : List (Int × Int)} (hs : s ≠ []) (hc : stamps cur.start cur.data = holdIn s) (ht : tr.data ≠ [])
    (hinc : ∀ q ∈ s, q.1 < tr.start) :
    stamps (addLatest cur tr).start (addLatest cur tr).data = holdIn (s ++ stamps tr.start tr.data) := by
  obtain ⟨a, ha⟩ : ∃ a, s.getLast? = some a := ⟨_, List.getLast?_eq_some_getLast hs⟩
  obtain ⟨s', hs'⟩ := List.getLast?_eq_some_iff.mp ha
  have hal := holdIn_last ha
  rw [← hc] at hal
  obtain ⟨h1, h2⟩ := stamps_last hal
  have hcne : cur.data ≠ [] := by rintro h; rw [h] at h2; simp at h2
  have hstop : cur.stop = a.1 := by
    unfold Trace.stop
    rw [if_neg (by simpa using hcne), h1]
  have hlt := hinc a (by rw [hs']; simp)
  have hadd : addLatest cur tr = ⟨cur.start, cur.data ++ List.replicate (tr.start - a.1 - 1).toNat a.2 ++ tr.data⟩ := by
    unfold addLatest
    dsimp only
    rw [hstop, if_neg (by omega), if_neg (by omega), List.getLastD_eq_getLast?, h2]
    rfl
  rw [hadd]
  simp only
  obtain ⟨x, l, hx⟩ := List.exists_cons_of_ne_nil ht
  have e : stamps tr.start tr.data = (tr.start, x) :: stamps (tr.start + 1) l := by rw [hx]; rfl
  rw [e, hs', holdIn_append a (tr.start, x) _ hlt, ← hs', ← e, holdIn_stamps, ← hc, List.append_assoc, List.append_assoc, stamps_append,
    stamps_append, List.length_replicate]
  congr 2
  · rw [show cur.start + (cur.data.length : Int) = a.1 + 1 by omega]
  · rw [show cur.start + (cur.data.length : Int) + ((tr.start - a.1 - 1).toNat : Int) = tr.start by omega]

theorem foldLatest_holds : ∀ (l : List Trace) (cur : Trace) (s : List (Int × Int)), s ≠ [] → stamps cur.start cur.data = holdIn s →
    (∀ tr ∈ l, tr.data ≠ []) → Increasing (s ++ samples l) →
    stamps (l.foldl addLatest cur).start (l.foldl addLatest cur).data = holdIn (s ++ samples l)
  | [], cur, s, _, hc, _, _ => by rw [samples, List.flatMap_nil, List.append_nil]; exact hc
  | tr :: l, cur, s, hs, hc, hne, hinc => by
    have htr := hne tr (by simp)
    rw [samples_cons, ← List.append_assoc] at hinc ⊢
    have hlt : ∀ q ∈ s, q.1 < tr.start := by
      intro q hq
      obtain ⟨x, d, hx⟩ := List.exists_cons_of_ne_nil htr
      exact ((List.pairwise_append.mp (List.pairwise_append.mp hinc).1).2.2) q hq (tr.start, x) (by rw [hx, stamps]; simp)
    rw [List.foldl_cons]
    exact foldLatest_holds l (addLatest cur tr) (s ++ stamps tr.start tr.data) (by simp [hs]) (addLatest_holds hs hc htr hlt)
      (fun t ht => hne t (by simp [ht])) hinc

/-! ## Sorting -/

theorem insertByTime_perm (a : Trace) : ∀ l, (insertByTime a l).Perm (a :: l)
  | [] => .refl _
  | b :: l => by
    rw [insertByTime]
    split_ifs
    · exact .refl _
    · exact ((insertByTime_perm a l).cons b).trans (.swap a b l)

theorem sortByTime_perm : ∀ l, (sortByTime l).Perm l
  | [] => .refl _
  | a :: l => (insertByTime_perm a _).trans ((sortByTime_perm l).cons a)

theorem insertByTime_sorted (a : Trace) : ∀ l : List Trace, l.Pairwise (fun x y => x.start ≤ y.start) →
    (insertByTime a l).Pairwise (fun x y => x.start ≤ y.start)
  | [], _ => List.pairwise_singleton _ _
  | b :: l, h => by
    rw [List.pairwise_cons] at h
    rw [insertByTime]
    split_ifs with hc
    · have hab : a.start ≤ b.start := by
        unfold comesBefore at hc
        simp only [Bool.or_eq_true, decide_eq_true_eq, Bool.and_eq_true, beq_iff_eq] at hc
        omega
      refine List.pairwise_cons.mpr ⟨?_, List.pairwise_cons.mpr h⟩
      intro c hcm
      rcases List.mem_cons.mp hcm with rfl | hcm
      · exact hab
      · have := h.1 c hcm; omega
    · have hba : b.start ≤ a.start := by
        unfold comesBefore at hc
        simp only [Bool.or_eq_true, decide_eq_true_eq, not_or] at hc
        omega
      refine List.pairwise_cons.mpr ⟨?_, insertByTime_sorted a l h.2⟩
      intro c hcm
      rcases List.mem_cons.mp ((insertByTime_perm a l).mem_iff.mp hcm) with rfl | hcm
      · exact hba
      · exact h.1 c hcm

theorem sortByTime_sorted : ∀ l : List Trace, (sortByTime l).Pairwise (fun x y => x.start ≤ y.start)
  | [] => .nil
  | a :: l => insertByTime_sorted a _ (sortByTime_sorted l)

theorem inOrder_starts {p : List Trace} (h : InOrder p) : p.Pairwise (fun x y => x.start < y.start) := by
  induction p with
  | nil => exact .nil
  | cons a p ih =>
    obtain ⟨h1, h2⟩ := h
    rw [samples_cons] at h2
    obtain ⟨h3, h4, h5⟩ := List.pairwise_append.mp h2
    refine List.pairwise_cons.mpr ⟨?_, ih ⟨fun t ht => h1 t (by simp [ht]), h4⟩⟩
    intro b hb
    obtain ⟨x, d, hx⟩ := List.exists_cons_of_ne_nil (h1 a (by simp))
    obtain ⟨y, e, hy⟩ := List.exists_cons_of_ne_nil (h1 b (by simp [hb]))
    refine h5 (a.start, x) (by rw [hx, stamps]; simp) (b.start, y) ?_
    unfold samples
    rw [List.mem_flatMap]
    exact ⟨b, hb, by rw [hy, stamps]; simp⟩

theorem sortByTime_inOrder {st p : List Trace} (hp : st.Perm p) (ho : InOrder p) : sortByTime st = p := by
  have hlt := inOrder_starts ho
  refine List.Perm.eq_of_pairwise (le := fun x y : Trace => x.start ≤ y.start) ?_ (sortByTime_sorted st) (hlt.imp fun h => le_of_lt h)
    ((sortByTime_perm st).trans hp)
  intro a b ha hb hab hba
  have ha' : a ∈ p := hp.mem_iff.mp ((sortByTime_perm st).mem_iff.mp ha)
  by_contra hne
  rcases List.mem_iff_getElem.mp ha' with ⟨i, hi, rfl⟩
  rcases List.mem_iff_getElem.mp hb with ⟨j, hj, rfl⟩
  rcases Nat.lt_trichotomy i j with h | h | h
  · have := List.pairwise_iff_getElem.mp hlt i j hi hj h
    omega
  · subst h; exact hne rfl
  · have := List.pairwise_iff_getElem.mp hlt j i hj hi h
    omega

/-- **C70.** Merging the traces of one station and day, in whatever order the files are read, as long as they do not overlap: the result is
one trace, which contains every recorded sample at its time; all other samples repeat the last recorded sample before them. -/
theorem C70_hold (st p : List Trace) (hp : st.Perm p) (hne : p ≠ []) (ho : InOrder p) :
    ∃ tr, mergeLatest st = some tr ∧ stamps tr.start tr.data = holdIn (samples p) := by
  unfold mergeLatest
  rw [sortByTime_inOrder hp ho]
  obtain ⟨a, l, rfl⟩ := List.exists_cons_of_ne_nil hne
  refine ⟨_, rfl, ?_⟩
  obtain ⟨h1, h2⟩ := ho
  rw [samples_cons] at h2 ⊢
  exact foldLatest_holds l a _ (by rw [Ne, stamps_eq_nil]; exact h1 a (by simp)) (holdIn_stamps _ _).symm (fun t ht => h1 t (by simp [ht])) h2

/-- The sample of a trace at a time. -/
def Trace.at (tr : Trace) (t : Int) : Option Int := if tr.start ≤ t then tr.data[(t - tr.start).toNat]? else none

theorem trace_stop {tr : Trace} (h : tr.data ≠ []) : tr.stop = tr.start + tr.data.length - 1 := by
  unfold Trace.stop
  rw [if_neg (by simpa using h)]

theorem addLatest_overlap {a b : Trace} (ha : a.data ≠ []) (hb : b.data ≠ []) (h1 : a.start ≤ b.start) (h2 : a.stop < b.stop) :
    (addLatest a b).start = a.start ∧ (addLatest a b).stop = b.stop ∧ (addLatest a b).data ≠ [] ∧
      (∀ t, t < b.start → t ≤ a.stop → (addLatest a b).at t = a.at t) ∧ ∀ t, b.start ≤ t → (addLatest a b).at t = b.at t := by
  have sa := trace_stop ha
  have sb := trace_stop hb
  have la : 0 < a.data.length := List.length_pos_iff.mpr ha
  have lb : 0 < b.data.length := List.length_pos_iff.mpr hb
  -- the result is a part of the first trace, or the first trace and more, up to the start of the second
  have key : ∃ pre : List Int, addLatest a b = ⟨a.start, pre ++ b.data⟩ ∧ (pre.length : Int) = b.start - a.start ∧
      ∀ i : Nat, i < pre.length → i < a.data.length → pre[i]? = a.data[i]? := by
    unfold addLatest
    dsimp only
    split_ifs with c1 c2
    · refine ⟨_, rfl, ?_, ?_⟩
      · rw [List.length_take]; omega
      · intro i hi _
        rw [List.length_take] at hi
        rw [List.getElem?_take_of_lt (by omega)]
    · omega
    · refine ⟨a.data ++ List.replicate (b.start - a.stop - 1).toNat (a.data.getLastD 0), rfl, ?_, ?_⟩
      · rw [List.length_append, List.length_replicate]; push_cast; omega
      · intro i _ hi
        rw [List.getElem?_append_left hi]
  obtain ⟨pre, he, hl, hp⟩ := key
  rw [he]
  have hne : pre ++ b.data ≠ [] := by simp [hb]
  refine ⟨rfl, ?_, hne, ?_, ?_⟩
  · rw [trace_stop hne]
    simp only [List.length_append]
    push_cast
    omega
  · intro t ht ht2
    unfold Trace.at
    dsimp only
    split_ifs with hc
    · rw [List.getElem?_append_left (by omega), hp _ (by omega) (by omega)]
    · rfl
  · intro t ht
    unfold Trace.at
    dsimp only
    rw [if_pos (by omega), if_pos ht, List.getElem?_append_right (by omega)]
    congr 1
    omega

theorem foldLatest_overlap : ∀ (l : List Trace) (a : Trace), (∀ tr ∈ a :: l, tr.data ≠ []) →
    (a :: l).Pairwise (fun x y => x.start ≤ y.start ∧ x.stop < y.stop) →
    (l.foldl addLatest a).start = a.start ∧ (∀ z ∈ (a :: l).getLast?, (l.foldl addLatest a).stop = z.stop) ∧
      (∀ t, t ≤ a.stop → (∀ y ∈ l, t < y.start) → (l.foldl addLatest a).at t = a.at t) ∧
      ∀ pre x post, l = pre ++ x :: post → ∀ t, x.start ≤ t → t ≤ x.stop → (∀ y ∈ post, t < y.start) →
        (l.foldl addLatest a).at t = x.at t := by
  intro l
  induction l with
  | nil =>
    intro a _ _
    refine ⟨rfl, ?_, fun t _ _ => rfl, ?_⟩
    · intro z hz; simp at hz; subst hz; rfl
    · intro pre x post h; simp at h
  | cons b l ih =>
    intro a hne hp
    have ha := hne a (by simp)
    have hb := hne b (by simp)
    obtain ⟨hp1, hp2⟩ := List.pairwise_cons.mp hp
    obtain ⟨hpb, hp3⟩ := List.pairwise_cons.mp hp2
    obtain ⟨m1, m2, m3, m4, m5⟩ := addLatest_overlap ha hb (hp1 b (by simp)).1 (hp1 b (by simp)).2
    have hab := (hp1 b (by simp)).1
    obtain ⟨i1, i2, i3, i4⟩ := ih (addLatest a b) (by
        intro tr htr
        rcases List.mem_cons.mp htr with rfl | htr
        · exact m3
        · exact hne tr (by simp [htr]))
      (List.pairwise_cons.mpr ⟨fun y hy => by
        rw [m1, m2]
        exact ⟨(hp1 y (by simp [hy])).1, (hpb y hy).2⟩, hp3⟩)
    rw [List.foldl_cons]
    refine ⟨by rw [i1, m1], ?_, ?_, ?_⟩
    · intro z hz
      cases l with
      | nil => simp at hz; subst hz; simpa using m2
      | cons c l =>
        apply i2
        simpa [List.getLast?_cons_cons] using hz
    · intro t ht hy
      have hbt := hy b (by simp)
      rw [i3 t (by rw [m2]; have := (hp1 b (by simp)).2; omega) (fun y hyl => hy y (by simp [hyl])), m4 t hbt ht]
    · intro pre x post h t ht1 ht2 hpost
      cases pre with
      | nil =>
        simp only [List.nil_append, List.cons.injEq] at h
        obtain ⟨rfl, rfl⟩ := h
        rw [i3 t (by rw [m2]; exact ht2) hpost, m5 t ht1]
      | cons c pre =>
        simp only [List.cons_append, List.cons.injEq] at h
        obtain ⟨rfl, h⟩ := h
        exact i4 pre x post h t ht1 ht2 hpost

/-- **C70, overlaps.** If traces overlap, but each ends later than those that start before it, the merged trace reaches from the first start to
the last end, and holds at every time the sample of the trace that started last. -/
theorem C70_overlaps (a : Trace) (l : List Trace) (hne : ∀ tr ∈ a :: l, tr.data ≠ [])
    (hp : (a :: l).Pairwise fun x y => x.start ≤ y.start ∧ x.stop < y.stop) :
    ∃ m, mergeLatest (a :: l) = some m ∧ m.start = a.start ∧ (∀ z ∈ (a :: l).getLast?, m.stop = z.stop) ∧
      ∀ pre x post, a :: l = pre ++ x :: post → ∀ t, x.start ≤ t → t ≤ x.stop → (∀ y ∈ post, t < y.start) → m.at t = x.at t := by
  have hsort : ∀ l : List Trace, l.Pairwise (fun x y => x.start ≤ y.start ∧ x.stop < y.stop) → sortByTime l = l := by
    intro l
    induction l with
    | nil => intro _; rfl
    | cons b l ih =>
      intro h
      obtain ⟨h1, h2⟩ := List.pairwise_cons.mp h
      rw [sortByTime, ih h2]
      cases l with
      | nil => rfl
      | cons c l =>
        rw [insertByTime, if_pos]
        unfold comesBefore
        have := h1 c (by simp)
        simp only [Bool.or_eq_true, decide_eq_true_eq, Bool.and_eq_true, beq_iff_eq]
        omega
  obtain ⟨f1, f2, f3, f4⟩ := foldLatest_overlap l a hne hp
  unfold mergeLatest
  rw [hsort _ hp]
  refine ⟨_, rfl, f1, f2, ?_⟩
  intro pre x post h t h1 h2 h3
  cases pre with
  | nil =>
    simp only [List.nil_append, List.cons.injEq] at h
    obtain ⟨rfl, rfl⟩ := h
    exact f3 t h2 h3
  | cons c pre =>
    simp only [List.cons_append, List.cons.injEq] at h
    obtain ⟨rfl, h⟩ := h
    exact f4 pre x post h t h1 h2 h3

example : mergeLatest [⟨0, [1, 2, 3, 4]⟩, ⟨2, [7, 8, 9]⟩, ⟨4, [5, 6]⟩] = some ⟨0, [1, 2, 7, 8, 5, 6]⟩ ∧
    [(⟨0, [1, 2, 3, 4]⟩ : Trace), ⟨2, [7, 8, 9]⟩, ⟨4, [5, 6]⟩].Pairwise (fun x y => x.start ≤ y.start ∧ x.stop < y.stop) := by
  decide +kernel

/-- **C70, contained traces.** The samples of a trace are dropped if an earlier trace covers it, also if they differ. -/
theorem C70_violated_contained (a b : Trace) (ha : a.data ≠ []) (hb : b.data ≠ []) (h1 : a.start < b.start) (h2 : b.stop ≤ a.stop) :
    mergeLatest [b, a] = some a := by
  have sb := trace_stop hb
  have lb : 0 < b.data.length := List.length_pos_iff.mpr hb
  have e : comesBefore b a = false := by
    unfold comesBefore
    simp only [Bool.or_eq_false_iff, decide_eq_false_iff_not, Bool.and_eq_false_iff, beq_eq_false_iff_ne]
    omega
  unfold mergeLatest
  rw [sortByTime, sortByTime, sortByTime, insertByTime, insertByTime, e]
  simp only [Bool.false_eq_true, if_false, insertByTime, List.foldl_cons, List.foldl_nil, Option.some.injEq]
  unfold addLatest
  dsimp only
  rw [if_neg (by omega), if_pos (by omega)]

example : mergeLatest [⟨1, [50]⟩, ⟨0, [1, 2, 3]⟩] = some ⟨0, [1, 2, 3]⟩ := by decide +kernel

/-- **C70, channels.** The channels of a merged file are those of the files read, each of them once; traces of different channels are never
mixed. -/
theorem C70_channels (st : List (List Nat × Trace)) :
    ((mergeById st).map Prod.fst).Nodup ∧
      (∀ id tr, (id, tr) ∈ mergeById st ↔ mergeLatest ((st.filter fun q => q.1 = id).map Prod.snd) = some tr) ∧
      ∀ id, id ∈ (mergeById st).map Prod.fst ↔ id ∈ st.map Prod.fst := by
  have hmem : ∀ id tr, (id, tr) ∈ mergeById st ↔ mergeLatest ((st.filter fun q => q.1 = id).map Prod.snd) = some tr := by
    intro id tr
    unfold mergeById
    rw [List.mem_filterMap]
    constructor
    · rintro ⟨id', -, h⟩
      obtain ⟨tr', h1, h2⟩ := Option.map_eq_some_iff.mp h
      obtain ⟨rfl, rfl⟩ := Prod.mk.inj h2
      exact h1
    · intro h
      refine ⟨id, ?_, by rw [h]; rfl⟩
      rw [mem_uniqueIn]
      by_contra hn
      have : (st.filter fun q => q.1 = id) = [] := by
        rw [List.filter_eq_nil_iff]
        intro q hq
        simp only [decide_eq_true_eq]
        exact fun e => hn (e ▸ List.mem_map_of_mem (f := Prod.fst) hq)
      rw [this] at h
      cases h
  refine ⟨?_, hmem, fun id => ?_⟩
  · unfold mergeById
    have hsub : ∀ ids : List (List Nat), ((ids.filterMap fun id =>
        (mergeLatest ((st.filter fun q => q.1 = id).map Prod.snd)).map fun tr => (id, tr)).map Prod.fst).Sublist ids := by
      intro ids
      induction ids with
      | nil => exact .refl _
      | cons a ids ih =>
        rw [List.filterMap_cons]
        cases h : mergeLatest ((st.filter fun q => q.1 = a).map Prod.snd) with
        | none => exact ih.cons a
        | some tr => exact ih.cons_cons a
    exact (uniqueIn_nodup _).sublist (hsub _)
  · rw [List.mem_map]
    constructor
    · rintro ⟨⟨id', tr⟩, h1, rfl⟩
      rw [← mem_uniqueIn]
      unfold mergeById at h1
      obtain ⟨id'', h2, h3⟩ := List.mem_filterMap.mp h1
      obtain ⟨tr', -, h5⟩ := Option.map_eq_some_iff.mp h3
      rw [← (Prod.mk.inj h5).1]
      exact h2
    · intro h
      obtain ⟨⟨id', tr⟩, h1, rfl⟩ := List.mem_map.mp h
      have hp := sortByTime_perm ((st.filter fun q => q.1 = id').map Prod.snd)
      have hne : sortByTime ((st.filter fun q => q.1 = id').map Prod.snd) ≠ [] := by
        intro e
        rw [e] at hp
        have := hp.symm.eq_nil
        rw [List.map_eq_nil_iff, List.filter_eq_nil_iff] at this
        exact this _ h1 (by simp)
      obtain ⟨a, l, hl⟩ := List.exists_cons_of_ne_nil hne
      refine ⟨(id', l.foldl addLatest a), ?_, rfl⟩
      rw [hmem]
      unfold mergeLatest
      rw [hl]

/-- Two hours of a channel, read in the wrong order, with a gap of two samples. -/
example : mergeLatest [⟨5, [7, 8]⟩, ⟨0, [1, 2, 3]⟩] = some ⟨0, [1, 2, 3, 3, 3, 7, 8]⟩ := by decide +kernel

/-- The hypotheses of `C70_hold` are met. -/
example : [(⟨5, [7, 8]⟩ : Trace), ⟨0, [1, 2, 3]⟩].Perm [⟨0, [1, 2, 3]⟩, ⟨5, [7, 8]⟩] ∧ InOrder [⟨0, [1, 2, 3]⟩, ⟨5, [7, 8]⟩] ∧
    holdIn (samples [⟨0, [1, 2, 3]⟩, ⟨5, [7, 8]⟩]) = [(0, 1), (1, 2), (2, 3), (3, 3), (4, 3), (5, 7), (6, 8)] :=
  ⟨.swap _ _ _, ⟨by decide, by unfold Increasing; decide⟩, by decide +kernel⟩

/-- **C70, gaps.** A gap of any length between two files leaves no sign in the merged file: it is filled with a constant, and the result
is the same as that of a recording without gap in which the constant was recorded. -/
theorem C70_violated_gaps (start : Int) (data : List Int) (x : Int) (n : Nat) (next : List Int) :
    mergeLatest [⟨start, data ++ [x]⟩, ⟨start + data.length + 1 + n, next⟩] =
      mergeLatest [⟨start, data ++ [x] ++ List.replicate n x ++ next⟩] := by
  have e : comesBefore ⟨start, data ++ [x]⟩ ⟨start + data.length + 1 + n, next⟩ = true := by
    unfold comesBefore
    simp only [Bool.or_eq_true, decide_eq_true_eq]
    left
    omega
  unfold mergeLatest
  rw [sortByTime, sortByTime, sortByTime, insertByTime, insertByTime, if_pos e, sortByTime, sortByTime, insertByTime]
  show some _ = some _
  simp only [List.foldl_cons, List.foldl_nil, Option.some.injEq]
  unfold addLatest
  have hs : Trace.stop ⟨start, data ++ [x]⟩ = start + data.length := by
    unfold Trace.stop
    simp
    omega
  dsimp only
  rw [hs, if_neg (by omega), if_neg (by omega)]
  simp
  omega

/-! ## Which files are merged -/

/-- Is `name` made up of a day, a time and the codes of a channel, `dayTtime.codes`? -/
def Named (name day time codes : List Nat) : Prop :=
  name = day ++ bytes "T" ++ time ++ bytes "." ++ codes ∧ 84 ∉ day ∧ 46 ∉ day ∧ 44 ∉ day ∧ 46 ∉ time ∧ 44 ∉ codes

theorem join_split : ∀ l : List Nat, joinDots (pySplit 46 l) = l
  | [] => rfl
  | x :: l => by
    have ih := join_split l
    obtain ⟨w, ws, hw⟩ := List.exists_cons_of_ne_nil (pySplit_ne 46 l)
    rw [hw] at ih
    rw [pySplit, hw]
    split_ifs with h
    · rw [h, joinDots, ih]
      · rfl
      · simp
    · show joinDots ((x :: w) :: ws) = x :: l
      rw [← ih]
      cases ws <;> rfl

theorem cutOf_named {name day time codes : List Nat} (h : Named name day time codes) : cutOf name = day ++ [44] ++ codes := by
  obtain ⟨h1, h2, h3, h4, h5, h6⟩ := h
  have e : pySplit 46 name = (day ++ bytes "T" ++ time) :: pySplit 46 codes := by
    rw [h1]
    apply pySplit_append
    simp [show bytes "T" = [84] from rfl, h3, h5]
  unfold cutOf
  rw [e, List.headD_cons, List.drop_one, List.tail_cons, join_split, show bytes "T" = [84] from rfl, pySplit_append _ _ h2]
  rfl

theorem dayAndSuffix_cut {day codes : List Nat} (h1 : 44 ∉ day) (h2 : 44 ∉ codes) : dayAndSuffix (day ++ [44] ++ codes) = some (day, codes) := by
  unfold dayAndSuffix
  rw [pySplit_append _ _ h1, pySplit_word _ h2]

theorem globMatch_iff {day codes name day' time codes' : List Nat} (h : Named name day' time codes') (hl : day.length = day'.length)
    (hd : codes.count 46 = codes'.count 46) : globMatch day codes name = true ↔ day' = day ∧ codes <:+ codes' := by
  obtain ⟨h1, h2, h3, h4, h5, h6⟩ := h
  unfold globMatch
  rw [Bool.and_eq_true, Bool.and_eq_true, List.isPrefixOf_iff_prefix, List.isSuffixOf_iff_suffix, decide_eq_true_eq]
  have hc : codes' <:+ name := ⟨day' ++ bytes "T" ++ time ++ bytes ".", by rw [h1]⟩
  constructor
  · rintro ⟨⟨ha, hb⟩, -⟩
    constructor
    · have hb' : day' <+: name := ⟨bytes "T" ++ time ++ bytes "." ++ codes', by rw [h1]; simp only [List.append_assoc]⟩
      exact (List.prefix_of_prefix_length_le hb' ha (by omega)).eq_of_length hl.symm
    · have h46 : ([46] ++ codes') <:+ name := ⟨day' ++ bytes "T" ++ time, by rw [h1]; simp only [List.append_assoc]; rfl⟩
      rcases Nat.lt_or_ge codes'.length codes.length with hlt | hge
      · exfalso
        have := List.suffix_of_suffix_length_le h46 hb (by simp; omega)
        have := this.sublist.count_le 46
        simp at this
        omega
      · exact List.suffix_of_suffix_length_le hb hc hge
  · rintro ⟨rfl, hs⟩
    refine ⟨⟨⟨bytes "T" ++ time ++ bytes "." ++ codes', ?_⟩, hs.trans hc⟩, ?_⟩
    · rw [h1]; simp only [List.append_assoc]
    · have := hs.length_le
      rw [h1]; simp; omega

/-- The files of a directory, with the day, the time and the codes of each: days have ten characters, codes four dots. -/
structure NamedDir where
  files : List DayFile
  day : DayFile → List Nat
  time : DayFile → List Nat
  codes : DayFile → List Nat
  named : ∀ f ∈ files, Named f.name (day f) (time f) (codes f)
  days : ∀ f ∈ files, (day f).length = 10
  dots : ∀ f ∈ files, (codes f).count 46 = 4

/-- Moreover the codes of no file are an ending of the codes of another (as they would be for the networks `A` and `XA`). -/
structure DayDir extends NamedDir where
  distinct : ∀ f ∈ files, ∀ g ∈ files, codes f <:+ codes g → codes f = codes g

/-- What is written for one day and channel. -/
def dayOutput (d : NamedDir) (outdir day codes : List Nat) : List Nat × List (List Nat × Trace) :=
  (outdir ++ bytes "/" ++ day ++ bytes "T00_00_00." ++ codes,
    mergeById ((d.files.filter fun f => d.day f = day ∧ codes <:+ d.codes f).flatMap DayFile.traces))

theorem mergeDaysLoop_spec (d : NamedDir) (outdir : List Nat) : ∀ cuts : List (List Nat),
    (∀ c ∈ cuts, ∃ f ∈ d.files, c = d.day f ++ [44] ++ d.codes f) →
    ∃ ws, mergeDaysLoop d.files outdir cuts = (ws, true) ∧
      List.Forall₂ (fun c w => ∃ f ∈ d.files, c = d.day f ++ [44] ++ d.codes f ∧ w = dayOutput d outdir (d.day f) (d.codes f)) cuts ws
  | [], _ => ⟨[], rfl, .nil⟩
  | c :: cuts, h => by
    obtain ⟨f, hf, hc⟩ := h c (by simp)
    obtain ⟨ws, h1, h2⟩ := mergeDaysLoop_spec d outdir cuts fun c hc => h c (by simp [hc])
    have hn := d.named f hf
    have hfil : (d.files.filter fun g => globMatch (d.day f) (d.codes f) g.name) =
        d.files.filter fun g => d.day g = d.day f ∧ d.codes f <:+ d.codes g := by
      refine List.filter_congr fun g hg => ?_
      rw [Bool.eq_iff_iff, decide_eq_true_eq]
      exact globMatch_iff (d.named g hg) (by rw [d.days f hf, d.days g hg]) (by rw [d.dots f hf, d.dots g hg])
    have hne : (d.files.filter fun g => d.day g = d.day f ∧ d.codes f <:+ d.codes g) ≠ [] :=
      List.ne_nil_of_mem (a := f) (List.mem_filter.mpr ⟨hf, by simp⟩)
    refine ⟨dayOutput d outdir (d.day f) (d.codes f) :: ws, ?_, .cons ⟨f, hf, hc, rfl⟩ h2⟩
    rw [mergeDaysLoop, hc, dayAndSuffix_cut hn.2.2.2.1 hn.2.2.2.2.2]
    dsimp only
    rw [hfil, if_neg hne, h1]
    rfl

/-- **C69, whatever the codes are.** One file is written for each day and channel of a chosen file, once. It holds the merged traces of all files of that day whose
codes end with those of the channel. -/
theorem C69_exact (d : NamedDir) (selected : List DayFile) (hsel : ∀ f ∈ selected, f ∈ d.files) (outdir : List Nat) :
    ∃ ws, mergeFilesDay d.files selected outdir = (ws, true) ∧
      (ws.map Prod.fst).Nodup ∧
      ∀ w, w ∈ ws ↔ ∃ f ∈ selected,
        w.1 = outdir ++ bytes "/" ++ d.day f ++ bytes "T00_00_00." ++ d.codes f ∧
        w.2 = mergeById ((d.files.filter fun g => d.day g = d.day f ∧ d.codes f <:+ d.codes g).flatMap DayFile.traces) := by
  have hcut : ∀ c, c ∈ uniqueIn (selected.map fun f => cutOf f.name) ↔ ∃ f ∈ selected, c = d.day f ++ [44] ++ d.codes f := by
    intro c
    rw [mem_uniqueIn, List.mem_map]
    constructor
    · rintro ⟨f, hf, rfl⟩
      exact ⟨f, hf, cutOf_named (d.named f (hsel f hf))⟩
    · rintro ⟨f, hf, rfl⟩
      exact ⟨f, hf, cutOf_named (d.named f (hsel f hf))⟩
  obtain ⟨ws, h1, h2⟩ := mergeDaysLoop_spec d outdir _ fun c hc => by
    obtain ⟨f, hf, e⟩ := (hcut c).mp hc
    exact ⟨f, hsel f hf, e⟩
  have hinj : ∀ f ∈ d.files, ∀ g ∈ d.files, d.day f ++ [44] ++ d.codes f = d.day g ++ [44] ++ d.codes g → d.day f = d.day g ∧ d.codes f = d.codes g := by
    intro f hf g hg e
    rw [List.append_assoc, List.append_assoc] at e
    obtain ⟨e1, e2⟩ := List.append_inj e (by rw [d.days f hf, d.days g hg])
    exact ⟨e1, List.append_cancel_left e2⟩
  have hinj' : ∀ f ∈ d.files, ∀ g ∈ d.files, (dayOutput d outdir (d.day f) (d.codes f)).1 = (dayOutput d outdir (d.day g) (d.codes g)).1 →
      d.day f = d.day g ∧ d.codes f = d.codes g := by
    intro f hf g hg e
    unfold dayOutput at e
    simp only [List.append_assoc] at e
    obtain ⟨e1, e2⟩ := List.append_inj (List.append_cancel_left (List.append_cancel_left e)) (by rw [d.days f hf, d.days g hg])
    exact ⟨e1, List.append_cancel_left e2⟩
  refine ⟨ws, h1, ?_, fun w => ?_⟩
  · have hnd := uniqueIn_nodup (selected.map fun f => cutOf f.name)
    clear hcut h1
    generalize uniqueIn (selected.map fun f => cutOf f.name) = cuts at h2 hnd
    induction h2 with
    | nil => exact List.nodup_nil
    | @cons c w cuts ws hcw hrest ih =>
      rw [List.nodup_cons] at hnd
      rw [List.map_cons, List.nodup_cons]
      refine ⟨?_, ih hnd.2⟩
      intro hmem
      obtain ⟨f, hf, hc, hw⟩ := hcw
      obtain ⟨w', hw', e⟩ := List.mem_map.mp hmem
      obtain ⟨i, hi, rfl⟩ := List.mem_iff_getElem.mp hw'
      have hlen := hrest.length_eq
      obtain ⟨g, hg, hc', hw2⟩ := hrest.get (i := i) (by omega) hi
      apply hnd.1
      simp only [List.get_eq_getElem] at hc' hw2
      rw [hw2, hw] at e
      obtain ⟨e1, e2⟩ := hinj' g hg f hf e
      rw [hc, ← e1, ← e2, ← hc']
      exact List.getElem_mem _
  · constructor
    · intro hw
      obtain ⟨i, hi, rfl⟩ := List.mem_iff_getElem.mp hw
      have hlen := h2.length_eq
      obtain ⟨g, hg, hc', hw2⟩ := h2.get (i := i) (by omega) hi
      simp only [List.get_eq_getElem] at hc' hw2
      obtain ⟨f, hf, e⟩ := (hcut _).mp (List.getElem_mem (l := uniqueIn (selected.map fun f => cutOf f.name)) (n := i) (by omega))
      obtain ⟨e1, e2⟩ := hinj g hg f (hsel f hf) (hc'.symm.trans e)
      rw [hw2, e1, e2]
      exact ⟨f, hf, rfl, rfl⟩
    · rintro ⟨f, hf, hw1, hw2⟩
      obtain ⟨i, hi, hc⟩ := List.mem_iff_getElem.mp ((hcut _).mpr ⟨f, hf, rfl⟩)
      have hlen := h2.length_eq
      obtain ⟨g, hg, hc', hw'⟩ := h2.get (i := i) hi (by omega)
      simp only [List.get_eq_getElem] at hc' hw'
      obtain ⟨e1, e2⟩ := hinj g hg f (hsel f hf) (hc'.symm.trans hc)
      rw [e1, e2] at hw'
      have : w = dayOutput d outdir (d.day f) (d.codes f) := Prod.ext hw1 hw2
      rw [this, ← hw']
      exact List.getElem_mem _

/-- **C69.** `merge_files_day` on a directory with such files, for any choice of them (the files that match the pattern): it comes to its
end; no file is written twice; and exactly for each day and channel of a chosen file one file is written, whose name tells day and
channel, and which holds the merged traces of all files of that day and channel - whether they were chosen or not. -/
theorem C69_days (d : DayDir) (selected : List DayFile) (hsel : ∀ f ∈ selected, f ∈ d.files) (outdir : List Nat) :
    ∃ ws, mergeFilesDay d.files selected outdir = (ws, true) ∧
      (ws.map Prod.fst).Nodup ∧
      ∀ w, w ∈ ws ↔ ∃ f ∈ selected,
        w.1 = outdir ++ bytes "/" ++ d.day f ++ bytes "T00_00_00." ++ d.codes f ∧
        w.2 = mergeById ((d.files.filter fun g => d.day g = d.day f ∧ d.codes g = d.codes f).flatMap DayFile.traces) := by
  obtain ⟨ws, h1, h2, h3⟩ := C69_exact d.toNamedDir selected hsel outdir
  refine ⟨ws, h1, h2, fun w => (h3 w).trans ?_⟩
  refine exists_congr fun f => and_congr_right fun hf => and_congr_right fun _ => ?_
  have : (d.files.filter fun g => d.day g = d.day f ∧ d.codes f <:+ d.codes g) = d.files.filter fun g => d.day g = d.day f ∧ d.codes g = d.codes f := by
    refine List.filter_congr fun g hg => ?_
    rw [Bool.eq_iff_iff, decide_eq_true_eq, decide_eq_true_eq]
    refine and_congr_right fun _ => ⟨fun h => (d.distinct f (hsel f hf) g hg h).symm, fun h => by rw [h]⟩
  rw [this]

/-- Two stations, two days, two files for one of them. -/
def dayExample : List DayFile :=
  [⟨bytes "2020-01-01T00_00_00.XA.S01..HDF.mseed", [(bytes "XA.S01..HDF", ⟨0, [1, 2]⟩)]⟩,
   ⟨bytes "2020-01-01T01_00_00.XA.S01..HDF.mseed", [(bytes "XA.S01..HDF", ⟨3, [4]⟩)]⟩,
   ⟨bytes "2020-01-02T00_00_00.XA.S01..HDF.mseed", [(bytes "XA.S01..HDF", ⟨9, [5]⟩)]⟩,
   ⟨bytes "2020-01-01T00_00_00.XA.S02..HDF.mseed", [(bytes "XA.S02..HDF", ⟨0, [6]⟩)]⟩]

/-- The directory of the example meets the hypotheses of `C69_days`. -/
def dayDirExample : DayDir where
  files := dayExample
  day f := f.name.take 10
  time f := (f.name.drop 11).take 8
  codes f := f.name.drop 20
  named := by
    intro f hf
    unfold Named
    revert f
    decide +kernel
  days := by decide +kernel
  dots := by decide +kernel
  distinct := by decide +kernel

example : mergeFilesDay dayExample (dayExample.take 1 ++ dayExample.drop 2) (bytes "out") =
    ([(bytes "out/2020-01-01T00_00_00.XA.S01..HDF.mseed", [(bytes "XA.S01..HDF", ⟨0, [1, 2, 2, 4]⟩)]),
      (bytes "out/2020-01-02T00_00_00.XA.S01..HDF.mseed", [(bytes "XA.S01..HDF", ⟨9, [5]⟩)]),
      (bytes "out/2020-01-01T00_00_00.XA.S02..HDF.mseed", [(bytes "XA.S02..HDF", ⟨0, [6]⟩)])], true) := by decide +kernel

theorem mergeLatest_some {st : List Trace} (h : st ≠ []) : ∃ tr, mergeLatest st = some tr := by
  have hs : ∀ (a : Trace) (l : List Trace), insertByTime a l ≠ [] := by
    intro a l
    cases l with
    | nil => simp [insertByTime]
    | cons b l => unfold insertByTime; split_ifs <;> simp
  obtain ⟨a, l, rfl⟩ := List.exists_cons_of_ne_nil h
  obtain ⟨b, l', e⟩ := List.exists_cons_of_ne_nil (hs a (sortByTime l))
  unfold mergeLatest
  rw [sortByTime, e]
  exact ⟨_, rfl⟩

theorem mergeById_ids (st : List (List Nat × Trace)) (id : List Nat) : id ∈ (mergeById st).map Prod.fst ↔ id ∈ st.map Prod.fst := by
  unfold mergeById
  rw [← mem_uniqueIn (l := st.map Prod.fst), List.mem_map]
  constructor
  · rintro ⟨q, hq, rfl⟩
    obtain ⟨a, ha, e⟩ := List.mem_filterMap.mp hq
    obtain ⟨tr, -, rfl⟩ := Option.map_eq_some_iff.mp e
    exact ha
  · intro h
    obtain ⟨q, hq, e⟩ := List.mem_map.mp ((mem_uniqueIn _ _).mp h)
    obtain ⟨tr, htr⟩ := mergeLatest_some (st := (st.filter fun q => q.1 = id).map Prod.snd)
      (by
        intro h0
        have : q ∈ st.filter fun q => q.1 = id := List.mem_filter.mpr ⟨hq, by simpa using e⟩
        rw [List.map_eq_nil_iff] at h0
        rw [h0] at this
        simp at this)
    exact ⟨(id, tr), List.mem_filterMap.mpr ⟨id, h, by rw [htr]; rfl⟩, rfl⟩

/-- **C69 is violated** when the codes of a channel are an ending of those of another, as for the networks `A` and `XA`, or no network and any other: the file of the first
channel also gets the traces of the second. -/
theorem C69_violated_mixed (d : NamedDir) (selected : List DayFile) (hsel : ∀ f ∈ selected, f ∈ d.files) (outdir : List Nat)
    (f g : DayFile) (hf : f ∈ selected) (hg : g ∈ d.files) (hday : d.day g = d.day f) (hcodes : d.codes f <:+ d.codes g) (_hne : d.codes g ≠ d.codes f) :
    ∃ ws, mergeFilesDay d.files selected outdir = (ws, true) ∧
      ∃ w ∈ ws, w.1 = outdir ++ bytes "/" ++ d.day f ++ bytes "T00_00_00." ++ d.codes f ∧ ∀ id ∈ g.traces.map Prod.fst, id ∈ w.2.map Prod.fst := by
  obtain ⟨ws, h1, -, h3⟩ := C69_exact d selected hsel outdir
  refine ⟨ws, h1, (_, _), (h3 _).mpr ⟨f, hf, rfl, rfl⟩, rfl, ?_⟩
  intro id hid
  obtain ⟨q, hq, rfl⟩ := List.mem_map.mp hid
  refine (mergeById_ids _ _).mpr ?_
  exact List.mem_map_of_mem (List.mem_flatMap.mpr ⟨g, List.mem_filter.mpr ⟨hg, by simp [hday, hcodes]⟩, hq⟩)

/-- A directory with such channels. -/
def mixedDir : NamedDir where
  files := [⟨bytes "2020-01-01T00_00_00..S01..HDF.mseed", [(bytes ".S01..HDF", ⟨0, [1]⟩)]⟩,
       ⟨bytes "2020-01-01T00_00_00.XA.S01..HDF.mseed", [(bytes "XA.S01..HDF", ⟨0, [2]⟩)]⟩]
  day f := f.name.take 10
  time f := (f.name.drop 11).take 8
  codes f := f.name.drop 20
  named := by
    intro f hf
    unfold Named
    revert f
    decide +kernel
  days := by decide +kernel
  dots := by decide +kernel

example : mergeFilesDay mixedDir.files (mixedDir.files.take 1) (bytes "out") =
    ([(bytes "out/2020-01-01T00_00_00..S01..HDF.mseed", [(bytes ".S01..HDF", ⟨0, [1]⟩), (bytes "XA.S01..HDF", ⟨0, [2]⟩)])], true) := by
  decide +kernel

/-- The hypotheses of `C69_violated_mixed` hold for its two files. -/
example : ∃ f g, f ∈ mixedDir.files ∧ g ∈ mixedDir.files ∧ mixedDir.day g = mixedDir.day f ∧ mixedDir.codes f <:+ mixedDir.codes g ∧
    mixedDir.codes g ≠ mixedDir.codes f :=
  ⟨_, _, List.mem_cons_self, List.mem_cons_of_mem _ List.mem_cons_self, by decide +kernel, by decide +kernel, by decide +kernel⟩

end Gemlog
