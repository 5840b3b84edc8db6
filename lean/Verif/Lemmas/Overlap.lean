import Verif.Lemmas.Record
import Verif.Spec.Overlap

/-! # `_merge_gaps` on traces that may overlap -/

namespace Gemlog

/-- Two traces merged with interpolation, as a trace. -/
def joined (a b : Trace) : Trace := ⟨a.start, (addOrdered true a.toM b.toM).data.filterMap id⟩

theorem map_some_filterMap {l : List (Option Int)} (h : ∀ x ∈ l, x ≠ none) : (l.filterMap id).map some = l := by
  induction l with
  | nil => rfl
  | cons x l ih =>
    cases x with
    | none => exact absurd rfl (h none (by simp))
    | some x =>
      show some x :: ((l.filterMap id).map some) = some x :: l
      rw [ih fun y hy => h y (by simp [hy])]

theorem fillChunk_ne_none (n : Nat) (x y : Int) : ∀ z ∈ fillChunk true n (some x) (some y), z ≠ none := by
  intro z hz
  unfold fillChunk at hz
  simp only [List.mem_map] at hz
  obtain ⟨k, _, rfl⟩ := hz
  simp

theorem fillChunk_len (n : Nat) (x y : Int) : (fillChunk true n (some x) (some y)).length = n := by
  simp [fillChunk]

/-- What the merging of two traces with interpolation gives: no sample is masked, and it lasts until the later end. -/
theorem addOrdered_some {a b : Trace} (ha : a.data ≠ []) (hb : b.data ≠ []) (hs : a.start ≤ b.start) :
    (addOrdered true a.toM b.toM).start = a.start ∧
    (∀ x ∈ (addOrdered true a.toM b.toM).data, x ≠ none) ∧
    a.start + ((addOrdered true a.toM b.toM).data.length : Int) - 1 = max a.stop b.stop := by
  obtain ⟨x, hx⟩ := some_last ha
  obtain ⟨y, hy⟩ := some_head hb
  have h1 := stop_of_ne ha
  have h2 := stop_of_ne hb
  have l1 : 0 < a.data.length := List.length_pos_iff.mpr ha
  have l2 : 0 < b.data.length := List.length_pos_iff.mpr hb
  have s1 : a.toM.stop = a.stop := toM_stop ha
  have s2 : b.toM.stop = b.stop := toM_stop hb
  have e1 : b.toM.start = b.start := rfl
  have e2 : a.toM.data.getLast?.join = some x := by simp [Trace.toM, hx]
  have e3 : b.toM.data.head?.join = some y := by simp [Trace.toM, hy]
  have m1 : ∀ x ∈ a.toM.data, x ≠ none := by
    intro x hx; simp only [Trace.toM, List.mem_map] at hx; obtain ⟨z, _, rfl⟩ := hx; simp
  have m2 : ∀ x ∈ b.toM.data, x ≠ none := by
    intro x hx; simp only [Trace.toM, List.mem_map] at hx; obtain ⟨z, _, rfl⟩ := hx; simp
  have n1 : a.toM.data.length = a.data.length := by simp [Trace.toM]
  have n2 : b.toM.data.length = b.data.length := by simp [Trace.toM]
  have hst : a.toM.start = a.start := rfl
  unfold addOrdered
  simp only [s1, s2, e1, e2, e3, n1, n2, hst]
  by_cases c1 : b.start - a.stop - 1 < 0 ∧ a.stop - b.stop < 0
  · rw [if_pos c1]
    split_ifs
    · refine ⟨rfl, ?_, ?_⟩
      · intro z hz
        rcases List.mem_append.mp hz with hz | hz
        · exact m1 z (List.mem_of_mem_take hz)
        · exact m2 z hz
      · simp only [List.length_append, List.length_take, n1, n2]
        omega
    · refine ⟨rfl, ?_, ?_⟩
      · intro z hz
        rcases List.mem_append.mp hz with hz | hz
        · rcases List.mem_append.mp hz with hz | hz
          · exact m1 z (List.mem_of_mem_take hz)
          · exact fillChunk_ne_none _ _ _ z hz
        · exact m2 z (List.mem_of_mem_drop hz)
      · simp only [List.length_append, List.length_take, List.length_drop, n1, n2, fillChunk_len]
        omega
  · rw [if_neg c1]
    by_cases c2 : b.start - a.stop - 1 < 0
    · rw [if_pos c2]
      split_ifs
      · refine ⟨rfl, m1, ?_⟩
        rw [n1]; omega
      · refine ⟨rfl, ?_, ?_⟩
        · intro z hz
          rcases List.mem_append.mp hz with hz | hz
          · rcases List.mem_append.mp hz with hz | hz
            · exact m1 z (List.mem_of_mem_take hz)
            · exact fillChunk_ne_none _ _ _ z hz
          · exact m1 z (List.mem_of_mem_drop hz)
        · simp only [List.length_append, List.length_take, List.length_drop, n1, fillChunk_len]
          omega
    · rw [if_neg c2]
      refine ⟨rfl, ?_, ?_⟩
      · intro z hz
        rcases List.mem_append.mp hz with hz | hz
        · rcases List.mem_append.mp hz with hz | hz
          · exact m1 z hz
          · exact fillChunk_ne_none _ _ _ z hz
        · exact m2 z hz
      · simp only [List.length_append, n1, n2, fillChunk_len]
        omega

theorem joined_toM {a b : Trace} (ha : a.data ≠ []) (hb : b.data ≠ []) (hs : a.start ≤ b.start) :
    (joined a b).toM = addOrdered true a.toM b.toM := by
  obtain ⟨h1, h2, _⟩ := addOrdered_some ha hb hs
  unfold joined Trace.toM
  simp only
  rw [show (List.map some a.data) = a.toM.data from rfl]
  have := map_some_filterMap h2
  change (⟨a.start, ((addOrdered true a.toM b.toM).data.filterMap id).map some⟩ : MTrace) = addOrdered true a.toM b.toM
  rw [this]
  conv_lhs => rw [← h1]

theorem joined_length {a b : Trace} (ha : a.data ≠ []) (hb : b.data ≠ []) (hs : a.start ≤ b.start) :
    a.start + ((joined a b).data.length : Int) - 1 = max a.stop b.stop := by
  obtain ⟨_, h2, h3⟩ := addOrdered_some ha hb hs
  have := congrArg List.length (map_some_filterMap h2)
  rw [List.length_map] at this
  show a.start + (((addOrdered true a.toM b.toM).data.filterMap id).length : Int) - 1 = _
  rw [this, h3]

theorem joined_ne {a b : Trace} (ha : a.data ≠ []) (hb : b.data ≠ []) (hs : a.start ≤ b.start) : (joined a b).data ≠ [] := by
  have h := joined_length ha hb hs
  have h1 := stop_of_ne ha
  have l1 : 0 < a.data.length := List.length_pos_iff.mpr ha
  intro h0
  rw [h0] at h
  simp at h
  omega

theorem joined_stop {a b : Trace} (ha : a.data ≠ []) (hb : b.data ≠ []) (hs : a.start ≤ b.start) :
    (joined a b).stop = max a.stop b.stop := by
  rw [stop_of_ne (joined_ne ha hb hs), ← joined_length ha hb hs]
  rfl

theorem merge_joined {a b : Trace} (ha : a.data ≠ []) (hb : b.data ≠ []) (hs : a.start < b.start) :
    mergeTraces true [a.toM, b.toM] = some (joined a b).toM := by
  have hso : sortTraces [a.toM, b.toM] = [a.toM, b.toM] := by
    apply sortTraces_sorted
    simp only [List.pairwise_cons, List.mem_singleton, forall_eq, List.not_mem_nil, false_imp_iff, implies_true,
      List.Pairwise.nil, and_true]
    exact sortsBefore_of (Or.inl hs)
  unfold mergeTraces
  rw [hso, joined_toM ha hb hs.le]
  simp only [List.foldl_cons, List.foldl_nil]
  unfold addTraces
  rw [if_pos (show a.toM.start ≤ b.toM.start from hs.le)]

theorem joined_eq_bridge {a b : Trace} (h : Follows a b) : joined a b = bridge a b := by
  obtain ⟨ha, hb, hab⟩ := h
  have h1 := stop_of_ne ha
  have l1 : 0 < a.data.length := List.length_pos_iff.mpr ha
  have e1 := merge_joined ha hb (by omega)
  rw [merge_two ⟨ha, hb, hab⟩] at e1
  have e2 := Option.some.inj e1
  have e3 : (bridge a b).data.map some = (joined a b).data.map some := congrArg MTrace.data e2
  have e4 : (bridge a b).data = (joined a b).data := List.map_injective_iff.mpr (Option.some_injective _) e3
  have e5 : (bridge a b).start = (joined a b).start := rfl
  cases hbr : bridge a b
  cases hjo : joined a b
  rw [hbr, hjo] at e4 e5
  simp only at e4 e5
  rw [e4, e5]

/-- How many samples at the start of a run are masked after `m` was added to the run `a`, `k` of whose samples were. -/
def lostStep (a m : Trace) (k : Nat) : Nat :=
  if (m.data.take a.data.length).drop k = a.data.drop k then (if a.stop < m.stop then 0 else k) else a.data.length

/-- What remains of a run. -/
def remains (a : Trace) (k : Nat) : List Trace :=
  if k < a.data.length then [⟨a.start + k, a.data.drop k⟩] else []

/-- The runs of a list of traces with what is left of each. -/
def runsFrom : Trace → Nat → List Trace → List Trace
  | a, k, [] => remains a k
  | a, k, b :: l =>
    if b.start - a.stop ≤ 3 then runsFrom (joined a b) (lostStep a (joined a b) k) l
    else remains a k ++ runsFrom b 0 l

/-- A run with its first `k` samples masked. -/
def maskedRun (a : Trace) (k : Nat) : List (Option Int) := List.replicate k none ++ (a.data.drop k).map some

theorem length_maskedRun {a : Trace} {k : Nat} (hk : k ≤ a.data.length) : (maskedRun a k).length = a.data.length := by
  simp [maskedRun]; omega

theorem agree_replicate (k : Nat) (x y : List (Option Int)) : agree (List.replicate k none ++ x) y = agree x (y.drop k) := by
  induction k generalizing y with
  | zero => simp
  | succ k ih =>
    cases y with
    | nil => simp [agree]
    | cons c y =>
      rw [List.replicate_succ, List.cons_append, List.drop_succ_cons, ← ih]
      simp [agree]

theorem agree_some {x y : List Int} (h : x.length = y.length) : agree (x.map some) (y.map some) = decide (y = x) := by
  induction x generalizing y with
  | nil =>
    cases y with
    | nil => rfl
    | cons c y => simp at h
  | cons a x ih =>
    cases y with
    | nil => simp at h
    | cons c y =>
      have := ih (y := y) (by simpa using h)
      unfold agree at this ⊢
      simp only [List.map_cons, List.zip_cons_cons, List.all_cons, Option.isNone_some, Bool.false_or, this]
      by_cases hc : c = a
      · subst hc; simp
      · have : (some a == some c) = false := by
          simp only [beq_eq_false_iff_ne, ne_eq, Option.some.injEq]
          exact fun h => hc h.symm
        rw [this]
        simp [hc]

theorem agree_masked {a m : Trace} {k : Nat} (hl : a.data.length ≤ m.data.length) :
    agree (maskedRun a k) ((m.data.map some).take a.data.length) =
      decide ((m.data.take a.data.length).drop k = a.data.drop k) := by
  unfold maskedRun
  rw [agree_replicate, ← List.map_take, ← List.map_drop, agree_some]
  simp only [List.length_drop, List.length_take]
  omega

theorem splitData_run {a : Trace} {k : Nat} (hk : k ≤ a.data.length) (s : Int) (hs : s = a.start) :
    splitData s [] (maskedRun a k) = remains a k := by
  subst hs
  have hc : Closed (List.replicate k (none : Option Int)) := by
    cases k with
    | zero => exact Or.inl rfl
    | succ k => exact Or.inr ⟨List.replicate k none, by rw [List.replicate_succ']⟩
  unfold maskedRun remains
  rw [splitData_closed hc, splitData_nones, List.nil_append]
  by_cases h : k < a.data.length
  · rw [if_pos h, splitData_some _ _ _ (Or.inr (by simp [List.drop_eq_nil_iff]; omega))]
    simp
  · rw [if_neg h, List.drop_eq_nil_of_le (by omega)]
    rfl

/-- Masked samples at the end add nothing. -/
theorem splitData_run_nones {a : Trace} {k n : Nat} (hk : k ≤ a.data.length) (s : Int) (hs : s = a.start) :
    splitData s [] (maskedRun a k ++ List.replicate (n + 1) none) = remains a k := by
  rw [List.replicate_succ, splitData_none, splitData_nones, List.append_nil]
  subst hs
  have hc : Closed (List.replicate k (none : Option Int)) := by
    cases k with
    | zero => exact Or.inl rfl
    | succ k => exact Or.inr ⟨List.replicate k none, by rw [List.replicate_succ']⟩
  have key : ∀ (l : List Int) (k : Int) (cur : List Int), (cur ≠ [] ∨ l ≠ []) →
      splitData k cur (l.map some ++ [none]) = [⟨k - cur.length, cur.reverse ++ l⟩] := by
    intro l
    induction l with
    | nil =>
      intro k cur hc
      have : cur ≠ [] := by simpa using hc
      simp [splitData, this]
    | cons x l ih =>
      intro k cur _
      rw [List.map_cons, List.cons_append, splitData, ih _ _ (Or.inl (by simp))]
      simp only [List.reverse_cons, List.append_assoc, List.length_cons, List.singleton_append]
      congr 2
      push_cast; ring
  unfold maskedRun remains
  rw [List.append_assoc, splitData_closed hc, splitData_nones, List.nil_append]
  by_cases h : k < a.data.length
  · rw [if_pos h, key _ _ _ (Or.inr (by simp [List.drop_eq_nil_iff]; omega))]
    simp
  · rw [if_neg h, List.drop_eq_nil_of_le (by omega)]
    rfl

/-- Invariant of the loop in `_merge_gaps`, for traces that may overlap. -/
structure CollectedRun (out : List MTrace) (s0 : Int) (pre : List (Option Int)) (last : Trace) (k : Nat) : Prop where
  sorted : out.Pairwise fun a b => sortsBefore a b = true
  final : out.getLast? = some last.toM
  below : ∀ a ∈ out, a.start ≤ last.start ∧ a.stop ≤ last.stop
  sum : ∃ a l, out = a :: l ∧ l.foldl (addTraces false) a = ⟨s0, pre ++ maskedRun last k⟩
  pos : s0 + pre.length = last.start
  closed : Closed pre
  ne : last.data ≠ []
  lost : k ≤ last.data.length

theorem collectedRun_push {out : List MTrace} {s0 : Int} {pre pre' : List (Option Int)} {last new : Trace} {k k' : Nat}
    (h : CollectedRun out s0 pre last k) (hn : new.data ≠ [])
    (hs : last.start < new.start ∨ (last.start = new.start ∧ last.stop ≤ new.stop)) (hst : last.stop ≤ new.stop)
    (hadd : addTraces false ⟨s0, pre ++ maskedRun last k⟩ new.toM = ⟨s0, pre' ++ maskedRun new k'⟩)
    (hp : s0 + pre'.length = new.start) (hc : Closed pre') (hk : k' ≤ new.data.length) :
    CollectedRun (out ++ [new.toM]) s0 pre' new k' := by
  have e1 : new.toM.stop = new.stop := toM_stop hn
  refine ⟨?_, by simp, ?_, ?_, hp, hc, hn, hk⟩
  · rw [List.pairwise_append]
    refine ⟨h.sorted, List.pairwise_singleton _ _, ?_⟩
    intro a ha b hb
    rw [List.mem_singleton.mp hb]
    obtain ⟨b1, b2⟩ := h.below a ha
    apply sortsBefore_of
    show a.start < new.start ∨ (a.start = new.start ∧ a.stop ≤ _)
    rw [e1]
    omega
  · intro a ha
    rcases List.mem_append.mp ha with ha | ha
    · obtain ⟨b1, b2⟩ := h.below a ha
      omega
    · rw [List.mem_singleton.mp ha, e1]
      exact ⟨le_refl _, le_refl _⟩
  · obtain ⟨a, l, e, f⟩ := h.sum
    refine ⟨a, l ++ [new.toM], by rw [e]; rfl, ?_⟩
    rw [List.foldl_append, f]
    exact hadd

theorem lostStep_le {a m : Trace} {k : Nat} (hk : k ≤ a.data.length) (hl : a.data.length ≤ m.data.length) :
    lostStep a m k ≤ m.data.length := by
  unfold lostStep
  split_ifs <;> omega

theorem fillChunk_false (n : Nat) (l r : Option Int) : fillChunk false n l r = List.replicate n none := by
  unfold fillChunk; rfl

theorem collectedRun_join {out : List MTrace} {s0 : Int} {pre : List (Option Int)} {last b : Trace} {k : Nat}
    (h : CollectedRun out s0 pre last k) (hb : b.data ≠ []) (hs : last.start < b.start) :
    CollectedRun (out ++ [(joined last b).toM]) s0 pre (joined last b) (lostStep last (joined last b) k) := by
  have hl := joined_length h.ne hb hs.le
  have hn := joined_ne h.ne hb hs.le
  have hst := joined_stop h.ne hb hs.le
  have h1 := stop_of_ne h.ne
  have hpos := h.pos
  have hlost := h.lost
  have l1 : 0 < last.data.length := List.length_pos_iff.mpr h.ne
  have hle : last.data.length ≤ (joined last b).data.length := by omega
  have hstart : (joined last b).start = last.start := rfl
  refine collectedRun_push h hn (Or.inr ⟨rfl, by omega⟩) (by omega) ?_ hpos h.closed (lostStep_le hlost hle)
  generalize joined last b = m at *
  have c1 : s0 ≤ m.toM.start := by
    show s0 ≤ m.start
    omega
  have lr : (maskedRun last k).length = last.data.length := length_maskedRun hlost
  have s1 : (⟨s0, pre ++ maskedRun last k⟩ : MTrace).stop = last.stop := by
    simp only [MTrace.stop, List.length_append, lr]
    push_cast
    omega
  have s2 : m.toM.stop = m.stop := toM_stop hn
  have e1 : m.toM.start = last.start := hstart
  have d1 : (-(last.start - last.stop - 1)).toNat = last.data.length := by omega
  have t1 : (pre ++ maskedRun last k).length - last.data.length = pre.length := by simp [lr]
  unfold addTraces
  rw [if_pos c1]
  unfold addOrdered
  simp only [s1, s2, e1, d1, t1, fillChunk_false]
  have hag := agree_masked (k := k) hle
  have ed : m.toM.data = m.data.map some := rfl
  by_cases hlt : last.stop < m.stop
  · rw [if_pos (by omega), List.drop_left, List.take_left, ed, hag]
    unfold lostStep
    by_cases he : (m.data.take last.data.length).drop k = last.data.drop k
    · rw [if_pos (by simpa using he), if_pos he, if_pos hlt]
      simp [maskedRun]
    · rw [if_neg (by simpa using he), if_neg he]
      simp [maskedRun]
  · have hlen : m.data.length = last.data.length := by omega
    rw [if_neg (by omega), if_pos (by omega), List.drop_left, List.take_left]
    have ml : m.toM.data.length = last.data.length := by rw [ed]; simp [hlen]
    have e2 : m.toM.data = (m.data.map some).take last.data.length := by
      rw [ed, List.take_of_length_le (by simp [hlen])]
    have e3 : (maskedRun last k).take m.toM.data.length = maskedRun last k := by
      rw [List.take_of_length_le (by omega)]
    rw [e3]
    have hag' : agree (maskedRun last k) m.toM.data = decide ((m.data.take last.data.length).drop k = last.data.drop k) := by
      rw [e2]; exact hag
    rw [hag', ml]
    unfold lostStep
    by_cases he : (m.data.take last.data.length).drop k = last.data.drop k
    · rw [if_pos (by simpa using he), if_pos he, if_neg hlt]
      have : m.data.drop k = last.data.drop k := by
        rw [← he, List.take_of_length_le (by omega)]
      simp only [maskedRun, this]
    · rw [if_neg (by simpa using he), if_neg he]
      have e4 : (pre ++ maskedRun last k).drop (pre.length + last.data.length) = [] := by
        apply List.drop_eq_nil_of_le
        simp [lr]
      have e5 : m.data.drop last.data.length = [] := List.drop_eq_nil_of_le (by omega)
      rw [e4]
      simp [maskedRun, e5]

theorem collectedRun_apart {out : List MTrace} {s0 : Int} {pre : List (Option Int)} {last b : Trace} {k : Nat}
    (h : CollectedRun out s0 pre last k) (hb : b.data ≠ []) (hgap : b.start - last.stop > 3) :
    ∃ pre', CollectedRun (out ++ [b.toM]) s0 pre' b 0 ∧
      splitData s0 [] pre' = splitData s0 [] pre ++ remains last k := by
  have hlast := stop_of_ne h.ne
  have hb' := stop_of_ne hb
  have l1 : 0 < b.data.length := List.length_pos_iff.mpr hb
  have l2 : 0 < last.data.length := List.length_pos_iff.mpr h.ne
  have hpos := h.pos
  have lr : (maskedRun last k).length = last.data.length := length_maskedRun h.lost
  obtain ⟨n, hn⟩ : ∃ n : Nat, (b.start - last.stop - 1).toNat = n + 1 := ⟨(b.start - last.stop - 1).toNat - 1, by omega⟩
  refine ⟨pre ++ maskedRun last k ++ List.replicate (n + 1) none,
    collectedRun_push h hb (Or.inl (by omega)) (by omega) ?_ ?_ ?_ (by omega), ?_⟩
  · have c1 : s0 ≤ b.toM.start := by
      show s0 ≤ b.start
      omega
    have s1 : (⟨s0, pre ++ maskedRun last k⟩ : MTrace).stop = last.stop := by
      simp only [MTrace.stop, List.length_append, lr]
      push_cast
      omega
    have e1 : b.toM.start = b.start := rfl
    unfold addTraces
    rw [if_pos c1]
    unfold addOrdered
    simp only [s1, toM_stop hb, e1, fillChunk_false]
    rw [if_neg (by omega), if_neg (by omega), hn]
    simp [maskedRun, Trace.toM]
  · simp only [List.length_append, lr, List.length_replicate]
    push_cast
    omega
  · right
    exact ⟨pre ++ maskedRun last k ++ List.replicate n none, by rw [List.replicate_succ']; simp⟩
  · rw [List.append_assoc, splitData_closed h.closed, splitData_run_nones h.lost _ hpos]

theorem mergeGaps_runs_go (rest : List Trace) (out : List MTrace) (s0 : Int) (pre : List (Option Int)) (last : Trace) (k : Nat)
    (h : CollectedRun out s0 pre last k) (hne : ∀ tr ∈ rest, tr.data ≠ []) (hup : ∀ tr ∈ rest, last.start < tr.start)
    (ho : rest.Pairwise fun a b => a.start < b.start) :
    ((mergeTraces false ((rest.map Trace.toM).foldl mergeStep out)).map MTrace.split) =
      some (splitData s0 [] pre ++ runsFrom last k rest) := by
  induction rest generalizing out pre last k with
  | nil =>
    obtain ⟨a, l, e, f⟩ := h.sum
    simp only [List.map_nil, List.foldl_nil]
    unfold mergeTraces
    rw [sortTraces_sorted h.sorted, e]
    simp only [Option.map_some, f, MTrace.split]
    rw [splitData_closed h.closed, splitData_run h.lost _ h.pos, runsFrom]
  | cons b rest ih =>
    have hb := hne b (by simp)
    have hs := hup b (by simp)
    have ho' := List.pairwise_cons.mp ho
    rw [List.map_cons, List.foldl_cons]
    have hstep : mergeStep out b.toM = if b.start - last.stop ≤ 3 then out ++ [(joined last b).toM] else out ++ [b.toM] := by
      unfold mergeStep
      rw [h.final]
      simp only [toM_stop h.ne, merge_joined h.ne hb hs]
      by_cases hg : b.start - last.stop ≤ 3
      · have hg' : 10000 * (b.toM.start - last.stop) ≤ 31000 := by
          show 10000 * (b.start - last.stop) ≤ 31000
          omega
        rw [if_pos hg, if_pos hg']
        rfl
      · have hg' : ¬ 10000 * (b.toM.start - last.stop) ≤ 31000 := by
          show ¬ 10000 * (b.start - last.stop) ≤ 31000
          omega
        rw [if_neg hg, if_neg hg']
    rw [hstep]
    by_cases hg : b.start - last.stop ≤ 3
    · rw [if_pos hg, runsFrom, if_pos hg]
      exact ih _ _ _ _ (collectedRun_join h hb hs) (fun t ht => hne t (by simp [ht])) (fun t ht => hup t (by simp [ht])) ho'.2
    · rw [if_neg hg, runsFrom, if_neg hg]
      obtain ⟨pre', h1, h2⟩ := collectedRun_apart h hb (by omega)
      rw [ih _ _ _ _ h1 (fun t ht => hne t (by simp [ht])) ho'.1 ho'.2, h2, List.append_assoc]

/-- On traces in the order of their starts, which may overlap, `_merge_gaps` gives the runs. -/
theorem mergeGaps_runs {a : Trace} {l : List Trace} (ho : StartsUp (a :: l)) : mergeGaps (a :: l) = runsFrom a 0 l := by
  have ha := ho.1 a (by simp)
  have h0 : CollectedRun [a.toM] a.start [] a 0 := by
    refine ⟨List.pairwise_singleton _ _, rfl, ?_, ⟨a.toM, [], rfl, ?_⟩, by simp, Or.inl rfl, ha, by omega⟩
    · intro x hx
      rw [List.mem_singleton.mp hx, toM_stop ha]
      exact ⟨le_refl _, le_refl _⟩
    · simp [maskedRun, Trace.toM]
  have hp := List.pairwise_cons.mp ho.2
  have := mergeGaps_runs_go l _ _ _ _ _ h0 (fun t ht => ho.1 t (by simp [ht])) hp.1 hp.2
  unfold mergeGaps
  simp only [List.map_cons]
  cases hm : mergeTraces false ((l.map Trace.toM).foldl mergeStep [a.toM]) with
  | none => rw [hm] at this; simp at this
  | some tr =>
    rw [hm] at this
    simpa [splitData] using this

/-- The straight line put in place of `n` contradictory samples, between the last sample of the first trace and the first one
of the second. -/
def lineChunk (n : Nat) (x y : Int) : List Int :=
  (List.range n).map fun (k : Nat) => pyTrunc ((x : Rat) + ((k : Rat) + 1) * ((y - x : Int) : Rat) / ((n : Rat) + 1))

theorem fillChunk_line (n : Nat) (x y : Int) : fillChunk true n (some x) (some y) = (lineChunk n x y).map some := by
  simp [fillChunk, lineChunk]

/-- The samples of two overlapping traces merged with interpolation. -/
theorem joined_overlap {a b : Trace} (ha : a.data ≠ []) (hb : b.data ≠ []) (hs : a.start < b.start) (hov : b.start ≤ a.stop)
    {i n : Nat} (hi : (i : Int) = b.start - a.start) (hn : (n : Int) = min a.stop b.stop - b.start + 1) {x y : Int}
    (hx : a.data.getLast? = some x) (hy : b.data.head? = some y) :
    (joined a b).data = a.data.take i ++
      (if (a.data.drop i).take n = b.data.take n then (a.data.drop i).take n else lineChunk n x y) ++
      (if a.stop < b.stop then b.data.drop n else a.data.drop (i + n)) := by
  have h1 := stop_of_ne ha
  have h2 := stop_of_ne hb
  have l1 : 0 < a.data.length := List.length_pos_iff.mpr ha
  have l2 : 0 < b.data.length := List.length_pos_iff.mpr hb
  have s1 : a.toM.stop = a.stop := toM_stop ha
  have s2 : b.toM.stop = b.stop := toM_stop hb
  have e1 : b.toM.start = b.start := rfl
  have e2 : a.toM.data.getLast?.join = some x := by simp [Trace.toM, hx]
  have e3 : b.toM.data.head?.join = some y := by simp [Trace.toM, hy]
  have d1 : a.toM.data = a.data.map some := rfl
  have d2 : b.toM.data = b.data.map some := rfl
  have hj := congrArg MTrace.data (joined_toM ha hb hs.le)
  apply List.map_injective_iff.mpr (Option.some_injective Int)
  rw [show (joined a b).data.map some = (joined a b).toM.data from rfl, hj]
  unfold addOrdered
  simp only [s1, s2, e1, e2, e3]
  simp only [fillChunk_line, d1, d2]
  by_cases c : a.stop < b.stop
  · rw [if_pos (by omega), if_pos c]
    have en : (-(b.start - a.stop - 1)).toNat = n := by omega
    have ei : (a.data.map some).length - n = i := by simp; omega
    rw [en, ei, ← List.map_drop, ← List.map_take, agree_some (by simp; omega)]
    have et : (a.data.drop i).take n = a.data.drop i := List.take_of_length_le (by simp; omega)
    rw [et]
    by_cases he : a.data.drop i = b.data.take n
    · rw [if_pos (by simpa using he.symm), if_pos he, he]
      simp [List.map_take]
    · rw [if_neg (by simpa using fun h => he h.symm), if_neg he]
      simp [List.map_take, List.map_drop]
  · rw [if_neg (by omega), if_pos (by omega), if_neg c]
    have en : b.data.length = n := by omega
    have ei : (a.data.map some).length - (-(b.start - a.stop - 1)).toNat = i := by simp; omega
    have el : (b.data.map some).length = n := by simp [en]
    rw [ei, el, ← List.map_drop, ← List.map_take, agree_some (by simp; omega)]
    have et : b.data.take n = b.data := List.take_of_length_le (by omega)
    rw [et]
    by_cases he : (a.data.drop i).take n = b.data
    · rw [if_pos (by simpa using he.symm), if_pos he]
      have e : a.data = a.data.take i ++ (a.data.drop i).take n ++ a.data.drop (i + n) := by
        rw [List.append_assoc, ← List.drop_drop, List.take_append_drop, List.take_append_drop]
      rw [← e]
      rfl
    · rw [if_neg (by simpa using fun h => he h.symm), if_neg he]
      simp [List.map_take, List.map_drop]

theorem length_lineChunk (n : Nat) (x y : Int) : (lineChunk n x y).length = n := by simp [lineChunk]

theorem mem_stamps_getElem {s k x : Int} {l : List Int} : (k, x) ∈ stamps s l ↔ s ≤ k ∧ l[(k - s).toNat]? = some x := by
  induction l generalizing s with
  | nil => simp [stamps]
  | cons c l ih =>
    rw [stamps, List.mem_cons, ih]
    constructor
    · rintro (h | ⟨h1, h2⟩)
      · obtain ⟨rfl, rfl⟩ := Prod.mk.injEq _ _ _ _ ▸ h
        simp
      · refine ⟨by omega, ?_⟩
        rw [show (k - s).toNat = (k - (s + 1)).toNat + 1 by omega, List.getElem?_cons_succ]
        exact h2
    · rintro ⟨h1, h2⟩
      by_cases h : k = s
      · subst h
        simp at h2
        left; rw [h2]
      · right
        refine ⟨by omega, ?_⟩
        rw [show (k - s).toNat = (k - (s + 1)).toNat + 1 by omega, List.getElem?_cons_succ] at h2
        exact h2

/-- The samples of a trace after a time, for a trace that starts before. -/
theorem stamps_after {s t : Int} {l : List Int} (h : s ≤ t + 1) :
    (stamps s l).filter (fun q => decide (t < q.1)) = stamps (t + 1) (l.drop (t + 1 - s).toNat) := by
  induction l generalizing s with
  | nil => simp [stamps]
  | cons c l ih =>
    rw [stamps]
    by_cases h1 : t < s
    · have : s = t + 1 := by omega
      subst this
      rw [List.filter_cons_of_pos (by simp)]
      simp only [sub_self, Int.toNat_zero, List.drop_zero, stamps]
      congr 1
      rw [List.filter_eq_self]
      intro q hq
      have := mem_stamps_range hq
      simp only [decide_eq_true_eq]
      omega
    · rw [List.filter_cons_of_neg (by simpa using h1), ih (by omega),
        show (t + 1 - s).toNat = (t + 1 - (s + 1)).toNat + 1 by omega, List.drop_succ_cons]

end Gemlog
