import Verif.Lemmas.Stream

/-! # `_merge_gaps` on streams in order -/

namespace Gemlog

/-- Two traces joined, with the samples inserted in between. -/
def bridge (a b : Trace) : Trace :=
  ⟨a.start, a.data ++ ((fillChunk true (b.start - a.stop - 1).toNat (a.data.getLast?) (b.data.head?)).filterMap id ++ b.data)⟩

/-- Joining from left to right. -/
def joinFrom : Trace → List Trace → List Trace
  | a, [] => [a]
  | a, b :: l => if b.start - a.stop ≤ 3 then joinFrom (bridge a b) l else a :: joinFrom b l

theorem fillChunk_some (n : Nat) (x y : Int) :
    ((fillChunk true n (some x) (some y)).filterMap id).map some = fillChunk true n (some x) (some y) := by
  unfold fillChunk
  simp only
  rw [List.filterMap_map]
  have : (id ∘ fun (k : Nat) => some (pyTrunc ((x : Rat) + ((k : Rat) + 1) * ((y - x : Int) : Rat) / ((n : Rat) + 1)))) =
      fun (k : Nat) => some (pyTrunc ((x : Rat) + ((k : Rat) + 1) * ((y - x : Int) : Rat) / ((n : Rat) + 1))) := rfl
  rw [this, List.filterMap_eq_map', List.map_map]
  rfl

theorem toM_stop {tr : Trace} (h : tr.data ≠ []) : tr.toM.stop = tr.stop := by
  rw [stop_of_ne h]
  simp [MTrace.stop, Trace.toM]

theorem bridge_ne {a b : Trace} (h : a.data ≠ []) : (bridge a b).data ≠ [] := by
  unfold bridge
  simp [h]

theorem length_fillChunk (n : Nat) (x y : Int) : ((fillChunk true n (some x) (some y)).filterMap id).length = n := by
  have h := congrArg List.length (fillChunk_some n x y)
  rw [List.length_map] at h
  rw [h]
  simp [fillChunk]

/-- Traces that follow each other. -/
def Follows (a b : Trace) : Prop := a.data ≠ [] ∧ b.data ≠ [] ∧ a.stop < b.start

theorem some_last {a : List Int} (h : a ≠ []) : ∃ x, a.getLast? = some x :=
  ⟨a.getLast h, List.getLast?_eq_some_getLast h⟩

theorem some_head {a : List Int} (h : a ≠ []) : ∃ x, a.head? = some x :=
  ⟨a.head h, List.head?_eq_some_head h⟩

theorem bridge_length {a b : Trace} (h : Follows a b) :
    ((bridge a b).data.length : Int) = b.start + b.data.length - a.start := by
  obtain ⟨ha, hb, hab⟩ := h
  obtain ⟨x, hx⟩ := some_last ha
  obtain ⟨y, hy⟩ := some_head hb
  have := stop_of_ne ha
  simp only [bridge, hx, hy, List.length_append, length_fillChunk]
  push_cast
  omega

theorem bridge_stop {a b : Trace} (h : Follows a b) : (bridge a b).stop = b.stop := by
  have h1 := bridge_length h
  have h2 := stop_of_ne h.2.1
  rw [stop_of_ne (bridge_ne h.1), h2, h1]
  show a.start + (b.start + b.data.length - a.start) - 1 = _
  ring

theorem merge_two {a b : Trace} (h : Follows a b) : mergeTraces true [a.toM, b.toM] = some (bridge a b).toM := by
  obtain ⟨ha, hb, hab⟩ := h
  have h1 := stop_of_ne ha
  have h2 := stop_of_ne hb
  have l1 : 0 < a.data.length := List.length_pos_iff.mpr ha
  have l2 : 0 < b.data.length := List.length_pos_iff.mpr hb
  have hs : sortTraces [a.toM, b.toM] = [a.toM, b.toM] := by
    have : sortsBefore a.toM b.toM = true := by
      unfold sortsBefore
      have : a.toM.start < b.toM.start := by
        show a.start < b.start
        omega
      simp [this]
    simp only [sortTraces, insertTrace, this, if_true]
  unfold mergeTraces
  rw [hs]
  simp only [List.foldl_cons, List.foldl_nil, Option.some.injEq]
  obtain ⟨x, hx⟩ := some_last ha
  obtain ⟨y, hy⟩ := some_head hb
  have c1 : a.toM.start ≤ b.toM.start := by
    show a.start ≤ b.start
    omega
  have s1 : a.toM.stop = a.stop := toM_stop ha
  have s2 : b.toM.stop = b.stop := toM_stop hb
  have e1 : b.toM.start = b.start := rfl
  have e2 : a.toM.data.getLast?.join = some x := by
    simp [Trace.toM, hx]
  have e3 : b.toM.data.head?.join = some y := by
    simp [Trace.toM, hy]
  unfold addTraces
  rw [if_pos c1]
  unfold addOrdered
  simp only [s1, s2, e1, e2, e3]
  rw [if_neg (by omega), if_neg (by omega)]
  unfold bridge
  rw [hx, hy]
  simp only [Trace.toM, List.map_append, fillChunk_some, List.append_assoc]

theorem agree_self (l : List (Option Int)) : agree l l = true := by
  unfold agree
  rw [List.all_eq_true]
  intro q hq
  have : q.1 = q.2 := by
    induction l with
    | nil => simp at hq
    | cons x l ih =>
      rw [List.zip_cons_cons] at hq
      rcases List.mem_cons.mp hq with rfl | hq
      · rfl
      · exact ih hq
  simp [this]

/-- Splitting stops at a masked sample. -/
theorem splitData_none (pre l : List (Option Int)) (k : Int) (cur : List Int) :
    splitData k cur (pre ++ none :: l) = splitData k cur (pre ++ [none]) ++ splitData (k + pre.length + 1) [] l := by
  induction pre generalizing k cur with
  | nil =>
    simp only [List.nil_append, splitData, List.length_nil]
    by_cases h : cur = []
    · simp [h]
    · simp [h]
  | cons x pre ih =>
    have e : k + 1 + (pre.length : Int) + 1 = k + ((x :: pre).length : Nat) + 1 := by
      simp only [List.length_cons]; push_cast; ring
    cases x with
    | none =>
      simp only [List.cons_append, splitData]
      by_cases h : cur = []
      · simp only [h, if_true]
        rw [ih, e]
      · simp only [h, if_false]
        rw [ih, e, List.cons_append]
    | some x =>
      simp only [List.cons_append, splitData]
      rw [ih, e]

theorem splitData_some (l : List Int) (k : Int) (cur : List Int) (h : cur ≠ [] ∨ l ≠ []) :
    splitData k cur (l.map some) = [⟨k - cur.length, cur.reverse ++ l⟩] := by
  induction l generalizing k cur with
  | nil =>
    have : cur ≠ [] := by simpa using h
    simp [splitData, this]
  | cons x l ih =>
    rw [List.map_cons, splitData, ih _ _ (Or.inl (by simp))]
    simp only [List.reverse_cons, List.append_assoc, List.length_cons, List.singleton_append]
    congr 2
    push_cast; ring

theorem splitData_nones (n : Nat) (k : Int) : splitData k [] (List.replicate n none) = [] := by
  induction n generalizing k with
  | zero => rfl
  | succ n ih => rw [List.replicate_succ, splitData]; simp [ih]

/-- The end of a masked prefix: empty, or a masked sample. -/
def Closed (pre : List (Option Int)) : Prop := pre = [] ∨ ∃ q, pre = q ++ [none]

theorem splitData_closed {pre : List (Option Int)} (hp : Closed pre) (l : List (Option Int)) (k : Int) :
    splitData k [] (pre ++ l) = splitData k [] pre ++ splitData (k + pre.length) [] l := by
  rcases hp with rfl | ⟨q, rfl⟩
  · simp [splitData]
  · rw [List.append_assoc, List.singleton_append, splitData_none]
    congr 2
    simp only [List.length_append, List.length_singleton]; push_cast; ring

theorem insertTrace_append {a : MTrace} {l : List MTrace} (h : ∀ b ∈ l.head?, sortsBefore a b = true) :
    insertTrace a l = a :: l := by
  cases l with
  | nil => rfl
  | cons b l => rw [insertTrace, if_pos (h b rfl)]

theorem sortTraces_sorted {l : List MTrace} (h : l.Pairwise fun a b => sortsBefore a b = true) : sortTraces l = l := by
  induction l with
  | nil => rfl
  | cons a l ih =>
    have h' := List.pairwise_cons.mp h
    rw [sortTraces, ih h'.2]
    apply insertTrace_append
    intro b hb
    exact h'.1 b (List.mem_of_head? hb)

theorem sortsBefore_of {a b : MTrace} (h : a.start < b.start ∨ (a.start = b.start ∧ a.stop ≤ b.stop)) :
    sortsBefore a b = true := by
  unfold sortsBefore
  rcases h with h | ⟨h1, h2⟩
  · simp [h]
  · simp [h1, h2]

/-- Invariant of the loop in `_merge_gaps`: the collected traces are sorted, end with the current trace, and add up
to a masked prefix followed by the current trace. -/
structure Collected (out : List MTrace) (s0 : Int) (pre : List (Option Int)) (last : Trace) : Prop where
  sorted : out.Pairwise fun a b => sortsBefore a b = true
  final : out.getLast? = some last.toM
  below : ∀ a ∈ out, a.start ≤ last.start ∧ a.stop ≤ last.stop
  sum : ∃ a l, out = a :: l ∧ l.foldl (addTraces false) a = ⟨s0, pre ++ last.data.map some⟩
  pos : s0 + pre.length = last.start
  closed : Closed pre
  ne : last.data ≠ []

theorem collected_push {out : List MTrace} {s0 : Int} {pre pre' : List (Option Int)} {last new : Trace}
    (h : Collected out s0 pre last) (hn : new.data ≠ [])
    (hs : last.start < new.start ∨ (last.start = new.start ∧ last.stop ≤ new.stop)) (hst : last.stop ≤ new.stop)
    (hadd : addTraces false ⟨s0, pre ++ last.data.map some⟩ new.toM = ⟨s0, pre' ++ new.data.map some⟩)
    (hp : s0 + pre'.length = new.start) (hc : Closed pre') : Collected (out ++ [new.toM]) s0 pre' new := by
  have e1 : new.toM.stop = new.stop := toM_stop hn
  refine ⟨?_, by simp, ?_, ?_, hp, hc, hn⟩
  · rw [List.pairwise_append]
    refine ⟨h.sorted, List.pairwise_singleton _ _, ?_⟩
    intro a ha b hb
    rw [List.mem_singleton.mp hb]
    obtain ⟨b1, b2⟩ := h.below a ha
    apply sortsBefore_of
    show a.start < new.start ∨ (a.start = new.start ∧ a.stop ≤ _)
    rw [e1]
    omega
  · intro a ha
    rcases List.mem_append.mp ha with ha | ha
    · obtain ⟨b1, b2⟩ := h.below a ha
      omega
    · rw [List.mem_singleton.mp ha, e1]
      exact ⟨le_refl _, le_refl _⟩
  · obtain ⟨a, l, e, f⟩ := h.sum
    refine ⟨a, l ++ [new.toM], by rw [e]; rfl, ?_⟩
    rw [List.foldl_append, f]
    exact hadd

theorem collected_bridge {out : List MTrace} {s0 : Int} {pre : List (Option Int)} {last b : Trace}
    (h : Collected out s0 pre last) (hf : Follows last b) : Collected (out ++ [(bridge last b).toM]) s0 pre (bridge last b) := by
  have hl := bridge_length hf
  have hs := bridge_stop hf
  have hlast := stop_of_ne hf.1
  have hb := stop_of_ne hf.2.1
  have l1 : 0 < b.data.length := List.length_pos_iff.mpr hf.2.1
  have l2 : 0 < last.data.length := List.length_pos_iff.mpr hf.1
  obtain ⟨f1, f2, f3⟩ := hf
  refine collected_push h (bridge_ne f1) (Or.inr ⟨rfl, by omega⟩) (by omega) ?_ h.pos h.closed
  have hpos := h.pos
  have c1 : s0 ≤ (bridge last b).toM.start := by
    show s0 ≤ last.start
    omega
  have s1 : (⟨s0, pre ++ last.data.map some⟩ : MTrace).stop = last.stop := by
    simp only [MTrace.stop, List.length_append, List.length_map]
    push_cast
    omega
  have s2 : (bridge last b).toM.stop = b.stop := by rw [toM_stop (bridge_ne f1), hs]
  have e1 : (bridge last b).toM.start = last.start := rfl
  unfold addTraces
  rw [if_pos c1]
  unfold addOrdered
  simp only [s1, s2, e1]
  have d1 : (-(last.start - last.stop - 1)).toNat = last.data.length := by omega
  rw [if_pos (by omega), d1]
  have t1 : (pre ++ last.data.map some).length - last.data.length = pre.length := by
    simp
  rw [t1, List.drop_left, List.take_left]
  have t2 : (bridge last b).toM.data.take last.data.length = last.data.map some := by
    simp only [bridge, Trace.toM, List.map_append]
    rw [List.take_left' (by simp)]
  rw [t2, agree_self]
  rfl

theorem collected_apart {out : List MTrace} {s0 : Int} {pre : List (Option Int)} {last b : Trace}
    (h : Collected out s0 pre last) (hf : Follows last b) (hgap : b.start - last.stop > 3) :
    ∃ pre', Collected (out ++ [b.toM]) s0 pre' b ∧
      splitData s0 [] pre' = splitData s0 [] pre ++ [last] := by
  have hlast := stop_of_ne hf.1
  have hb := stop_of_ne hf.2.1
  have l1 : 0 < b.data.length := List.length_pos_iff.mpr hf.2.1
  have l2 : 0 < last.data.length := List.length_pos_iff.mpr hf.1
  have hpos := h.pos
  obtain ⟨f1, f2, f3⟩ := hf
  obtain ⟨n, hn⟩ : ∃ n : Nat, (b.start - last.stop - 1).toNat = n + 1 := ⟨(b.start - last.stop - 1).toNat - 1, by omega⟩
  refine ⟨pre ++ last.data.map some ++ List.replicate (n + 1) none, collected_push h f2 (Or.inl (by omega)) (by omega) ?_ ?_ ?_, ?_⟩
  · have c1 : s0 ≤ b.toM.start := by
      show s0 ≤ b.start
      omega
    have s1 : (⟨s0, pre ++ last.data.map some⟩ : MTrace).stop = last.stop := by
      simp only [MTrace.stop, List.length_append, List.length_map]
      push_cast
      omega
    have e1 : b.toM.start = b.start := rfl
    unfold addTraces
    rw [if_pos c1]
    unfold addOrdered
    simp only [s1, toM_stop f2, e1]
    rw [if_neg (by omega), if_neg (by omega), hn]
    rfl
  · simp only [List.length_append, List.length_map, List.length_replicate]
    push_cast
    omega
  · right
    exact ⟨pre ++ last.data.map some ++ List.replicate n none, by rw [List.replicate_succ']; simp⟩
  · rw [List.append_assoc, splitData_closed h.closed]
    congr 1
    have : last.data.map some ++ List.replicate (n + 1) (none : Option Int) =
        last.data.map some ++ none :: List.replicate n none := by rw [List.replicate_succ]
    rw [this, splitData_none, splitData_nones, List.append_nil]
    have h2 : splitData (s0 + ↑pre.length) [] (List.map some last.data ++ [none]) = [last] := by
      have key : ∀ (l : List Int) (k : Int) (cur : List Int), (cur ≠ [] ∨ l ≠ []) →
          splitData k cur (l.map some ++ [none]) = [⟨k - cur.length, cur.reverse ++ l⟩] := by
        intro l
        induction l with
        | nil =>
          intro k cur hc
          have : cur ≠ [] := by simpa using hc
          simp [splitData, this]
        | cons x l ih =>
          intro k cur _
          rw [List.map_cons, List.cons_append, splitData, ih _ _ (Or.inl (by simp))]
          simp only [List.reverse_cons, List.append_assoc, List.length_cons, List.singleton_append]
          congr 2
          push_cast; ring
      rw [key _ _ _ (Or.inr f1)]
      simp [hpos]
    exact h2

/-- Traces in order follow each other. -/
theorem mergeGaps_go (rest : List Trace) (out : List MTrace) (s0 : Int) (pre : List (Option Int)) (last : Trace)
    (h : Collected out s0 pre last) (ho : InOrder (last :: rest)) :
    ((mergeTraces false ((rest.map Trace.toM).foldl mergeStep out)).map MTrace.split) =
      some (splitData s0 [] pre ++ joinFrom last rest) := by
  induction rest generalizing out pre last with
  | nil =>
    obtain ⟨a, l, e, f⟩ := h.sum
    simp only [List.map_nil, List.foldl_nil]
    unfold mergeTraces
    rw [sortTraces_sorted h.sorted, e]
    simp only [Option.map_some, f, MTrace.split]
    rw [splitData_closed h.closed, splitData_some _ _ _ (Or.inr h.ne)]
    simp [joinFrom, h.pos]
  | cons b rest ih =>
    have hf : Follows last b := by
      refine ⟨ho.1 _ (by simp), ho.1 _ (by simp), ?_⟩
      obtain ⟨x, r, e1⟩ := last_stamps (ho.1 last (by simp))
      obtain ⟨y, r', e2⟩ := head_samples (p := rest) (ho.1 b (by simp))
      have := ho.2
      rw [samples_cons, e1, e2] at this
      exact (increasing_append.mp this).2.2 (last.stop, x) (by simp) _ List.mem_cons_self
    rw [List.map_cons, List.foldl_cons]
    have hstep : mergeStep out b.toM = if b.start - last.stop ≤ 3 then out ++ [(bridge last b).toM] else out ++ [b.toM] := by
      unfold mergeStep
      rw [h.final]
      simp only [toM_stop hf.1, merge_two hf]
      by_cases hg : b.start - last.stop ≤ 3
      · have hg' : 10000 * (b.toM.start - last.stop) ≤ 31000 := by
          show 10000 * (b.start - last.stop) ≤ 31000
          omega
        rw [if_pos hg, if_pos hg']
        rfl
      · have hg' : ¬ 10000 * (b.toM.start - last.stop) ≤ 31000 := by
          show ¬ 10000 * (b.start - last.stop) ≤ 31000
          omega
        rw [if_neg hg, if_neg hg']
    rw [hstep]
    by_cases hg : b.start - last.stop ≤ 3
    · rw [if_pos hg, joinFrom, if_pos hg]
      refine ih _ _ _ (collected_bridge h hf) ⟨?_, ?_⟩
      · intro t ht
        rcases List.mem_cons.mp ht with rfl | ht
        · exact bridge_ne hf.1
        · exact ho.1 t (by simp [ht])
      · have h2 := ho.2
        rw [samples_cons, samples_cons, ← List.append_assoc] at h2
        rw [samples_cons]
        obtain ⟨_, h3, h4⟩ := increasing_append.mp h2
        refine increasing_append.mpr ⟨stamps_increasing _ _, h3, ?_⟩
        intro q hq z hz
        obtain ⟨y, r, e⟩ := last_stamps hf.2.1
        have h5 := h4 (b.stop, y) (by rw [e]; simp) z hz
        have h6 := mem_stamps_range hq
        have h7 := bridge_length hf
        have h8 := stop_of_ne hf.2.1
        have : (bridge last b).start = last.start := rfl
        rw [this] at h6
        have h5' : b.stop < z.1 := h5
        omega
    · rw [if_neg hg, joinFrom, if_neg hg]
      obtain ⟨pre', h1, h2⟩ := collected_apart h hf (by omega)
      rw [ih _ _ _ h1 (inOrder_tail ho), h2, List.append_assoc, List.singleton_append]

/-- On a stream in order, `_merge_gaps` joins neighbours from left to right. -/
theorem mergeGaps_cons {a : Trace} {l : List Trace} (ho : InOrder (a :: l)) : mergeGaps (a :: l) = joinFrom a l := by
  have h0 : Collected [a.toM] a.start [] a := by
    refine ⟨List.pairwise_singleton _ _, rfl, ?_, ⟨a.toM, [], rfl, rfl⟩, by simp, Or.inl rfl, ho.1 a (by simp)⟩
    intro x hx
    rw [List.mem_singleton.mp hx, toM_stop (ho.1 a (by simp))]
    exact ⟨le_refl _, le_refl _⟩
  have := mergeGaps_go l _ _ _ _ h0 ho
  unfold mergeGaps
  simp only [List.map_cons]
  cases hm : mergeTraces false ((l.map Trace.toM).foldl mergeStep [a.toM]) with
  | none => rw [hm] at this; simp at this
  | some tr =>
    rw [hm] at this
    simpa [splitData] using this

/-- Sample-level meaning of a bridge. -/
theorem pyTrunc_div (n : Int) (d : Nat) (hd : 0 < d) : pyTrunc ((n : Rat) / (d : Rat)) = Int.tdiv n d := by
  have hd' : (0 : Rat) < d := by exact_mod_cast hd
  unfold pyTrunc
  by_cases h : 0 ≤ n
  · rw [if_pos (div_nonneg (by exact_mod_cast h) hd'.le), Int.tdiv_eq_ediv_of_nonneg h]
    rw [Int.floor_eq_iff]
    have h1 := Int.mul_ediv_add_emod n d
    have h2 := Int.emod_nonneg n (show (d : Int) ≠ 0 by omega)
    have h3 := Int.emod_lt_of_pos n (show 0 < (d : Int) by omega)
    constructor
    · rw [le_div_iff₀ hd']
      have : n / d * (d : Int) ≤ n := by nlinarith
      exact_mod_cast this
    · rw [div_lt_iff₀ hd']
      have : n < (n / d + 1) * (d : Int) := by nlinarith
      exact_mod_cast this
  · have hn : ¬ 0 ≤ (n : Rat) / d := by
      rw [not_le]
      exact div_neg_of_neg_of_pos (by exact_mod_cast (by omega : n < 0)) hd'
    rw [if_neg hn]
    have e : Int.tdiv n d = -((-n) / d) := by
      conv_lhs => rw [show n = -(-n) by ring]
      rw [Int.neg_tdiv, Int.tdiv_eq_ediv_of_nonneg (by omega)]
    rw [e, Int.ceil_eq_iff]
    have h1 := Int.mul_ediv_add_emod (-n) d
    have h2 := Int.emod_nonneg (-n) (show (d : Int) ≠ 0 by omega)
    have h3 := Int.emod_lt_of_pos (-n) (show 0 < (d : Int) by omega)
    constructor
    · rw [lt_div_iff₀ hd']
      have : (-((-n) / d) - 1) * (d : Int) < n := by nlinarith
      exact_mod_cast this
    · rw [div_le_iff₀ hd']
      have : n ≤ -((-n) / d) * (d : Int) := by nlinarith
      exact_mod_cast this

theorem bridge_samples {a b : Trace} (h : Follows a b) (hg : b.start - a.stop ≤ 3) :
    ∃ r x y r', stamps a.start a.data = r ++ [(a.stop, x)] ∧ stamps b.start b.data = (b.start, y) :: r' ∧
      stamps (bridge a b).start (bridge a b).data =
        r ++ [(a.stop, x)] ++ between (a.stop, x) (b.start, y) ++ (b.start, y) :: r' := by
  obtain ⟨ha, hb, hab⟩ := h
  obtain ⟨x, r, e1⟩ := last_stamps ha
  cases hbd : b.data with
  | nil => exact absurd hbd hb
  | cons y l =>
    refine ⟨r, x, y, stamps (b.start + 1) l, e1, by rw [stamps], ?_⟩
    have hx : a.data.getLast? = some x := by
      rcases List.eq_nil_or_concat a.data with h' | ⟨q, z, h'⟩
      · exact absurd h' ha
      · rw [h', List.concat_eq_append, stamps_append] at e1
        have := (List.append_inj' e1 rfl).2
        simp only [stamps, List.cons.injEq, Prod.mk.injEq, and_true] at this
        rw [h', List.concat_eq_append, List.getLast?_append]
        simp [this.2]
    have hstop := stop_of_ne ha
    have hl : 0 < a.data.length := List.length_pos_iff.mpr ha
    unfold bridge
    rw [hx, hbd]
    simp only [List.head?_cons]
    rw [stamps_append, e1, stamps_append, length_fillChunk]
    have p1 : a.start + (a.data.length : Int) = a.stop + 1 := by omega
    have p2 : a.start + (a.data.length : Int) + ((b.start - a.stop - 1).toNat : Int) = b.start := by omega
    rw [p2, p1]
    have q : stamps (a.stop + 1) ((fillChunk true (b.start - a.stop - 1).toNat (some x) (some y)).filterMap id) =
        between (a.stop, x) (b.start, y) := by
      have hc : b.start - a.stop = 1 ∨ b.start - a.stop = 2 ∨ b.start - a.stop = 3 := by omega
      rcases hc with hc | hc | hc
      · have : (b.start - a.stop - 1).toNat = 0 := by omega
        rw [this]
        unfold between
        simp only [hc]
        rfl
      · have : (b.start - a.stop - 1).toNat = 1 := by omega
        rw [this]
        unfold between
        simp only [hc, if_true]
        have e : (x : Rat) + (((0 : Nat) : Rat) + 1) * ((y - x : Int) : Rat) / (((1 : Nat) : Rat) + 1) =
            ((x + y : Int) : Rat) / ((2 : Nat) : Rat) := by push_cast; ring
        simp only [fillChunk, List.range_one, List.map_cons, List.map_nil, e, pyTrunc_div _ 2 (by norm_num)]
        rfl
      · have : (b.start - a.stop - 1).toNat = 2 := by omega
        rw [this]
        unfold between
        simp only [hc]
        have e : (x : Rat) + (((0 : Nat) : Rat) + 1) * ((y - x : Int) : Rat) / (((2 : Nat) : Rat) + 1) =
            ((2 * x + y : Int) : Rat) / ((3 : Nat) : Rat) := by push_cast; ring
        have e' : (x : Rat) + (((1 : Nat) : Rat) + 1) * ((y - x : Int) : Rat) / (((2 : Nat) : Rat) + 1) =
            ((x + 2 * y : Int) : Rat) / ((3 : Nat) : Rat) := by push_cast; ring
        have hr : List.range 2 = [0, 1] := rfl
        simp only [fillChunk, hr, List.map_cons, List.map_nil, e, e', pyTrunc_div _ 3 (by norm_num)]
        simp [stamps]
        ring
    rw [q]
    simp [stamps]

end Gemlog
