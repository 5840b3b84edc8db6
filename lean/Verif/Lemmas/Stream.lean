import Verif.Model.Stream
import Verif.Spec.Record
import Mathlib.Tactic.Ring
import Mathlib.Tactic.Linarith
import Mathlib.Tactic.FieldSimp

/-! # Slicing, trimming and merging in terms of samples -/

namespace Gemlog

theorem stamps_append (k : Int) (a b : List Int) :
    stamps k (a ++ b) = stamps k a ++ stamps (k + a.length) b := by
  induction a generalizing k with
  | nil => simp [stamps]
  | cons x a ih =>
    simp only [List.cons_append, stamps, ih, List.length_cons]
    congr 3
    push_cast; ring

theorem mem_stamps_range {k : Int} {l : List Int} {a : Int × Int} (h : a ∈ stamps k l) :
    k ≤ a.1 ∧ a.1 < k + l.length := by
  induction l generalizing k with
  | nil => simp [stamps] at h
  | cons x l ih =>
    rcases List.mem_cons.mp h with rfl | h
    · simp
    · have := ih h
      simp only [List.length_cons]
      push_cast
      omega

theorem stamps_increasing (k : Int) (l : List Int) : Increasing (stamps k l) := by
  induction l generalizing k with
  | nil => exact List.Pairwise.nil
  | cons x l ih =>
    refine List.Pairwise.cons ?_ (ih _)
    intro a ha
    have := mem_stamps_range ha
    show k < a.1
    omega

@[simp] theorem length_stamps (k : Int) (l : List Int) : (stamps k l).length = l.length := by
  induction l generalizing k with
  | nil => rfl
  | cons x l ih => simp [stamps, ih]

theorem stamps_eq_nil {k : Int} {l : List Int} : stamps k l = [] ↔ l = [] := by
  cases l <;> simp [stamps]

/-- Cutting at the front is filtering by time. -/
theorem stamps_filter_ge (k a : Int) (l : List Int) :
    (stamps k l).filter (fun q => decide (a ≤ q.1)) = stamps (k + (a - k).toNat) (l.drop (a - k).toNat) := by
  have h1 : l = l.take (a - k).toNat ++ l.drop (a - k).toNat := (List.take_append_drop _ _).symm
  by_cases hlen : (a - k).toNat ≤ l.length
  · have e : stamps k l = stamps k (l.take (a - k).toNat) ++ stamps (k + (a - k).toNat) (l.drop (a - k).toNat) := by
      conv_lhs => rw [h1]
      rw [stamps_append, List.length_take, min_eq_left hlen]
    rw [e, List.filter_append]
    have f1 : (stamps k (l.take (a - k).toNat)).filter (fun q => decide (a ≤ q.1)) = [] := by
      rw [List.filter_eq_nil_iff]
      intro q hq
      have := mem_stamps_range hq
      rw [List.length_take, min_eq_left hlen] at this
      simp only [decide_eq_true_eq]
      omega
    have f2 : (stamps (k + (a - k).toNat) (l.drop (a - k).toNat)).filter (fun q => decide (a ≤ q.1)) =
        stamps (k + (a - k).toNat) (l.drop (a - k).toNat) := by
      rw [List.filter_eq_self]
      intro q hq
      have := mem_stamps_range hq
      simp only [decide_eq_true_eq]
      omega
    rw [f1, f2, List.nil_append]
  · have hd : l.drop (a - k).toNat = [] := List.drop_eq_nil_of_le (by omega)
    rw [hd]
    show _ = []
    rw [List.filter_eq_nil_iff]
    intro q hq
    have := mem_stamps_range hq
    simp only [decide_eq_true_eq]
    omega

/-- Cutting at the end is filtering by time. -/
theorem stamps_filter_le (k b : Int) (l : List Int) :
    (stamps k l).filter (fun q => decide (q.1 ≤ b)) = stamps k (l.take (b - k + 1).toNat) := by
  have h1 : l = l.take (b - k + 1).toNat ++ l.drop (b - k + 1).toNat := (List.take_append_drop _ _).symm
  by_cases hlen : (b - k + 1).toNat ≤ l.length
  · have e : stamps k l = stamps k (l.take (b - k + 1).toNat) ++
        stamps (k + (b - k + 1).toNat) (l.drop (b - k + 1).toNat) := by
      conv_lhs => rw [h1]
      rw [stamps_append, List.length_take, min_eq_left hlen]
    rw [e, List.filter_append]
    have f2 : (stamps (k + (b - k + 1).toNat) (l.drop (b - k + 1).toNat)).filter (fun q => decide (q.1 ≤ b)) = [] := by
      rw [List.filter_eq_nil_iff]
      intro q hq
      have := mem_stamps_range hq
      simp only [decide_eq_true_eq]
      omega
    have f1 : (stamps k (l.take (b - k + 1).toNat)).filter (fun q => decide (q.1 ≤ b)) =
        stamps k (l.take (b - k + 1).toNat) := by
      rw [List.filter_eq_self]
      intro q hq
      have := mem_stamps_range hq
      rw [List.length_take, min_eq_left hlen] at this
      simp only [decide_eq_true_eq]
      omega
    rw [f1, f2, List.append_nil]
  · rw [List.take_of_length_le (by omega), List.filter_eq_self]
    intro q hq
    have := mem_stamps_range hq
    simp only [decide_eq_true_eq]
    omega

theorem ltrim_stamps (d : Int) (tr : Trace) :
    stamps (tr.ltrim d).start (tr.ltrim d).data =
      (stamps tr.start tr.data).filter fun q => decide (tr.start + d ≤ q.1) := by
  rw [stamps_filter_ge]
  unfold Trace.ltrim
  by_cases h : d > 0
  · rw [if_pos h]
    have : tr.start + d - tr.start = d := by ring
    rw [this]
    congr 1
    show tr.start + d = _
    omega
  · rw [if_neg h]
    have : (tr.start + d - tr.start).toNat = 0 := by omega
    rw [this]
    simp

/-- The last kept sample. -/
theorem rtrim_stamps (d b : Int) (before : Bool) (tr : Trace)
    (hd : d = b - tr.start - tr.data.length + 1 ∨ (tr.data = [])) (hb : before = true ↔ b < tr.start) :
    stamps (tr.rtrim d before).start (tr.rtrim d before).data =
      (stamps tr.start tr.data).filter fun q => decide (q.1 ≤ b) := by
  rw [stamps_filter_le]
  unfold Trace.rtrim
  rcases hd with hd | hd
  · by_cases h : d ≥ 0
    · rw [if_pos h, List.take_of_length_le (by omega)]
    · rw [if_neg h]
      cases before with
      | true =>
        have := hb.mp rfl
        rw [show (b - tr.start + 1).toNat = 0 by omega]
        simp [stamps]
      | false =>
        have : ¬ b < tr.start := fun h' => by simpa using hb.mpr h'
        simp only [Bool.false_eq_true, if_false]
        congr 2
        omega
  · rw [hd]
    by_cases h : d ≥ 0
    · rw [if_pos h, hd]; simp [stamps]
    · rw [if_neg h]
      cases before <;> simp [stamps]

theorem stop_of_ne {tr : Trace} (h : tr.data ≠ []) : tr.stop = tr.start + tr.data.length - 1 := by
  unfold Trace.stop
  rw [if_neg]
  intro h'
  exact h (List.length_eq_zero_iff.mp h')

/-- `Trace.slice` keeps exactly the samples in the interval. -/
theorem slice_stamps (s e : Int) (tr : Trace) :
    stamps (tr.slice s e).start (tr.slice s e).data =
      (stamps tr.start tr.data).filter fun q => decide (s ≤ 10000 * q.1) && decide (10000 * q.1 ≤ e) := by
  unfold Trace.slice
  simp only
  rw [rtrim_stamps _ (e / 10000), ltrim_stamps, List.filter_filter]
  · apply List.filter_congr
    intro q _
    rw [Bool.and_comm]
    congr 1
    · rw [decide_eq_decide]; omega
    · rw [decide_eq_decide]; omega
  · by_cases h : (tr.ltrim (-((10000 * tr.start - s) / 10000))).data = []
    · exact Or.inr h
    · left
      rw [stop_of_ne h]
      omega
  · simp only [decide_eq_true_eq]
    omega

/-- `Trace.trim` on the grid keeps exactly the samples in the interval. -/
theorem trim_stamps (a b : Int) (tr : Trace) :
    stamps (tr.trim a b).start (tr.trim a b).data =
      (stamps tr.start tr.data).filter fun q => decide (a ≤ q.1) && decide (q.1 ≤ b) := by
  unfold Trace.trim
  simp only
  rw [rtrim_stamps _ b, ltrim_stamps, List.filter_filter]
  · apply List.filter_congr
    intro q _
    rw [Bool.and_comm]
    congr 1
    rw [decide_eq_decide]; omega
  · left; ring
  · simp

theorem samples_nil : samples [] = [] := rfl

theorem samples_cons (tr : Trace) (p : List Trace) : samples (tr :: p) = stamps tr.start tr.data ++ samples p := rfl

theorem samples_append (a b : List Trace) : samples (a ++ b) = samples a ++ samples b := by
  unfold samples; rw [List.flatMap_append]

/-- Leaving out empty traces changes no samples. -/
theorem samples_filter_nonempty (p : List Trace) :
    samples (p.filter fun tr => tr.data.length != 0) = samples p := by
  induction p with
  | nil => rfl
  | cons tr p ih =>
    by_cases h : tr.data = []
    · rw [List.filter_cons_of_neg (by simp [h]), ih, samples_cons, h]; rfl
    · rw [List.filter_cons_of_pos (by simp [h]), samples_cons, samples_cons, ih]

/-- Filtering trace by trace is filtering the record. -/
theorem samples_map_filter (f : Trace → Trace) (c : Int × Int → Bool)
    (hf : ∀ tr, stamps (f tr).start (f tr).data = (stamps tr.start tr.data).filter c) (p : List Trace) :
    samples (p.map f) = (samples p).filter c := by
  induction p with
  | nil => rfl
  | cons tr p ih => rw [List.map_cons, samples_cons, samples_cons, hf, ih, List.filter_append]

theorem samples_sliceStream (s e : Int) (p : List Trace) :
    samples (sliceStream s e p) =
      (samples p).filter fun q => decide (s ≤ 10000 * q.1) && decide (10000 * q.1 ≤ e) := by
  unfold sliceStream
  rw [samples_filter_nonempty]
  exact samples_map_filter _ _ (slice_stamps s e) p

theorem roundAway_mul (k : Int) : roundAway (10000 * k) = k := by
  unfold roundAway
  split_ifs <;> omega

theorem roundAway_le {d k : Int} (h : d ≤ 10000 * k) : roundAway d ≤ k := by
  unfold roundAway
  split_ifs <;> omega

theorem le_roundAway {d k : Int} (h : 10000 * k ≤ d) : k ≤ roundAway d := by
  unfold roundAway
  split_ifs <;> omega

/-- The times `Stream.trim` cuts at. -/
def trimLimits (a b : Int) (tr : Trace) : Int × Int :=
  (tr.start + roundAway (a - 10000 * tr.start), tr.stop + roundAway (b - 10000 * tr.stop))

theorem trimStream_cases (a b : Int) (tr : Trace) (p : List Trace) :
    (trimStream a b (tr :: p) = .error .other ∧ (trimLimits a b tr).1 > (trimLimits a b tr).2) ∨
    (∃ p', trimStream a b (tr :: p) = .ok p' ∧ (trimLimits a b tr).1 ≤ (trimLimits a b tr).2 ∧
      (∀ t ∈ p', t.data ≠ []) ∧
      samples p' = (samples (tr :: p)).filter fun q =>
        decide ((trimLimits a b tr).1 ≤ q.1) && decide (q.1 ≤ (trimLimits a b tr).2)) := by
  unfold trimStream
  simp only
  by_cases h : (trimLimits a b tr).1 > (trimLimits a b tr).2
  · left
    exact ⟨if_pos h, h⟩
  · right
    refine ⟨_, if_neg h, by omega, ?_, ?_⟩
    · intro t ht
      have := (List.mem_filter.mp ht).2
      intro h'
      simp [h'] at this
    · rw [samples_filter_nonempty]
      exact samples_map_filter _ _ (trim_stamps _ _) _

theorem increasing_append {a b : List (Int × Int)} :
    Increasing (a ++ b) ↔ Increasing a ∧ Increasing b ∧ ∀ x ∈ a, ∀ y ∈ b, x.1 < y.1 := by
  unfold Increasing
  rw [List.pairwise_append]

/-- An increasing record is cut in two at any time. -/
theorem increasing_split {s : List (Int × Int)} (hs : Increasing s) (c : Int) :
    s.filter (fun q => decide (q.1 < c)) ++ s.filter (fun q => decide (c ≤ q.1)) = s := by
  induction s with
  | nil => rfl
  | cons x s ih =>
    have hs' := List.pairwise_cons.mp hs
    by_cases h : x.1 < c
    · rw [List.filter_cons_of_pos (by simpa using h), List.filter_cons_of_neg (by simpa using h),
        List.cons_append, ih hs'.2]
    · have e1 : (x :: s).filter (fun q => decide (q.1 < c)) = [] := by
        rw [List.filter_eq_nil_iff]
        intro q hq
        simp only [decide_eq_true_eq]
        rcases List.mem_cons.mp hq with rfl | hq
        · omega
        · have := hs'.1 q hq; omega
      have e2 : (x :: s).filter (fun q => decide (c ≤ q.1)) = x :: s := by
        rw [List.filter_eq_self]
        intro q hq
        simp only [decide_eq_true_eq]
        rcases List.mem_cons.mp hq with rfl | hq
        · omega
        · have := hs'.1 q hq; omega
      rw [e1, e2, List.nil_append]

/-- The first and last samples of a stream. -/
theorem head_samples {tr : Trace} {p : List Trace} (h : tr.data ≠ []) :
    ∃ x r, samples (tr :: p) = (tr.start, x) :: r := by
  cases hd : tr.data with
  | nil => exact absurd hd h
  | cons x l => exact ⟨x, stamps (tr.start + 1) l ++ samples p, by rw [samples_cons, hd]; rfl⟩

theorem last_stamps {tr : Trace} (h : tr.data ≠ []) :
    ∃ x r, stamps tr.start tr.data = r ++ [(tr.stop, x)] := by
  rcases List.eq_nil_or_concat tr.data with h' | ⟨l, x, h'⟩
  · exact absurd h' h
  · refine ⟨x, stamps tr.start l, ?_⟩
    rw [stop_of_ne h, h', List.concat_eq_append, stamps_append]
    simp [stamps]
    omega

theorem last_samples {p : List Trace} {tr : Trace} (hl : p.getLast? = some tr) (h : tr.data ≠ []) :
    ∃ x r, samples p = r ++ [(tr.stop, x)] := by
  obtain ⟨q, rfl⟩ := List.getLast?_eq_some_iff.mp hl
  obtain ⟨x, r, e⟩ := last_stamps h
  exact ⟨x, samples q ++ r, by rw [samples_append, samples_cons, e, samples_nil]; simp⟩

theorem samples_eq_nil {p : List Trace} (h : ∀ tr ∈ p, tr.data ≠ []) : samples p = [] ↔ p = [] := by
  constructor
  · intro e
    cases p with
    | nil => rfl
    | cons tr p =>
      obtain ⟨x, r, e'⟩ := head_samples (p := p) (h tr (by simp))
      rw [e'] at e
      simp at e
  · rintro rfl; rfl

/-- The last sample is the latest. -/
theorem le_stop {p : List Trace} (ho : InOrder p) {tr : Trace} (hl : p.getLast? = some tr) {q : Int × Int}
    (hq : q ∈ samples p) : q.1 ≤ tr.stop := by
  obtain ⟨x, r, e⟩ := last_samples hl (ho.1 tr (List.mem_of_getLast? hl))
  have := ho.2
  rw [e] at this hq
  rcases List.mem_append.mp hq with h | h
  · have := (increasing_append.mp this).2.2 q h _ (List.mem_singleton.mpr rfl)
    show q.1 ≤ tr.stop
    exact le_of_lt this
  · rw [List.mem_singleton.mp h]

theorem start_le {tr : Trace} {p : List Trace} (ho : InOrder (tr :: p)) {q : Int × Int}
    (hq : q ∈ samples (tr :: p)) : tr.start ≤ q.1 := by
  obtain ⟨x, r, e⟩ := head_samples (p := p) (ho.1 tr (by simp))
  have := ho.2
  rw [e] at this hq
  rcases List.mem_cons.mp hq with h | h
  · rw [h]
  · exact le_of_lt ((List.pairwise_cons.mp this).1 q h)

theorem inOrder_tail {tr : Trace} {p : List Trace} (ho : InOrder (tr :: p)) : InOrder p := by
  refine ⟨fun t ht => ho.1 t (by simp [ht]), ?_⟩
  have := ho.2
  rw [samples_cons] at this
  exact (increasing_append.mp this).2.1

end Gemlog
