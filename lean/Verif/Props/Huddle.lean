import Verif.Model.Huddle
import Mathlib.Tactic.Linarith
import Mathlib.Tactic.FieldSimp
import Mathlib.Tactic.Ring
import Mathlib.Tactic.NormNum
import Mathlib.Algebra.Order.Field.Basic
import Mathlib.Data.Rat.Floor

/-!
# C77: the huddle test reports exactly the readings out of range

Also the lemmas on smallest and greatest values used for C78 and C79.
-/

namespace Gemlog

/-! ## Specification -/

/-- Among the rows there is one with the value `x` in a column. -/
def HasReading (rows : List HuddleRow) (col : HuddleRow → Option Rat) (x : Rat) : Prop := ∃ r ∈ rows, col r = some x

/-- Number of steps from one row to the next in which a column keeps its value. -/
def flatSteps (rows : List HuddleRow) (col : HuddleRow → Option Rat) : Nat :=
  (List.range (rows.length - 1)).countP fun i =>
    decide (rows[i]?.bind col ≠ none ∧ rows[i]?.bind col = rows[i + 1]?.bind col)

/-- A row in which a voltage is missing, negative or above 3.1 V. -/
def OutOfRange (rows : List HuddleRow) (col : HuddleRow → Option Rat) : Prop :=
  ∃ r ∈ rows, ∀ x, col r = some x → x < 0 ∨ 31 / 10 < x

/-- When a test is to report an error. -/
def ErrorCase (rows : List HuddleRow) : HTest → Prop
  | .battMin => ∃ x, HasReading rows HuddleRow.batt x ∧ x < 17 / 10
  | .battMax => ∃ x, HasReading rows HuddleRow.batt x ∧ 15 < x
  | .tempMin => ∃ x, HasReading rows HuddleRow.temp x ∧ x < -20
  | .tempMax => ∃ x, HasReading rows HuddleRow.temp x ∧ 60 < x
  | .flatA2 => 99 * (rows.length - 1) < 100 * flatSteps rows HuddleRow.A2
  | .rangeA2 => OutOfRange rows HuddleRow.A2
  | .flatA3 => 99 * (rows.length - 1) < 100 * flatSteps rows HuddleRow.A3
  | .rangeA3 => OutOfRange rows HuddleRow.A3
  | _ => False

/-- When a test is to report a warning, unless it reports an error. -/
def WarningCase (rows : List HuddleRow) : HTest → Prop
  | .battMin => ∃ x, HasReading rows HuddleRow.batt x ∧ x < 22 / 10
  | .battMax => ∃ x, HasReading rows HuddleRow.batt x ∧ 145 / 10 < x
  | .tempMin => ∃ x, HasReading rows HuddleRow.temp x ∧ x < -15
  | .tempMax => ∃ x, HasReading rows HuddleRow.temp x ∧ 55 < x
  | .flatA2 => 95 * (rows.length - 1) < 100 * flatSteps rows HuddleRow.A2
  | .flatA3 => 95 * (rows.length - 1) < 100 * flatSteps rows HuddleRow.A3
  | .overruns => ∃ r ∈ rows, r.maxOverruns ≠ some 0
  | .unusedStack => ∃ x, (HasReading rows HuddleRow.unusedStack1 x ∨ HasReading rows HuddleRow.unusedStackIdle x) ∧ x ≤ 30
  | .gpsRunTime => ∃ (i : Nat) (r s : HuddleRow) (a b : Rat), 10 ≤ i ∧
      (rows.filter fun q => decide (q.gpsOnFlag = some 0))[i]? = some r ∧
      (rows.filter fun q => decide (q.gpsOnFlag = some 0))[i + 1]? = some s ∧
      r.t = some a ∧ s.t = some b ∧ 180 < b - a
  | _ => False

/-- When a test is to report a note. -/
def NoteCase (rows : List HuddleRow) : HTest → Prop
  | .unusualFifo => rows.length < 100 * (rows.countP fun r => decide (∃ x, r.maxFifoUsed = some x ∧ 5 < x))
  | .excessiveFifo => ∃ x, HasReading rows HuddleRow.maxFifoUsed x ∧ 50 < x
  | _ => False

/-- No reading of the battery or of the temperature is missing. -/
def NoGaps (rows : List HuddleRow) : Prop := ∀ r ∈ rows, r.batt ≠ none ∧ r.temp ≠ none

/-- The tests, in the order of the report. -/
def allTests : List HTest :=
  [.battMin, .battMax, .tempMin, .tempMax, .flatA2, .rangeA2, .flatA3, .rangeA3, .unusualFifo, .excessiveFifo, .overruns,
   .unusedStack, .gpsRunTime]

/-! ## Smallest and greatest values -/

theorem foldl_nanMin (l : List Rat) (x : Rat) :
    ∃ m, (l.map some).foldl (fun m y => if nanLt y m then y else m) (some x) = some m ∧ m ∈ x :: l ∧ ∀ y ∈ x :: l, m ≤ y := by
  induction l generalizing x with
  | nil => exact ⟨x, rfl, by simp, by simp⟩
  | cons a l ih =>
    simp only [List.map_cons, List.foldl_cons]
    by_cases h : a < x
    · obtain ⟨m, h1, h2, h3⟩ := ih a
      refine ⟨m, by simpa [nanLt, h] using h1, by simp at h2 ⊢; tauto, ?_⟩
      intro y hy
      have := h3 a (by simp)
      simp only [List.mem_cons] at hy
      rcases hy with rfl | rfl | hy
      · linarith
      · exact this
      · exact h3 y (by simp [hy])
    · obtain ⟨m, h1, h2, h3⟩ := ih x
      refine ⟨m, by simpa [nanLt, h] using h1, by simp at h2 ⊢; tauto, ?_⟩
      intro y hy
      have := h3 x (by simp)
      simp only [List.mem_cons] at hy
      rcases hy with rfl | rfl | hy
      · exact this
      · linarith
      · exact h3 y (by simp [hy])

theorem foldl_nanMax (l : List Rat) (x : Rat) :
    ∃ m, (l.map some).foldl (fun m y => if nanLt m y then y else m) (some x) = some m ∧ m ∈ x :: l ∧ ∀ y ∈ x :: l, y ≤ m := by
  induction l generalizing x with
  | nil => exact ⟨x, rfl, by simp, by simp⟩
  | cons a l ih =>
    simp only [List.map_cons, List.foldl_cons]
    by_cases h : x < a
    · obtain ⟨m, h1, h2, h3⟩ := ih a
      refine ⟨m, by simpa [nanLt, h] using h1, by simp at h2 ⊢; tauto, ?_⟩
      intro y hy
      have := h3 a (by simp)
      simp only [List.mem_cons] at hy
      rcases hy with rfl | rfl | hy
      · linarith
      · exact this
      · exact h3 y (by simp [hy])
    · obtain ⟨m, h1, h2, h3⟩ := ih x
      refine ⟨m, by simpa [nanLt, h] using h1, by simp at h2 ⊢; tauto, ?_⟩
      intro y hy
      have := h3 x (by simp)
      simp only [List.mem_cons] at hy
      rcases hy with rfl | rfl | hy
      · exact this
      · linarith
      · exact h3 y (by simp [hy])

theorem pyMinCol_some (v : List Rat) (hv : v ≠ []) :
    ∃ m, pyMinCol (v.map some) = some m ∧ m ∈ v ∧ ∀ y ∈ v, m ≤ y := by
  cases v with
  | nil => exact absurd rfl hv
  | cons x l => exact foldl_nanMin l x

theorem pyMaxCol_some (v : List Rat) (hv : v ≠ []) :
    ∃ m, pyMaxCol (v.map some) = some m ∧ m ∈ v ∧ ∀ y ∈ v, y ≤ m := by
  cases v with
  | nil => exact absurd rfl hv
  | cons x l => exact foldl_nanMax l x

theorem foldl_min_none (l : List (Option Rat)) :
    l.foldl (fun m y => if nanLt y m then y else m) none = none := by
  induction l with
  | nil => rfl
  | cons a l ih => cases a <;> simpa [nanLt] using ih

theorem foldl_max_none (l : List (Option Rat)) :
    l.foldl (fun m y => if nanLt m y then y else m) none = none := by
  induction l with
  | nil => rfl
  | cons a l ih => cases a <;> simpa [nanLt] using ih

/-- A column without missing values is a list of numbers. -/
theorem full_col {rows : List HuddleRow} {col : HuddleRow → Option Rat} (h : ∀ r ∈ rows, col r ≠ none) :
    ∃ v : List Rat, rows.map col = v.map some ∧ v.length = rows.length ∧ ∀ x, x ∈ v ↔ HasReading rows col x := by
  induction rows with
  | nil => exact ⟨[], rfl, rfl, by simp [HasReading]⟩
  | cons r rows ih =>
    obtain ⟨v, h1, h2, h3⟩ := ih fun q hq => h q (by simp [hq])
    cases hr : col r with
    | none => exact absurd hr (h r (by simp))
    | some x =>
      refine ⟨x :: v, by simp [hr, h1], by simp [h2], ?_⟩
      intro y
      simp only [List.mem_cons, h3, HasReading]
      constructor
      · rintro (rfl | ⟨q, hq, hx⟩)
        · exact ⟨r, by simp, hr⟩
        · exact ⟨q, Or.inr hq, hx⟩
      · rintro ⟨q, rfl | hq, hx⟩
        · rw [hr] at hx; exact Or.inl (Option.some.inj hx).symm
        · exact Or.inr ⟨q, hq, hx⟩

theorem min_below {rows : List HuddleRow} {col : HuddleRow → Option Rat} (hne : rows ≠ [])
    (h : ∀ r ∈ rows, col r ≠ none) (limit : Rat) :
    nanLt (pyMinCol (rows.map col)) (some limit) = true ↔ ∃ x, HasReading rows col x ∧ x < limit := by
  obtain ⟨v, h1, h2, h3⟩ := full_col h
  obtain ⟨m, hm, hmem, hle⟩ := pyMinCol_some v (by
    intro hv; rw [hv] at h2; exact hne (List.length_eq_zero_iff.mp h2.symm))
  rw [h1, hm]
  simp only [nanLt, decide_eq_true_eq]
  constructor
  · exact fun hlt => ⟨m, (h3 m).mp hmem, hlt⟩
  · rintro ⟨x, hx, hlt⟩
    exact lt_of_le_of_lt (hle x ((h3 x).mpr hx)) hlt

theorem max_above {rows : List HuddleRow} {col : HuddleRow → Option Rat} (hne : rows ≠ [])
    (h : ∀ r ∈ rows, col r ≠ none) (limit : Rat) :
    nanLt (some limit) (pyMaxCol (rows.map col)) = true ↔ ∃ x, HasReading rows col x ∧ limit < x := by
  obtain ⟨v, h1, h2, h3⟩ := full_col h
  obtain ⟨m, hm, hmem, hle⟩ := pyMaxCol_some v (by
    intro hv; rw [hv] at h2; exact hne (List.length_eq_zero_iff.mp h2.symm))
  rw [h1, hm]
  simp only [nanLt, decide_eq_true_eq]
  constructor
  · exact fun hlt => ⟨m, (h3 m).mp hmem, hlt⟩
  · rintro ⟨x, hx, hlt⟩
    exact lt_of_lt_of_le hlt (hle x ((h3 x).mpr hx))

/-! ## The single tests -/

theorem lowStatus_spec (x : Option Rat) (limit margin : Rat) {E W : Prop}
    (hE : nanLt x (some limit) = true ↔ E) (hW : nanLt x (some (limit + margin)) = true ↔ W) :
    (lowStatus x limit margin = .error ↔ E) ∧ (lowStatus x limit margin = .warning ↔ ¬ E ∧ W) ∧
      lowStatus x limit margin ≠ .note := by
  unfold lowStatus
  rw [← hE, ← hW]
  cases nanLt x (some limit) <;> cases nanLt x (some (limit + margin)) <;> simp

theorem highStatus_spec (x : Option Rat) (limit margin : Rat) {E W : Prop}
    (hE : nanLt (some limit) x = true ↔ E) (hW : nanLt (some (limit - margin)) x = true ↔ W) :
    (highStatus x limit margin = .error ↔ E) ∧ (highStatus x limit margin = .warning ↔ ¬ E ∧ W) ∧
      highStatus x limit margin ≠ .note := by
  unfold highStatus
  rw [← hE, ← hW]
  cases nanLt (some limit) x <;> cases nanLt (some (limit - margin)) x <;> simp

theorem diffCol_getElem? (l : List (Option Rat)) (i : Nat) (d : Rat) :
    (diffCol l)[i]? = some (some d) ↔ ∃ a b : Rat, l[i]? = some (some a) ∧ l[i + 1]? = some (some b) ∧ d = b - a := by
  induction l generalizing i with
  | nil => simp [diffCol]
  | cons x l ih =>
    cases l with
    | nil => simp [diffCol]
    | cons y l =>
      cases i with
      | zero =>
        cases x <;> cases y <;> simp [diffCol]
        exact eq_comm
      | succ i =>
        simp only [diffCol, List.getElem?_cons_succ]
        rw [ih]
        simp

theorem diffCol_length (l : List (Option Rat)) : (diffCol l).length = l.length - 1 := by
  induction l with
  | nil => rfl
  | cons x l ih =>
    cases l with
    | nil => rfl
    | cons y l => simp only [diffCol, List.length_cons] at ih ⊢; omega

theorem countP_range (l : List (Option Rat)) (p : Option Rat → Bool) :
    l.countP p = (List.range l.length).countP fun i => (l[i]?.map p).getD false := by
  induction l with
  | nil => rfl
  | cons a l ih =>
    rw [List.countP_cons, List.length_cons, List.range_succ_eq_map, List.countP_cons, List.countP_map, ih]
    rfl

theorem flat_count (rows : List HuddleRow) (col : HuddleRow → Option Rat) :
    (diffCol (rows.map col)).countP (fun d => decide (d = some 0)) = flatSteps rows col := by
  rw [countP_range, diffCol_length, List.length_map, flatSteps]
  apply List.countP_congr
  intro i hi
  rw [decide_eq_true_eq]
  have h1 : (((diffCol (rows.map col))[i]?.map fun d => decide (d = some 0)).getD false = true) ↔
      (diffCol (rows.map col))[i]? = some (some 0) := by
    cases (diffCol (rows.map col))[i]? <;> simp
  rw [h1, diffCol_getElem?]
  simp only [List.getElem?_map]
  have key : ∀ (o : Option HuddleRow) (x : Rat), o.map col = some (some x) ↔ o.bind col = some x := by
    intro o x; cases o <;> simp
  simp only [key]
  constructor
  · rintro ⟨a, b, ha, hb, hab⟩
    have : a = b := by linarith
    subst this
    exact ⟨by simp [ha], by rw [ha, hb]⟩
  · rintro ⟨hne, heq⟩
    obtain ⟨x, hx⟩ := Option.ne_none_iff_exists'.mp hne
    exact ⟨x, x, hx, by rw [← heq, hx], by ring⟩

theorem part_gt (n k a : Nat) (hn : 1 < n) :
    ((k : Rat) / ((n : Rat) - 1) > (a : Rat) / 100) ↔ a * (n - 1) < 100 * k := by
  have h1 : ((n - 1 : Nat) : Rat) = (n : Rat) - 1 := by push_cast [Nat.cast_sub hn.le]; ring
  have h2 : (0 : Rat) < (n : Rat) - 1 := by
    have : (1 : Rat) < n := by exact_mod_cast hn
    linarith
  rw [gt_iff_lt, div_lt_div_iff₀ (by norm_num) h2, ← h1]
  constructor
  · intro h; have : a * (n - 1) < k * 100 := by exact_mod_cast h
    omega
  · intro h; have : a * (n - 1) < k * 100 := by omega
    exact_mod_cast this

theorem flatStatus_spec (rows : List HuddleRow) (col : HuddleRow → Option Rat) (hn : 1 < rows.length) :
    (flatStatus (rows.map col) = .error ↔ 99 * (rows.length - 1) < 100 * flatSteps rows col) ∧
      (flatStatus (rows.map col) = .warning ↔
        ¬ 99 * (rows.length - 1) < 100 * flatSteps rows col ∧ 95 * (rows.length - 1) < 100 * flatSteps rows col) ∧
      flatStatus (rows.map col) ≠ .note := by
  have hE := part_gt rows.length (flatSteps rows col) 99 hn
  have hW := part_gt rows.length (flatSteps rows col) 95 hn
  unfold flatStatus flatPart
  rw [flat_count, List.length_map]
  push_cast at hE hW
  by_cases h1 : 99 * (rows.length - 1) < 100 * flatSteps rows col
  · rw [if_pos (hE.mpr h1)]; simp [h1]
  · rw [if_neg (fun h => h1 (hE.mp h))]
    by_cases h2 : 95 * (rows.length - 1) < 100 * flatSteps rows col
    · rw [if_pos (hW.mpr h2)]; simp [h1, h2]
    · rw [if_neg (fun h => h2 (hW.mp h))]; simp [h1, h2]

theorem rangeStatus_spec (rows : List HuddleRow) (col : HuddleRow → Option Rat) :
    (rangeStatus (rows.map col) = .error ↔ OutOfRange rows col) ∧ rangeStatus (rows.map col) ≠ .warning ∧
      rangeStatus (rows.map col) ≠ .note := by
  have h : ((((rows.map col).all fun x => nanLe (some 0) x) && ((rows.map col).all fun x => nanLe x (some (31 / 10)))) = true) ↔
      ¬ OutOfRange rows col := by
    rw [Bool.and_eq_true, List.all_eq_true, List.all_eq_true]
    simp only [List.mem_map, forall_exists_index, and_imp, forall_apply_eq_imp_iff₂, OutOfRange]
    push Not
    constructor
    · rintro ⟨h1, h2⟩ r hr
      have a := h1 r hr
      have b := h2 r hr
      cases hc : col r with
      | none => rw [hc] at a; simp [nanLe] at a
      | some x =>
        rw [hc] at a b
        exact ⟨x, rfl, by simpa [nanLe] using a, by simpa [nanLe] using b⟩
    · intro h
      constructor <;> intro r hr <;> obtain ⟨x, hx, h1, h2⟩ := h r hr <;> rw [hx] <;> simpa [nanLe]
  unfold rangeStatus
  by_cases hc : OutOfRange rows col
  · rw [if_neg (by rw [h]; simpa using hc)]; simp [hc]
  · rw [if_pos (h.mpr hc)]; simp [hc]

theorem any_above (rows : List HuddleRow) (col : HuddleRow → Option Rat) (a : Rat) :
    ((rows.map col).any fun x => nanLt (some a) x) = true ↔ ∃ x, HasReading rows col x ∧ a < x := by
  rw [List.any_eq_true]
  simp only [List.mem_map, HasReading]
  constructor
  · rintro ⟨o, ⟨r, hr, rfl⟩, h⟩
    cases hc : col r with
    | none => rw [hc] at h; simp [nanLt] at h
    | some x => rw [hc] at h; exact ⟨x, ⟨r, hr, hc⟩, by simpa [nanLt] using h⟩
  · rintro ⟨x, ⟨r, hr, hc⟩, h⟩
    exact ⟨col r, ⟨r, hr, rfl⟩, by rw [hc]; simpa [nanLt] using h⟩

theorem any_atMost (rows : List HuddleRow) (col : HuddleRow → Option Rat) (a : Rat) :
    ((rows.map col).any fun x => nanLe x (some a)) = true ↔ ∃ x, HasReading rows col x ∧ x ≤ a := by
  rw [List.any_eq_true]
  simp only [List.mem_map, HasReading]
  constructor
  · rintro ⟨o, ⟨r, hr, rfl⟩, h⟩
    cases hc : col r with
    | none => rw [hc] at h; simp [nanLe] at h
    | some x => rw [hc] at h; exact ⟨x, ⟨r, hr, hc⟩, by simpa [nanLe] using h⟩
  · rintro ⟨x, ⟨r, hr, hc⟩, h⟩
    exact ⟨col r, ⟨r, hr, rfl⟩, by rw [hc]; simpa [nanLe] using h⟩

theorem gps_any (rows : List HuddleRow) :
    ((gpsIntervals rows).any fun d => nanLt (some 180) d) = true ↔ WarningCase rows .gpsRunTime := by
  rw [List.any_eq_true]
  simp only [gpsIntervals, List.mem_filter, WarningCase]
  generalize (rows.filter fun q => decide (q.gpsOnFlag = some 0)) = off
  constructor
  · rintro ⟨d, ⟨hd, -⟩, h180⟩
    cases d with
    | none => simp [nanLt] at h180
    | some d =>
      obtain ⟨i, hi⟩ := List.mem_iff_getElem?.mp hd
      rw [List.getElem?_drop] at hi
      obtain ⟨a, b, h1, h2, h3⟩ := (diffCol_getElem? _ _ _).mp hi
      rw [List.getElem?_map, Option.map_eq_some_iff] at h1 h2
      obtain ⟨r, hr, hra⟩ := h1
      obtain ⟨s, hs, hsb⟩ := h2
      refine ⟨10 + i, r, s, a, b, by omega, hr, hs, hra, hsb, ?_⟩
      rw [← h3]; simpa [nanLt] using h180
  · rintro ⟨i, r, s, a, b, hi, hr, hs, hra, hsb, h⟩
    refine ⟨some (b - a), ⟨?_, ?_⟩, by simpa [nanLt] using h⟩
    · refine List.mem_iff_getElem?.mpr ⟨i - 10, ?_⟩
      rw [List.getElem?_drop, diffCol_getElem?]
      have : 10 + (i - 10) = i := by omega
      rw [this]
      exact ⟨a, b, by simp [hr, hra], by simp [hs, hsb], rfl⟩
    · simp only [nanLt, decide_eq_true_eq]; linarith

theorem fifo_count (rows : List HuddleRow) :
    ((rows.map HuddleRow.maxFifoUsed).countP fun x => nanLt (some 5) x) =
      rows.countP fun r => decide (∃ x, r.maxFifoUsed = some x ∧ 5 < x) := by
  rw [List.countP_map]
  apply List.countP_congr
  intro r hr
  simp only [Function.comp]
  cases r.maxFifoUsed <;> simp [nanLt]

/-- What a status says. -/
def StatusSays (rows : List HuddleRow) (test : HTest) (s : HStatus) : Prop :=
  (s = .error ↔ ErrorCase rows test) ∧ (s = .warning ↔ ¬ ErrorCase rows test ∧ WarningCase rows test) ∧
    (s = .note ↔ NoteCase rows test)

theorem testRow_says (rows : List HuddleRow) (hn : 1 < rows.length) (hg : NoGaps rows) :
    ∀ p ∈ testRow rows, StatusSays rows p.1 p.2 := by
  have hne : rows ≠ [] := by rintro rfl; simp at hn
  have hb : ∀ r ∈ rows, r.batt ≠ none := fun r hr => (hg r hr).1
  have ht : ∀ r ∈ rows, r.temp ≠ none := fun r hr => (hg r hr).2
  have three : ∀ {s : HStatus} {E W : Prop}, (s = .error ↔ E) ∧ (s = .warning ↔ ¬ E ∧ W) ∧ s ≠ .note →
      (s = .error ↔ E) ∧ (s = .warning ↔ ¬ E ∧ W) ∧ (s = .note ↔ False) := by
    rintro s E W ⟨a, b, c⟩; exact ⟨a, b, by simpa using c⟩
  unfold testRow
  simp only [List.mem_cons, List.not_mem_nil, or_false, forall_eq_or_imp, forall_eq]
  refine ⟨?_, ?_, ?_, ?_, ?_, ?_, ?_, ?_, ?_, ?_, ?_, ?_, ?_⟩
  · refine three (lowStatus_spec _ _ _ (min_below hne hb _) ?_)
    rw [min_below hne hb]; norm_num [WarningCase]
  · refine three (highStatus_spec _ _ _ (max_above hne hb _) ?_)
    rw [max_above hne hb]; norm_num [WarningCase]
  · refine three (lowStatus_spec _ _ _ (min_below hne ht _) ?_)
    rw [min_below hne ht]; norm_num [WarningCase]
  · refine three (highStatus_spec _ _ _ (max_above hne ht _) ?_)
    rw [max_above hne ht]; norm_num [WarningCase]
  · exact three (flatStatus_spec rows _ hn)
  · obtain ⟨a, b, c⟩ := rangeStatus_spec rows HuddleRow.A2
    exact ⟨a, by simp [WarningCase, b], by simp [NoteCase, c]⟩
  · exact three (flatStatus_spec rows _ hn)
  · obtain ⟨a, b, c⟩ := rangeStatus_spec rows HuddleRow.A3
    exact ⟨a, by simp [WarningCase, b], by simp [NoteCase, c]⟩
  · have hl : (0 : Rat) < rows.length := by exact_mod_cast (by omega : 0 < rows.length)
    have h : (((((rows.map HuddleRow.maxFifoUsed).countP fun x => nanLt (some 5) x : Nat) : Rat) /
        ((rows.map HuddleRow.maxFifoUsed).length : Rat)) > 1 / 100) ↔ NoteCase rows .unusualFifo := by
      rw [fifo_count, List.length_map, gt_iff_lt, div_lt_div_iff₀ (by norm_num) hl]
      unfold NoteCase
      constructor
      · intro h
        have : 1 * rows.length < (rows.countP fun r => decide (∃ x, r.maxFifoUsed = some x ∧ 5 < x)) * 100 := by
          exact_mod_cast h
        omega
      · intro h
        have : 1 * rows.length < (rows.countP fun r => decide (∃ x, r.maxFifoUsed = some x ∧ 5 < x)) * 100 := by omega
        exact_mod_cast this
    unfold StatusSays unusualFifoStatus
    by_cases hc : NoteCase rows .unusualFifo
    · rw [if_pos (h.mpr hc)]; simp [ErrorCase, WarningCase, hc]
    · rw [if_neg (fun h' => hc (h.mp h'))]; simp [ErrorCase, WarningCase, hc]
  · have h := any_above rows HuddleRow.maxFifoUsed 50
    unfold StatusSays excessiveFifoStatus
    by_cases hc : NoteCase rows .excessiveFifo
    · rw [if_pos (h.mpr hc)]; simp [ErrorCase, WarningCase, hc]
    · rw [if_neg (fun h' => hc (h.mp h'))]; simp [ErrorCase, WarningCase, hc]
  · have h : ((rows.map HuddleRow.maxOverruns).any fun x => decide (x ≠ some 0)) = true ↔ WarningCase rows .overruns := by
      rw [List.any_eq_true]; simp [WarningCase]
    unfold StatusSays overrunStatus
    by_cases hc : WarningCase rows .overruns
    · rw [if_pos (h.mpr hc)]; simp [ErrorCase, NoteCase, hc]
    · rw [if_neg (fun h' => hc (h.mp h'))]; simp [ErrorCase, NoteCase, hc]
  · have h : (((rows.map HuddleRow.unusedStack1).any fun x => nanLe x (some 30)) ||
        ((rows.map HuddleRow.unusedStackIdle).any fun x => nanLe x (some 30))) = true ↔ WarningCase rows .unusedStack := by
      rw [Bool.or_eq_true, any_atMost, any_atMost]
      unfold WarningCase
      constructor
      · rintro (⟨x, h1, h2⟩ | ⟨x, h1, h2⟩)
        · exact ⟨x, Or.inl h1, h2⟩
        · exact ⟨x, Or.inr h1, h2⟩
      · rintro ⟨x, h1 | h1, h2⟩
        · exact Or.inl ⟨x, h1, h2⟩
        · exact Or.inr ⟨x, h1, h2⟩
    unfold StatusSays stackStatus
    by_cases hc : WarningCase rows .unusedStack
    · rw [if_pos (h.mpr hc)]; simp [ErrorCase, NoteCase, hc]
    · rw [if_neg (fun h' => hc (h.mp h'))]; simp [ErrorCase, NoteCase, hc]
  · have h := gps_any rows
    unfold StatusSays gpsStatus
    by_cases hc : WarningCase rows .gpsRunTime
    · rw [if_pos (h.mpr hc)]; simp [ErrorCase, NoteCase, hc]
    · rw [if_neg (fun h' => hc (h.mp h'))]; simp [ErrorCase, NoteCase, hc]

/-! ## The loop over the loggers -/

theorem individualTests_eq (loggers : List (List Nat × List HuddleRow)) (acc out : Individual)
    (h : individualTests loggers acc = .ok out) :
    (∀ p ∈ loggers, labelCheck p.2 = .ok ()) ∧
    out.results = acc.results ++ loggers.map (fun p => (p.1, testRow p.2)) ∧
    out.errors = acc.errors ++ loggers.flatMap (fun p => messagesFor .error p.1 (testRow p.2)) ∧
    out.warnings = acc.warnings ++ loggers.flatMap (fun p => messagesFor .warning p.1 (testRow p.2)) ∧
    out.notes = acc.notes ++ loggers.flatMap (fun p => messagesFor .note p.1 (testRow p.2)) := by
  induction loggers generalizing acc with
  | nil => cases h; simp
  | cons p rest ih =>
    obtain ⟨sn, rows⟩ := p
    rw [individualTests] at h
    cases hl : labelCheck rows with
    | error e => rw [hl] at h; cases h
    | ok u =>
      rw [hl] at h
      obtain ⟨h1, h2, h3, h4, h5⟩ := ih _ h
      refine ⟨?_, ?_, ?_, ?_, ?_⟩
      · intro p hp
        rcases List.mem_cons.mp hp with rfl | hp
        · exact hl
        · exact h1 p hp
      · simp [h2]
      · simp [h3]
      · simp [h4]
      · simp [h5]

theorem labelCheck_length {rows : List HuddleRow} (h : labelCheck rows = .ok ()) : 1 < rows.length := by
  unfold labelCheck at h
  split at h
  · omega
  · cases hr : rows[1]? with
    | none => rw [hr] at h; cases h
    | some r => exact (List.getElem?_eq_some_iff.mp hr).1

theorem verifyHuddle_individual {loggers : List (List Nat × List HuddleRow)} {only : Bool} {out : HuddleOutcome}
    (h : verifyHuddle loggers only = .ok out) :
    individualTests loggers ⟨[], [], [], []⟩ = .ok out.printed.individual := by
  unfold verifyHuddle at h
  split at h
  · cases h
  · cases hi : individualTests loggers ⟨[], [], [], []⟩ with
    | error e => rw [hi] at h; cases h
    | ok ind =>
      rw [hi] at h
      simp only at h
      cases hg : groupTests loggers only with
      | error e => rw [hg] at h; cases h
      | ok g => rw [hg] at h; cases h; rfl

/-- **C77.** A huddle test that completes has one row of results for each logger, in the order of the loggers, with each
of the thirteen tests once; and each says error, warning or note exactly if the readings of the logger call for it. -/
theorem C77_results (loggers : List (List Nat × List HuddleRow)) (only : Bool) (out : HuddleOutcome)
    (h : verifyHuddle loggers only = .ok out) :
    out.printed.individual.results.map Prod.fst = loggers.map Prod.fst ∧
    ∀ (i : Nat) (sn : List Nat) (rows : List HuddleRow), loggers[i]? = some (sn, rows) →
      ∃ row, out.printed.individual.results[i]? = some (sn, row) ∧ row.map Prod.fst = allTests ∧
        (NoGaps rows → ∀ p ∈ row, StatusSays rows p.1 p.2) := by
  obtain ⟨h1, h2, -⟩ := individualTests_eq _ _ _ (verifyHuddle_individual h)
  simp only [List.nil_append] at h2
  refine ⟨by rw [h2, List.map_map]; rfl, ?_⟩
  intro i sn rows hi
  refine ⟨testRow rows, ?_, rfl, fun hg => ?_⟩
  · rw [h2, List.getElem?_map, hi]; rfl
  · exact testRow_says rows (labelCheck_length (h1 _ (List.mem_of_getElem? hi))) hg

theorem mem_messagesFor (s : HStatus) (sn : List Nat) (row : List (HTest × HStatus)) (m : HMessage) :
    m ∈ messagesFor s sn row ↔ (m.test, s) ∈ row ∧ m.sn = if m.test = .unusedStack then none else some sn := by
  unfold messagesFor messageOf
  simp only [List.mem_map, List.mem_filter, decide_eq_true_eq]
  constructor
  · rintro ⟨⟨t, s'⟩, ⟨hp, hs⟩, rfl⟩
    simp only at hs ⊢
    exact ⟨hs ▸ hp, trivial⟩
  · rintro ⟨h1, h2⟩
    exact ⟨(m.test, s), ⟨h1, rfl⟩, by rw [← h2]⟩

/-- Number of results of a kind in the table. -/
def statusCount (results : List (List Nat × List (HTest × HStatus))) (s : HStatus) : Nat :=
  (results.map fun p => (p.2.countP fun q => decide (q.2 = s))).sum

theorem messages_length (loggers : List (List Nat × List HuddleRow)) (s : HStatus) :
    (loggers.flatMap fun p => messagesFor s p.1 (testRow p.2)).length =
      statusCount (loggers.map fun p => (p.1, testRow p.2)) s := by
  induction loggers with
  | nil => rfl
  | cons p l ih =>
    rw [List.flatMap_cons, List.length_append, ih]
    simp [statusCount, messagesFor, List.countP_eq_length_filter]

/-- The messages of a list are those of the results of one kind: one for each, with the serial number except for the unused stack. -/
def MessagesOf (msgs : List HMessage) (results : List (List Nat × List (HTest × HStatus))) (s : HStatus) : Prop :=
  msgs.length = statusCount results s ∧
  ∀ m, m ∈ msgs ↔ ∃ p ∈ results, (m.test, s) ∈ p.2 ∧ m.sn = if m.test = .unusedStack then none else some p.1

/-- **C77, messages.** The lists of errors, warnings and notes hold one message for each result of that kind, and no others. -/
theorem C77_messages (loggers : List (List Nat × List HuddleRow)) (only : Bool) (out : HuddleOutcome)
    (h : verifyHuddle loggers only = .ok out) :
    MessagesOf out.printed.individual.errors out.printed.individual.results .error ∧
    MessagesOf out.printed.individual.warnings out.printed.individual.results .warning ∧
    MessagesOf out.printed.individual.notes out.printed.individual.results .note := by
  obtain ⟨-, h2, h3, h4, h5⟩ := individualTests_eq _ _ _ (verifyHuddle_individual h)
  simp only [List.nil_append] at h2 h3 h4 h5
  rw [h2, h3, h4, h5]
  have key : ∀ s, MessagesOf (loggers.flatMap fun p => messagesFor s p.1 (testRow p.2))
      (loggers.map fun p => (p.1, testRow p.2)) s := by
    intro s
    refine ⟨messages_length _ _, fun m => ?_⟩
    simp only [List.mem_flatMap, mem_messagesFor, List.mem_map]
    constructor
    · rintro ⟨p, hp, h⟩; exact ⟨_, ⟨p, hp, rfl⟩, h⟩
    · rintro ⟨_, ⟨p, hp, rfl⟩, h⟩; exact ⟨p, hp, h⟩
  exact ⟨key _, key _, key _⟩

/-- **C77, clean loggers.** If the test completes, no error is reported for single loggers exactly if no reading of any
logger calls for one. -/
theorem C77_clean (loggers : List (List Nat × List HuddleRow)) (only : Bool) (out : HuddleOutcome)
    (h : verifyHuddle loggers only = .ok out) (hg : ∀ p ∈ loggers, NoGaps p.2) :
    out.printed.individual.errors = [] ↔ ∀ p ∈ loggers, ∀ test, ¬ ErrorCase p.2 test := by
  obtain ⟨h1, h2, h3, -⟩ := individualTests_eq _ _ _ (verifyHuddle_individual h)
  simp only [List.nil_append] at h3
  rw [h3, List.flatMap_eq_nil_iff]
  apply forall_congr'; intro p
  apply imp_congr_right; intro hp
  have hs := testRow_says p.2 (labelCheck_length (h1 p hp)) (hg p hp)
  rw [List.eq_nil_iff_forall_not_mem]
  constructor
  · intro hnil test he
    have hmem : test ∈ (testRow p.2).map Prod.fst := by
      show test ∈ allTests
      cases test <;> simp [allTests]
    obtain ⟨q, hq, rfl⟩ := List.mem_map.mp hmem
    have : q.2 = .error := (hs q hq).1.mpr he
    refine hnil (messageOf p.1 q.1) ((mem_messagesFor _ _ _ _).mpr ⟨?_, rfl⟩)
    show (q.1, HStatus.error) ∈ testRow p.2
    rw [← this]; exact hq
  · intro hno m hm
    obtain ⟨hm1, -⟩ := (mem_messagesFor _ _ _ _).mp hm
    exact hno m.test ((hs _ hm1).1.mp rfl)

/-! ## What does not hold -/

/-- **C77 violated: missing readings.** If the first battery reading of a logger is missing, both battery tests say OKAY, whatever
the other readings are; likewise for temperatures. -/
theorem C77_violated_missing (r : HuddleRow) (rest : List HuddleRow) :
    (r.batt = none → (HTest.battMin, HStatus.okay) ∈ testRow (r :: rest) ∧ (HTest.battMax, HStatus.okay) ∈ testRow (r :: rest)) ∧
    (r.temp = none → (HTest.tempMin, HStatus.okay) ∈ testRow (r :: rest) ∧ (HTest.tempMax, HStatus.okay) ∈ testRow (r :: rest)) := by
  have hmin : ∀ l : List (Option Rat), pyMinCol (none :: l) = none := foldl_min_none
  have hmax : ∀ l : List (Option Rat), pyMaxCol (none :: l) = none := foldl_max_none
  have hlow : ∀ a b : Rat, lowStatus none a b = .okay := fun _ _ => rfl
  have hhigh : ∀ a b : Rat, highStatus none a b = .okay := fun _ _ => rfl
  constructor <;> intro hr <;> simp [testRow, hr, hmin, hmax, hlow, hhigh]

/-- **C77 violated: the report.** The documentation promises a dictionary of the errors, warnings and results; nothing is returned. -/
theorem C77_violated_return (loggers : List (List Nat × List HuddleRow)) (only : Bool) (out : HuddleOutcome)
    (h : verifyHuddle loggers only = .ok out) : out.returned = none := by
  unfold verifyHuddle at h
  split at h
  · cases h
  · cases hi : individualTests loggers ⟨[], [], [], []⟩ with
    | error e => rw [hi] at h; cases h
    | ok ind =>
      rw [hi] at h
      simp only at h
      cases hg : groupTests loggers only with
      | error e => rw [hg] at h; cases h
      | ok g => rw [hg] at h; cases h; rfl

/-- **C77 violated: the unused stack.** The warning about the unused stack does not say which logger it is about. -/
theorem C77_violated_stack (loggers : List (List Nat × List HuddleRow)) (only : Bool) (out : HuddleOutcome)
    (h : verifyHuddle loggers only = .ok out) :
    ∀ m ∈ out.printed.individual.warnings, m.test = .unusedStack → m.sn = none := by
  intro m hm ht
  obtain ⟨-, ⟨-, hw⟩, -⟩ := C77_messages loggers only out h
  obtain ⟨p, -, -, hs⟩ := (hw m).mp hm
  rw [hs, if_pos ht]

theorem individualTests_fails {loggers : List (List Nat × List HuddleRow)} {acc : Individual}
    {p : List Nat × List HuddleRow} (hp : p ∈ loggers) {e : HExc} (he : labelCheck p.2 = .error e) :
    ∃ e', individualTests loggers acc = .error e' := by
  cases h : individualTests loggers acc with
  | error e' => exact ⟨e', rfl⟩
  | ok out =>
    have := (individualTests_eq _ _ _ h).1 p hp
    rw [he] at this; cases this

/-- **C77 violated: one bad logger.** If one logger has fewer than two rows of metadata, or less than a day of them and no time in the
second row, the test raises an exception, and there are no results for any logger. -/
theorem C77_violated_short (loggers : List (List Nat × List HuddleRow)) (only : Bool) (p : List Nat × List HuddleRow)
    (hp : p ∈ loggers)
    (hbad : p.2.length < 2 ∨ (p.2.length < 86400 ∧ ∃ r, p.2[1]? = some r ∧ r.t = none)) :
    ∃ e, verifyHuddle loggers only = .error e := by
  have hl : ∃ e, labelCheck p.2 = .error e := by
    unfold labelCheck
    rcases hbad with h | ⟨h, r, hr, ht⟩
    · rw [if_neg (by omega), List.getElem?_eq_none (by omega)]
      exact ⟨_, rfl⟩
    · rw [if_neg (by omega), hr]
      exact ⟨.valueError, by simp [ht]⟩
  obtain ⟨e, he⟩ := hl
  obtain ⟨e', he'⟩ := individualTests_fails (acc := ⟨[], [], [], []⟩) hp he
  unfold verifyHuddle
  rw [if_neg (by rintro rfl; simp at hp), he']
  exact ⟨e', rfl⟩

/-! ## Which loggers are tested -/

theorem mem_snInsert (x y : List Nat) (l : List (List Nat)) : y ∈ snInsert x l ↔ y = x ∨ y ∈ l := by
  induction l with
  | nil => simp [snInsert]
  | cons a l ih =>
    rw [snInsert]
    split
    · rename_i h; subst h; simp
    · split
      · simp
      · simp [ih]; tauto

theorem mem_snUnique (y : List Nat) (l : List (List Nat)) : y ∈ snUnique l ↔ y ∈ l := by
  induction l with
  | nil => simp [snUnique]
  | cons a l ih => rw [snUnique, mem_snInsert, ih, List.mem_cons]

theorem snInsert_sorted (x : List Nat) (l : List (List Nat)) (h : l.Pairwise (· < ·)) : (snInsert x l).Pairwise (· < ·) := by
  induction l with
  | nil => simp [snInsert]
  | cons a l ih =>
    rw [List.pairwise_cons] at h
    rw [snInsert]
    split
    · exact List.pairwise_cons.mpr h
    · rename_i hne
      split
      · rename_i hlt
        refine List.pairwise_cons.mpr ⟨?_, List.pairwise_cons.mpr h⟩
        intro b hb
        rcases List.mem_cons.mp hb with rfl | hb
        · exact hlt
        · exact lt_trans hlt (h.1 b hb)
      · rename_i hnlt
        refine List.pairwise_cons.mpr ⟨?_, ih h.2⟩
        intro b hb
        rcases (mem_snInsert _ _ _).mp hb with rfl | hb
        · exact lt_of_le_of_ne (not_lt.mp hnlt) (Ne.symm hne)
        · exact h.1 b hb

theorem snUnique_sorted (l : List (List Nat)) : (snUnique l).Pairwise (· < ·) := by
  induction l with
  | nil => simp [snUnique]
  | cons a l ih => exact snInsert_sorted _ _ ih

theorem snOfGpsName_gps (folder sn : List Nat) (h : sn.length = 3) :
    snOfGpsName (folder ++ sn ++ bytes "gps_000.txt") = sn := by
  have hlen : (bytes "gps_000.txt").length = 11 := rfl
  unfold snOfGpsName
  simp only [List.length_append, h, hlen]
  rw [show folder.length + 3 + 11 - 11 = (folder ++ sn).length by simp [h], List.take_left,
    show folder.length + 3 + 11 - 14 = folder.length by omega, List.drop_left]

/-- **C77, selection.** Without a list of serial numbers, those of the GPS files are tested: each once, in order, except for the
excluded ones; with a list, exactly those in the list that are not excluded, in the order of the list. -/
theorem C77_selection (given names exclude : List (List Nat)) :
    (∀ sn ∈ huddleSNs given names exclude, sn ∉ exclude) ∧
    (given ≠ [] → (huddleSNs given names exclude).Sublist given ∧
      ∀ sn, sn ∈ huddleSNs given names exclude ↔ sn ∈ given ∧ sn ∉ exclude) ∧
    (∀ (folder : List Nat) (sns : List (List Nat)), (∀ sn ∈ sns, sn.length = 3) →
      names = sns.map (fun sn => folder ++ sn ++ bytes "gps_000.txt") →
      (huddleSNs [] names exclude).Pairwise (· < ·) ∧
      ∀ sn, sn ∈ huddleSNs [] names exclude ↔ sn ∈ sns ∧ sn ∉ exclude) := by
  refine ⟨?_, ?_, ?_⟩
  · intro sn hsn
    simpa using (List.mem_filter.mp hsn).2
  · intro hne
    unfold huddleSNs
    rw [if_neg (by simpa using hne)]
    exact ⟨List.filter_sublist, fun sn => by rw [List.mem_filter]; simp⟩
  · rintro folder sns hlen rfl
    unfold huddleSNs
    rw [if_pos List.length_nil]
    refine ⟨(snUnique_sorted _).filter _, fun sn => ?_⟩
    rw [List.mem_filter, mem_snUnique, List.map_map]
    have : List.map (snOfGpsName ∘ fun sn => folder ++ sn ++ bytes "gps_000.txt") sns = sns := by
      conv_rhs => rw [← List.map_id sns]
      apply List.map_congr_left
      intro s hs
      exact snOfGpsName_gps folder s (hlen s hs)
    rw [this]; simp

/-! ## Examples -/

/-- A row of metadata without anything unusual. -/
def plainRow (t batt temp A : Rat) : HuddleRow :=
  ⟨some t, some batt, some temp, some A, some (A + 1), some 2, some 0, some 0, some 100, some 100⟩

/-- Twelve minutes of metadata, one row a minute. -/
def demoHuddleRows (batt temp : Rat) : List HuddleRow :=
  (List.range 12).map fun i : Nat => plainRow (60 * i) (batt - i / 100) temp (i / 10)

/-- Two loggers; the battery of the second one fails, and its stack is nearly full at the end. -/
def demoHuddle : List (List Nat × List HuddleRow) :=
  [(bytes "061", demoHuddleRows 5 20),
   (bytes "065", demoHuddleRows (17 / 10) 21 ++ [{ plainRow 720 3 21 2 with unusedStackIdle := some 30 }])]

example : ∀ p ∈ demoHuddle, NoGaps p.2 := by
  unfold NoGaps; decide +kernel

example : huddleSNs [] [bytes "p/gps/065gps_000.txt", bytes "p/gps/061gps_000.txt"] [bytes "065"] = [bytes "061"] := by
  decide +kernel

/-- A battery at 0 V goes unnoticed after a missing reading. -/
example : (HTest.battMin, HStatus.okay) ∈ testRow [{ plainRow 0 0 20 1 with batt := none }, plainRow 1 0 20 1] :=
  ((C77_violated_missing _ _).1 rfl).1

end Gemlog
