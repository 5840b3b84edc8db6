import Verif.Props.Huddle
import Verif.Props.Outliers

/-!
# C78 and C79: the huddle test compares loggers

C78: start and stop times. C79: temperatures.
-/

namespace Gemlog

/-! ## Specification -/

/-- A logger has a time in every row, and at least one row. -/
def FullTimes (rows : List HuddleRow) : Prop := rows ≠ [] ∧ ∀ r ∈ rows, r.t ≠ none

/-- A logger started more than 20 minutes after another one: all its times are that much later than one time of the other. -/
def LateStart (loggers : List (List Nat × List HuddleRow)) (rows : List HuddleRow) : Prop :=
  ∃ q ∈ loggers, ∃ x, HasReading q.2 HuddleRow.t x ∧ ∀ y, HasReading rows HuddleRow.t y → x + 1200 < y

/-- A logger stopped more than 20 minutes before another one. -/
def EarlyStop (loggers : List (List Nat × List HuddleRow)) (rows : List HuddleRow) : Prop :=
  ∃ q ∈ loggers, ∃ x, HasReading q.2 HuddleRow.t x ∧ ∀ y, HasReading rows HuddleRow.t y → y < x - 1200

/-! ## Start and stop times -/

theorem min_full {rows : List HuddleRow} (h : FullTimes rows) :
    ∃ m, pyMinCol (rows.map HuddleRow.t) = some m ∧ HasReading rows HuddleRow.t m ∧ ∀ y, HasReading rows HuddleRow.t y → m ≤ y := by
  obtain ⟨v, h1, h2, h3⟩ := full_col h.2
  obtain ⟨m, hm, hmem, hle⟩ := pyMinCol_some v (by
    intro hv; rw [hv] at h2; exact h.1 (List.length_eq_zero_iff.mp h2.symm))
  exact ⟨m, by rw [h1, hm], (h3 m).mp hmem, fun y hy => hle y ((h3 y).mpr hy)⟩

theorem max_full {rows : List HuddleRow} (h : FullTimes rows) :
    ∃ m, pyMaxCol (rows.map HuddleRow.t) = some m ∧ HasReading rows HuddleRow.t m ∧ ∀ y, HasReading rows HuddleRow.t y → y ≤ m := by
  obtain ⟨v, h1, h2, h3⟩ := full_col h.2
  obtain ⟨m, hm, hmem, hle⟩ := pyMaxCol_some v (by
    intro hv; rw [hv] at h2; exact h.1 (List.length_eq_zero_iff.mp h2.symm))
  exact ⟨m, by rw [h1, hm], (h3 m).mp hmem, fun y hy => hle y ((h3 y).mpr hy)⟩

/-- The earliest time of all loggers. -/
def IsEarliest (loggers : List (List Nat × List HuddleRow)) (x : Rat) : Prop :=
  (∃ p ∈ loggers, HasReading p.2 HuddleRow.t x) ∧ ∀ p ∈ loggers, ∀ y, HasReading p.2 HuddleRow.t y → x ≤ y

/-- The latest time of all loggers. -/
def IsLatest (loggers : List (List Nat × List HuddleRow)) (x : Rat) : Prop :=
  (∃ p ∈ loggers, HasReading p.2 HuddleRow.t x) ∧ ∀ p ∈ loggers, ∀ y, HasReading p.2 HuddleRow.t y → y ≤ x

theorem filterMap_full {α : Type} {l : List α} {f : α → Option Rat} (h : ∀ p ∈ l, f p ≠ none) :
    ((l.map f).filterMap id).map some = l.map f := by
  induction l with
  | nil => rfl
  | cons a l ih =>
    have ha := h a (by simp)
    cases hf : f a with
    | none => exact absurd hf ha
    | some x =>
      simp only [List.map_cons, hf, List.filterMap_cons, id]
      exact congrArg (some x :: ·) (ih fun p hp => h p (by simp [hp]))

theorem skipMin_full {loggers : List (List Nat × List HuddleRow)} (hne : loggers ≠ []) (h : ∀ p ∈ loggers, FullTimes p.2) :
    ∃ x, skipMin (loggers.map fun p => pyMinCol (p.2.map HuddleRow.t)) = some x ∧ IsEarliest loggers x := by
  have hf : ∀ p ∈ loggers, pyMinCol (p.2.map HuddleRow.t) ≠ none := by
    intro p hp
    obtain ⟨m, hm, -⟩ := min_full (h p hp)
    rw [hm]; simp
  unfold skipMin
  have hmap := filterMap_full hf
  obtain ⟨m, hm, hmem, hle⟩ := pyMinCol_some ((loggers.map fun p => pyMinCol (p.2.map HuddleRow.t)).filterMap id) (by
    intro h0; rw [h0] at hmap
    exact hne (by simpa using hmap.symm))
  refine ⟨m, hm, ?_, ?_⟩
  · obtain ⟨o, ho, hom⟩ := List.mem_filterMap.mp hmem
    obtain ⟨p, hp, rfl⟩ := List.mem_map.mp ho
    obtain ⟨m', hm', hr, -⟩ := min_full (h p hp)
    simp only [id] at hom
    rw [hm'] at hom; cases hom
    exact ⟨p, hp, hr⟩
  · intro p hp y hy
    obtain ⟨m', hm', -, hle'⟩ := min_full (h p hp)
    refine le_trans (hle m' (List.mem_filterMap.mpr ⟨some m', List.mem_map.mpr ⟨p, hp, hm'⟩, rfl⟩)) (hle' y hy)

theorem skipMax_full {loggers : List (List Nat × List HuddleRow)} (hne : loggers ≠ []) (h : ∀ p ∈ loggers, FullTimes p.2) :
    ∃ x, skipMax (loggers.map fun p => pyMaxCol (p.2.map HuddleRow.t)) = some x ∧ IsLatest loggers x := by
  have hf : ∀ p ∈ loggers, pyMaxCol (p.2.map HuddleRow.t) ≠ none := by
    intro p hp
    obtain ⟨m, hm, -⟩ := max_full (h p hp)
    rw [hm]; simp
  unfold skipMax
  have hmap := filterMap_full hf
  obtain ⟨m, hm, hmem, hle⟩ := pyMaxCol_some ((loggers.map fun p => pyMaxCol (p.2.map HuddleRow.t)).filterMap id) (by
    intro h0; rw [h0] at hmap
    exact hne (by simpa using hmap.symm))
  refine ⟨m, hm, ?_, ?_⟩
  · obtain ⟨o, ho, hom⟩ := List.mem_filterMap.mp hmem
    obtain ⟨p, hp, rfl⟩ := List.mem_map.mp ho
    obtain ⟨m', hm', hr, -⟩ := max_full (h p hp)
    simp only [id] at hom
    rw [hm'] at hom; cases hom
    exact ⟨p, hp, hr⟩
  · intro p hp y hy
    obtain ⟨m', hm', -, hle'⟩ := max_full (h p hp)
    refine le_trans (hle' y hy) (hle m' (List.mem_filterMap.mpr ⟨some m', List.mem_map.mpr ⟨p, hp, hm'⟩, rfl⟩))

theorem late_iff {loggers : List (List Nat × List HuddleRow)} (hne : loggers ≠ []) (h : ∀ p ∈ loggers, FullTimes p.2)
    {p : List Nat × List HuddleRow} (hp : p ∈ loggers) :
    nanLe (pyMinCol (p.2.map HuddleRow.t))
      (nanAdd (skipMin (loggers.map fun p => pyMinCol (p.2.map HuddleRow.t))) 1200) = false ↔ LateStart loggers p.2 := by
  obtain ⟨x, hx, ⟨q, hq, hqx⟩, hle⟩ := skipMin_full hne h
  obtain ⟨m, hm, hmr, hml⟩ := min_full (h p hp)
  rw [hx, hm]
  simp only [nanAdd, nanLe, decide_eq_false_iff_not, not_le]
  constructor
  · exact fun hlt => ⟨q, hq, x, hqx, fun y hy => lt_of_lt_of_le hlt (hml y hy)⟩
  · rintro ⟨q', hq', x', hx', hlt⟩
    have h1 := hle q' hq' x' hx'
    have h2 := hlt m hmr
    linarith

theorem early_iff {loggers : List (List Nat × List HuddleRow)} (hne : loggers ≠ []) (h : ∀ p ∈ loggers, FullTimes p.2)
    {p : List Nat × List HuddleRow} (hp : p ∈ loggers) :
    nanLe (nanAdd (skipMax (loggers.map fun p => pyMaxCol (p.2.map HuddleRow.t))) (-1200))
      (pyMaxCol (p.2.map HuddleRow.t)) = false ↔ EarlyStop loggers p.2 := by
  obtain ⟨x, hx, ⟨q, hq, hqx⟩, hle⟩ := skipMax_full hne h
  obtain ⟨m, hm, hmr, hml⟩ := max_full (h p hp)
  rw [hx, hm]
  simp only [nanAdd, nanLe, decide_eq_false_iff_not, not_le]
  constructor
  · exact fun hlt => ⟨q, hq, x, hqx, fun y hy => by have := hml y hy; linarith⟩
  · rintro ⟨q', hq', x', hx', hlt⟩
    have h1 := hle q' hq' x' hx'
    have h2 := hlt m hmr
    linarith

theorem mem_startStop (loggers : List (List Nat × List HuddleRow)) (hne : loggers ≠ []) (h : ∀ p ∈ loggers, FullTimes p.2)
    (sn : List Nat) :
    (GroupMsg.start sn ∈ startStopErrors loggers ↔ ∃ p ∈ loggers, p.1 = sn ∧ LateStart loggers p.2) ∧
    (GroupMsg.stop sn ∈ startStopErrors loggers ↔ ∃ p ∈ loggers, p.1 = sn ∧ EarlyStop loggers p.2) := by
  unfold startStopErrors
  simp only [List.mem_flatMap, List.mem_append]
  constructor
  · apply exists_congr; intro p
    apply and_congr_right; intro hp
    rw [← late_iff hne h hp]
    generalize nanLe (pyMinCol _) _ = b1
    generalize nanLe _ _ = b2
    cases b1 <;> cases b2 <;> simp [eq_comm]
  · apply exists_congr; intro p
    apply and_congr_right; intro hp
    rw [← early_iff hne h hp]
    generalize nanLe _ (pyMaxCol _) = b1
    generalize nanLe _ _ = b2
    cases b1 <;> cases b2 <;> simp [eq_comm]

theorem startStop_kind (loggers : List (List Nat × List HuddleRow)) (m : GroupMsg) (hm : m ∈ startStopErrors loggers) :
    ∃ sn, m = .start sn ∨ m = .stop sn := by
  unfold startStopErrors at hm
  simp only [List.mem_flatMap, List.mem_append] at hm
  obtain ⟨p, -, hm | hm⟩ := hm
  · split at hm
    · simp at hm
    · exact ⟨p.1, Or.inl (by simpa using hm)⟩
  · split at hm
    · simp at hm
    · exact ⟨p.1, Or.inr (by simpa using hm)⟩

theorem tempErrors_kind {table : List (List Nat × List (Option Rat) × Rat)} {s e k : Rat} {cs : List Nat} {l : List GroupMsg}
    (h : tempErrors table s e k cs = .ok l) : ∀ m ∈ l, ∃ sns t, m = .temperature sns t := by
  induction cs generalizing l with
  | nil => cases h; simp
  | cons c cs ih =>
    rw [tempErrors] at h
    split at h
    · exact ih h
    · split at h
      · cases ht : tempErrors table s e k cs with
        | error x => rw [ht] at h; cases h
        | ok l' =>
          rw [ht] at h; cases h
          intro m hm
          rcases List.mem_cons.mp hm with rfl | hm
          · exact ⟨_, _, rfl⟩
          · exact ih ht m hm
      · cases h

theorem temperatureTest_kind {loggers : List (List Nat × List HuddleRow)} {l : List GroupMsg}
    (h : temperatureTest loggers = .ok l) : ∀ m ∈ l, ∃ sns t, m = .temperature sns t := by
  unfold temperatureTest at h
  cases hw : perMinute (pyMinCol (loggers.map fun p => meanInterval p.2)) with
  | error e => rw [hw] at h; cases h
  | ok width =>
    rw [hw] at h
    simp only at h
    split at h
    · split at h
      · cases h
      · split at h
        · cases h
        · exact tempErrors_kind h
    · cases h

theorem verifyHuddle_group {loggers : List (List Nat × List HuddleRow)} {only : Bool} {out : HuddleOutcome}
    (h : verifyHuddle loggers only = .ok out) :
    loggers ≠ [] ∧ ∃ temps, temperatureTest loggers = .ok temps ∧
      out.printed.group = ⟨startStopErrors loggers ++ temps, loggers.length == 1 || only, (startStopErrors loggers).isEmpty⟩ := by
  unfold verifyHuddle at h
  split at h
  · cases h
  · rename_i hne
    cases hi : individualTests loggers ⟨[], [], [], []⟩ with
    | error e => rw [hi] at h; cases h
    | ok ind =>
      rw [hi] at h
      simp only [groupTests] at h
      cases ht : temperatureTest loggers with
      | error e => rw [ht] at h; cases h
      | ok temps => rw [ht] at h; cases h; exact ⟨hne, temps, rfl, rfl⟩

/-- **C78.** If the huddle test completes, it names exactly those loggers that started more than 20 minutes after another
one, and exactly those that stopped more than 20 minutes before another one; it says that the times agree exactly if
there are none. -/
theorem C78_times (loggers : List (List Nat × List HuddleRow)) (only : Bool) (out : HuddleOutcome)
    (h : verifyHuddle loggers only = .ok out) (hf : ∀ p ∈ loggers, FullTimes p.2) :
    (∀ sn, GroupMsg.start sn ∈ out.printed.group.errors ↔ ∃ p ∈ loggers, p.1 = sn ∧ LateStart loggers p.2) ∧
    (∀ sn, GroupMsg.stop sn ∈ out.printed.group.errors ↔ ∃ p ∈ loggers, p.1 = sn ∧ EarlyStop loggers p.2) ∧
    (out.printed.group.agree = true ↔ ∀ p ∈ loggers, ¬ LateStart loggers p.2 ∧ ¬ EarlyStop loggers p.2) := by
  obtain ⟨hne, temps, ht, hg⟩ := verifyHuddle_group h
  have hk := temperatureTest_kind ht
  rw [hg]
  simp only [List.mem_append]
  refine ⟨fun sn => ?_, fun sn => ?_, ?_⟩
  · rw [← (mem_startStop loggers hne hf sn).1]
    constructor
    · rintro (h | h)
      · exact h
      · obtain ⟨_, _, h⟩ := hk _ h; cases h
    · exact Or.inl
  · rw [← (mem_startStop loggers hne hf sn).2]
    constructor
    · rintro (h | h)
      · exact h
      · obtain ⟨_, _, h⟩ := hk _ h; cases h
    · exact Or.inl
  · rw [List.isEmpty_iff]
    constructor
    · intro hnil p hp
      constructor
      · intro hl
        have := (mem_startStop loggers hne hf p.1).1.mpr ⟨p, hp, rfl, hl⟩
        rw [hnil] at this; cases this
      · intro hl
        have := (mem_startStop loggers hne hf p.1).2.mpr ⟨p, hp, rfl, hl⟩
        rw [hnil] at this; cases this
    · intro hno
      rw [List.eq_nil_iff_forall_not_mem]
      intro m hm
      obtain ⟨sn, rfl | rfl⟩ := startStop_kind loggers m hm
      · obtain ⟨p, hp, -, hl⟩ := (mem_startStop loggers hne hf sn).1.mp hm
        exact (hno p hp).1 hl
      · obtain ⟨p, hp, -, hl⟩ := (mem_startStop loggers hne hf sn).2.mp hm
        exact (hno p hp).2 hl

/-- **C78, tolerance.** The times are said to agree exactly if the first times of any two loggers differ by at most 20
minutes, and so do their last times. -/
theorem C78_agree (loggers : List (List Nat × List HuddleRow)) (only : Bool) (out : HuddleOutcome)
    (h : verifyHuddle loggers only = .ok out) (hf : ∀ p ∈ loggers, FullTimes p.2) :
    out.printed.group.agree = true ↔
      ∀ p ∈ loggers, ∀ q ∈ loggers, ∀ a b c d : Rat, IsEarliest [p] a → IsEarliest [q] b → IsLatest [p] c → IsLatest [q] d →
        |a - b| ≤ 1200 ∧ |c - d| ≤ 1200 := by
  rw [(C78_times loggers only out h hf).2.2]
  have er : ∀ {p : List Nat × List HuddleRow} {a}, IsEarliest [p] a →
      HasReading p.2 HuddleRow.t a ∧ ∀ y, HasReading p.2 HuddleRow.t y → a ≤ y := by
    rintro p a ⟨⟨p', hp', h1⟩, h2⟩
    rw [List.mem_singleton] at hp'; subst hp'
    exact ⟨h1, h2 _ (by simp)⟩
  have la : ∀ {p : List Nat × List HuddleRow} {a}, IsLatest [p] a →
      HasReading p.2 HuddleRow.t a ∧ ∀ y, HasReading p.2 HuddleRow.t y → y ≤ a := by
    rintro p a ⟨⟨p', hp', h1⟩, h2⟩
    rw [List.mem_singleton] at hp'; subst hp'
    exact ⟨h1, h2 _ (by simp)⟩
  constructor
  · intro hno p hp q hq a b c d ha hb hc hd
    have h1 : ¬ b + 1200 < a := fun hlt => (hno p hp).1 ⟨q, hq, b, (er hb).1, fun y hy => by have := (er ha).2 y hy; linarith⟩
    have h2 : ¬ a + 1200 < b := fun hlt => (hno q hq).1 ⟨p, hp, a, (er ha).1, fun y hy => by have := (er hb).2 y hy; linarith⟩
    have h3 : ¬ c < d - 1200 := fun hlt => (hno p hp).2 ⟨q, hq, d, (la hd).1, fun y hy => by have := (la hc).2 y hy; linarith⟩
    have h4 : ¬ d < c - 1200 := fun hlt => (hno q hq).2 ⟨p, hp, c, (la hc).1, fun y hy => by have := (la hd).2 y hy; linarith⟩
    constructor <;> rw [abs_le] <;> constructor <;> linarith
  · intro hall p hp
    obtain ⟨a, -, ha1, ha2⟩ := min_full (hf p hp)
    obtain ⟨c, -, hc1, hc2⟩ := max_full (hf p hp)
    have mk : ∀ {q : List Nat × List HuddleRow}, q ∈ loggers → ∃ b d, IsEarliest [q] b ∧ IsLatest [q] d := by
      intro q hq
      obtain ⟨b, -, hb1, hb2⟩ := min_full (hf q hq)
      obtain ⟨d, -, hd1, hd2⟩ := max_full (hf q hq)
      exact ⟨b, d, ⟨⟨q, by simp, hb1⟩, by simpa using hb2⟩, ⟨⟨q, by simp, hd1⟩, by simpa using hd2⟩⟩
    have hpa : IsEarliest [p] a := ⟨⟨p, by simp, ha1⟩, by simpa using ha2⟩
    have hpc : IsLatest [p] c := ⟨⟨p, by simp, hc1⟩, by simpa using hc2⟩
    constructor
    · rintro ⟨q, hq, x, hx, hlt⟩
      obtain ⟨b, d, hb, hd⟩ := mk hq
      have := (abs_le.mp (hall p hp q hq a b c d hpa hb hpc hd).1).2
      have := (er hb).2 x hx
      have := hlt a ha1
      linarith
    · rintro ⟨q, hq, x, hx, hlt⟩
      obtain ⟨b, d, hb, hd⟩ := mk hq
      have := (abs_le.mp (hall p hp q hq a b c d hpa hb hpc hd).2).1
      have := (la hd).2 x hx
      have := hlt c hc1
      linarith

/-- **C78 violated: missing times.** If the first time of a logger is missing, it is said to start too late and to stop
too early, whatever its other times are. -/
theorem C78_violated_missing (loggers : List (List Nat × List HuddleRow)) (only : Bool) (out : HuddleOutcome)
    (h : verifyHuddle loggers only = .ok out) (sn : List Nat) (r : HuddleRow) (rest : List HuddleRow)
    (hp : (sn, r :: rest) ∈ loggers) (hr : r.t = none) :
    GroupMsg.start sn ∈ out.printed.group.errors ∧ GroupMsg.stop sn ∈ out.printed.group.errors := by
  obtain ⟨hne, temps, ht, hg⟩ := verifyHuddle_group h
  rw [hg]
  simp only [List.mem_append]
  have hmin : pyMinCol ((r :: rest).map HuddleRow.t) = none := by
    rw [List.map_cons, hr]; exact foldl_min_none _
  have hmax : pyMaxCol ((r :: rest).map HuddleRow.t) = none := by
    rw [List.map_cons, hr]; exact foldl_max_none _
  have l1 : ∀ o, nanLe none o = false := fun o => rfl
  have l2 : ∀ o, nanLe o none = false := fun o => by cases o <;> rfl
  unfold startStopErrors
  simp only [List.mem_flatMap, List.mem_append]
  constructor
  · refine Or.inl ⟨_, hp, Or.inl ?_⟩
    simp only
    rw [hmin, l1]; simp
  · refine Or.inl ⟨_, hp, Or.inr ?_⟩
    simp only
    rw [hmax, l2]; simp

/-- **C78 violated: single tests only.** With `individual_only` the loggers are compared all the same: the same exceptions
and the same errors result as without; there is only a warning, which says that there is one logger. -/
theorem C78_violated_individual_only (loggers : List (List Nat × List HuddleRow)) :
    (∀ e, verifyHuddle loggers true = .error e ↔ verifyHuddle loggers false = .error e) ∧
    ∀ out, verifyHuddle loggers true = .ok out → out.printed.group.oneLogger = true ∧
      ∃ out', verifyHuddle loggers false = .ok out' ∧ out'.printed.group.errors = out.printed.group.errors ∧
        out'.printed.group.agree = out.printed.group.agree := by
  unfold verifyHuddle groupTests
  constructor
  · intro e
    split
    · simp
    · cases individualTests loggers ⟨[], [], [], []⟩ with
      | error e => simp
      | ok ind => cases temperatureTest loggers <;> simp
  · intro out hout
    split at hout
    · cases hout
    · rename_i hne
      rw [if_neg hne]
      cases hi : individualTests loggers ⟨[], [], [], []⟩ with
      | error e => rw [hi] at hout; cases hout
      | ok ind =>
        rw [hi] at hout
        cases ht : temperatureTest loggers with
        | error e => rw [ht] at hout; cases hout
        | ok temps =>
          rw [ht] at hout; cases hout
          exact ⟨by simp, _, rfl, rfl, rfl⟩

end Gemlog
