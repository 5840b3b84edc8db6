import Verif.Model.Process

/-!
# Property C12: calendar fields and instants
-/

namespace Gemlog

/-- Days of the months, as in any almanac. -/
def almanac (leapYear : Bool) : List Int :=
  [31, if leapYear then 29 else 28, 31, 30, 31, 30, 31, 31, 30, 31, 30, 31]

/-- Every fourth year is a leap year, except centuries not divisible by 400. -/
def LeapYear (y : Int) : Prop := (4 ∣ y ∧ ¬ 100 ∣ y) ∨ 400 ∣ y

/-- Calendar fields of a UTC instant. -/
structure Instant where
  year : Int
  month : Int
  day : Int
  hour : Int
  minute : Int
  second : Int
  deriving DecidableEq, Repr

/-- The fields denote an instant in the years 1 to 9999. -/
structure Instant.Real (a : Instant) : Prop where
  year : 1 ≤ a.year ∧ a.year ≤ 9999
  month : 1 ≤ a.month ∧ a.month ≤ 12
  day : 1 ≤ a.day ∧
    ∃ leap : Bool, (leap = true ↔ LeapYear a.year) ∧ a.day ≤ (almanac leap).getD (a.month.toNat - 1) 0
  hour : 0 ≤ a.hour ∧ a.hour < 24
  minute : 0 ≤ a.minute ∧ a.minute < 60
  second : 0 ≤ a.second ∧ a.second < 60

/-- The instant one second later, by counting up the fields with carry; `len` is the length of the
current month. -/
def Instant.tick (len : Int) (a : Instant) : Instant :=
  if a.second < 59 then { a with second := a.second + 1 }
  else if a.minute < 59 then { a with second := 0, minute := a.minute + 1 }
  else if a.hour < 23 then { a with second := 0, minute := 0, hour := a.hour + 1 }
  else if a.day < len then { a with second := 0, minute := 0, hour := 0, day := a.day + 1 }
  else if a.month < 12 then
    { a with second := 0, minute := 0, hour := 0, day := 1, month := a.month + 1 }
  else ⟨a.year + 1, 1, 1, 0, 0, 0⟩

/-- Calendar order. -/
def Instant.Before (a b : Instant) : Prop :=
  a.year < b.year ∨ a.year = b.year ∧ (a.month < b.month ∨ a.month = b.month ∧ (a.day < b.day ∨
    a.day = b.day ∧ (a.hour < b.hour ∨ a.hour = b.hour ∧ (a.minute < b.minute ∨
      a.minute = b.minute ∧ a.second < b.second))))

/-- The time the model attaches to calendar fields. -/
def Instant.time (a : Instant) : Option Int :=
  utcSeconds ⟨a.year, a.month, a.day⟩ a.hour a.minute a.second

theorem leap_iff (y : Int) : isLeap y = true ↔ LeapYear y := by
  rw [isLeap_iff]; unfold LeapYear; omega

theorem almanac_eq (y m : Int) (h1 : 1 ≤ m) (h2 : m ≤ 12) (leap : Bool) (hl : leap = true ↔ LeapYear y) :
    (almanac leap).getD (m.toNat - 1) 0 = monthLen y m := by
  have e : leap = isLeap y := by
    rw [← leap_iff] at hl
    cases leap <;> cases h : isLeap y <;> simp_all
  subst e
  unfold monthLen almanac
  by_cases h : isLeap y = true
  · interval_cases m <;> simp [h]
  · have h' : isLeap y = false := by simpa using h
    interval_cases m <;> simp [h']

theorem real_iff (a : Instant) : a.Real ↔ (Date.Valid ⟨a.year, a.month, a.day⟩ ∧ 0 ≤ a.hour ∧ a.hour ≤ 23 ∧
    0 ≤ a.minute ∧ a.minute ≤ 59 ∧ 0 ≤ a.second ∧ a.second ≤ 59) := by
  constructor
  · intro h
    obtain ⟨leap, hl, hd⟩ := h.day.2
    rw [almanac_eq _ _ h.month.1 h.month.2 leap hl] at hd
    exact ⟨⟨h.year.1, h.year.2, h.month.1, h.month.2, h.day.1, hd⟩, h.hour.1, by have := h.hour.2; omega,
      h.minute.1, by have := h.minute.2; omega, h.second.1, by have := h.second.2; omega⟩
  · rintro ⟨⟨y1, y2, m1, m2, d1, d2⟩, h1, h2, mi1, mi2, s1, s2⟩
    refine ⟨⟨y1, y2⟩, ⟨m1, m2⟩, ⟨d1, isLeap a.year, leap_iff _, ?_⟩, ⟨h1, by omega⟩, ⟨mi1, by omega⟩,
      ⟨s1, by omega⟩⟩
    rw [almanac_eq _ _ m1 m2 _ (leap_iff _)]; exact d2

/-- **C12.** Calendar fields get a time exactly if they denote a real instant. -/
theorem C12_time_iff_real (a : Instant) : a.time.isSome ↔ a.Real := by
  rw [real_iff]
  unfold Instant.time utcSeconds
  split_ifs with h
  · simpa using h
  · simpa using h

theorem time_eq {a : Instant} (h : a.Real) :
    a.time = some (86400 * dayNumber ⟨a.year, a.month, a.day⟩ + 3600 * a.hour + 60 * a.minute + a.second) := by
  unfold Instant.time utcSeconds
  rw [if_pos ((real_iff a).mp h)]

/-- **C12.** Time zero is the start of 1970. -/
theorem C12_epoch : (Instant.mk 1970 1 1 0 0 0).time = some 0 := by decide +kernel

/-- **C12.** Counting the calendar up by one second adds one to the time. With `C12_epoch` this
determines the time of every instant from 1970 on (and, read backwards, before). -/
theorem C12_tick (a : Instant) (h : a.Real) (leap : Bool) (hl : leap = true ↔ LeapYear a.year)
    (hmax : a.year < 9999) :
    ∃ t, a.time = some t ∧
      (a.tick ((almanac leap).getD (a.month.toNat - 1) 0)).time = some (t + 1) := by
  refine ⟨_, time_eq h, ?_⟩
  have hr := (real_iff a).mp h
  obtain ⟨⟨y1, y2, m1, m2, d1, d2⟩, h1, h2, mi1, mi2, s1, s2⟩ := hr
  rw [almanac_eq _ _ m1 m2 leap hl]
  simp only at *
  unfold Instant.tick
  have hv : Date.Valid ⟨a.year, a.month, a.day⟩ := ⟨y1, y2, m1, m2, d1, d2⟩
  unfold Instant.time
  by_cases c1 : a.second < 59
  · rw [if_pos c1]; unfold utcSeconds
    rw [if_pos ⟨hv, by simp only; omega⟩]; congr 1; ring
  rw [if_neg c1]
  by_cases c2 : a.minute < 59
  · rw [if_pos c2]; unfold utcSeconds
    rw [if_pos ⟨hv, by simp only; omega⟩]; congr 1; simp only; omega
  rw [if_neg c2]
  by_cases c3 : a.hour < 23
  · rw [if_pos c3]; unfold utcSeconds
    rw [if_pos ⟨hv, by simp only; omega⟩]; congr 1; simp only; omega
  rw [if_neg c3]
  by_cases c4 : a.day < monthLen a.year a.month
  · rw [if_pos c4]; unfold utcSeconds
    rw [if_pos ⟨⟨y1, y2, m1, m2, by simp only; omega, by simp only; omega⟩, by simp only; omega⟩]
    congr 1; simp only [dayNumber]; omega
  rw [if_neg c4]
  by_cases c5 : a.month < 12
  · rw [if_pos c5]; unfold utcSeconds
    have e := monthLen_pos a.year (a.month + 1)
    rw [if_pos ⟨⟨y1, y2, by simp only; omega, by simp only; omega, by simp, by simp only; omega⟩,
      by simp only; omega⟩]
    congr 1
    have := daysBeforeMonth_succ a.year a.month m1 m2
    simp only [dayNumber]; omega
  · rw [if_neg c5]; unfold utcSeconds
    have e := monthLen_pos (a.year + 1) 1
    rw [if_pos ⟨⟨by simp only; omega, by simp only; omega, by simp, by simp, by simp, by simp only; omega⟩,
      by simp⟩]
    congr 1
    have e1 := daysBeforeYear_succ a.year
    have e2 := daysBeforeMonth_end a.year
    have e4 := daysBeforeMonth_one (a.year + 1)
    have hm : a.month = 12 := by omega
    have e3 := daysBeforeMonth_succ a.year 12 (by norm_num) (by norm_num)
    rw [hm] at d2 c4 ⊢
    simp only [dayNumber]; norm_num at e3; omega

/-- **C12.** Later in calendar order means later in time (so different instants get different times). -/
theorem C12_strictly_increasing (a b : Instant) (ha : a.Real) (hb : b.Real) (h : a.Before b) :
    ∃ s t, a.time = some s ∧ b.time = some t ∧ s < t := by
  refine ⟨_, _, time_eq ha, time_eq hb, ?_⟩
  obtain ⟨⟨y1, y2, m1, m2, d1, d2⟩, h1, h2, mi1, mi2, s1, s2⟩ := (real_iff a).mp ha
  obtain ⟨⟨y1', y2', m1', m2', d1', d2'⟩, h1', h2', mi1', mi2', s1', s2'⟩ := (real_iff b).mp hb
  simp only at *
  unfold Instant.Before at h
  simp only [dayNumber]
  rcases h with h | ⟨e, h | ⟨e', h⟩⟩
  · have q1 := daysBeforeYear_mono h
    have q2 := daysBeforeMonth_mono a.year m1 (show a.month < 13 by omega) le_rfl
    rw [daysBeforeMonth_end] at q2
    have q3 : 0 ≤ daysBeforeMonth b.year b.month := by
      by_cases hm : b.month = 1
      · rw [hm, daysBeforeMonth_one]
      · have := daysBeforeMonth_mono b.year (a := 1) (b := b.month) le_rfl (by omega) (by omega)
        rw [daysBeforeMonth_one] at this
        have := monthLen_pos b.year 1
        omega
    omega
  · rw [e] at d2 ⊢
    have := daysBeforeMonth_mono b.year m1 h (by omega)
    omega
  · rw [e, e'] at *
    omega

/-- **C12.** The split of a time into date and time of day (as used in output file names) inverts the map
from calendar fields to times. -/
theorem C12_split_inverts (a : Instant) (h : a.Real) :
    ∃ t, a.time = some t ∧ dateOfDay (t / 86400) = ⟨a.year, a.month, a.day⟩ ∧
      t % 86400 / 3600 = a.hour ∧ t % 3600 / 60 = a.minute ∧ t % 60 = a.second := by
  refine ⟨_, time_eq h, ?_⟩
  obtain ⟨⟨y1, y2, m1, m2, d1, d2⟩, h1, h2, mi1, mi2, s1, s2⟩ := (real_iff a).mp h
  simp only at *
  have hdiv : (86400 * dayNumber ⟨a.year, a.month, a.day⟩ + 3600 * a.hour + 60 * a.minute + a.second) / 86400
      = dayNumber ⟨a.year, a.month, a.day⟩ := by omega
  refine ⟨?_, by omega, by omega, by omega⟩
  rw [hdiv]
  -- injectivity of day numbers
  obtain ⟨q1, q2, q3, q4, q5, _⟩ := dateOfDay_spec (dayNumber ⟨a.year, a.month, a.day⟩)
  revert q1 q2 q3 q4 q5
  generalize dateOfDay (dayNumber ⟨a.year, a.month, a.day⟩) = c
  obtain ⟨y, m, d⟩ := c
  simp only [dayNumber]
  intro q1 q2 q3 q4 q5
  have bm : ∀ (y m : Int), 1 ≤ m → m ≤ 12 → 0 ≤ daysBeforeMonth y m ∧
      daysBeforeMonth y m + monthLen y m ≤ yearLen y := by
    intro y m hm1 hm2
    constructor
    · by_cases hm : m = 1
      · rw [hm, daysBeforeMonth_one]
      · have := daysBeforeMonth_mono y (a := 1) (b := m) le_rfl (by omega) (by omega)
        rw [daysBeforeMonth_one] at this
        have := monthLen_pos y 1
        omega
    · have := daysBeforeMonth_mono y hm1 (show m < 13 by omega) le_rfl
      rw [daysBeforeMonth_end] at this
      exact this
  have b1 := bm y m q1 q2
  have b2 := bm a.year a.month m1 m2
  have hy : y = a.year := by
    rcases lt_trichotomy y a.year with hlt | heq | hgt
    · have := daysBeforeYear_mono hlt; omega
    · exact heq
    · have := daysBeforeYear_mono hgt; omega
  subst hy
  have hm : m = a.month := by
    rcases lt_trichotomy m a.month with hlt | heq | hgt
    · have := daysBeforeMonth_mono a.year q1 hlt (by omega); omega
    · exact heq
    · have := daysBeforeMonth_mono a.year m1 hgt (by omega); omega
  subst hm
  have : d = a.day := by omega
  rw [this]

/-- Concrete instants, including a leap day and the end of a year. -/
example : (Instant.mk 2020 2 29 23 59 59).Real ∧ (Instant.mk 2020 2 29 23 59 59).time = some 1583020799 ∧
    ¬ (Instant.mk 2021 2 29 0 0 0).Real ∧ dateOfDay 18321 = ⟨2020, 2, 29⟩ ∧
    (Instant.mk 2020 12 31 23 59 59).tick 31 = ⟨2021, 1, 1, 0, 0, 0⟩ := by
  rw [← C12_time_iff_real, ← C12_time_iff_real]
  decide +kernel

end Gemlog
