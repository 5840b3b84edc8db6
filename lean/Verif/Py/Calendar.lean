import Mathlib.Tactic.Linarith
import Mathlib.Tactic.Ring
import Mathlib.Tactic.IntervalCases

/-!
# Calendar arithmetic of Python `datetime` (used by `obspy.UTCDateTime`)

Proleptic Gregorian calendar, no leap seconds. Day numbers count from 1970-01-01.
-/

namespace Gemlog

/-- Leap years. -/
def isLeap (y : Int) : Bool := y % 4 == 0 && (y % 100 != 0 || y % 400 == 0)

/-- Length of a month. -/
def monthLen (y m : Int) : Int :=
  if m = 2 then (if isLeap y then 29 else 28)
  else if m = 4 ∨ m = 6 ∨ m = 9 ∨ m = 11 then 30 else 31

/-- Length of a year. -/
def yearLen (y : Int) : Int := if isLeap y then 366 else 365

/-- Days before 1 January of year `y`, counted from 0001-01-01. -/
def daysBeforeYear (y : Int) : Int := 365 * (y - 1) + (y - 1) / 4 - (y - 1) / 100 + (y - 1) / 400

/-- Days of year `y` before the first of month `m`. -/
def daysBeforeMonth (y m : Int) : Int :=
  (if m ≤ 1 then 0 else if m = 2 then 31 else if m = 3 then 59 else if m = 4 then 90
   else if m = 5 then 120 else if m = 6 then 151 else if m = 7 then 181 else if m = 8 then 212
   else if m = 9 then 243 else if m = 10 then 273 else if m = 11 then 304 else if m = 12 then 334
   else 365)
  + (if m > 2 ∧ isLeap y then 1 else 0)

/-- A calendar date. -/
structure Date where
  year : Int
  month : Int
  day : Int
  deriving DecidableEq, Repr

/-- Dates `datetime.datetime` accepts. -/
def Date.Valid (c : Date) : Prop :=
  1 ≤ c.year ∧ c.year ≤ 9999 ∧ 1 ≤ c.month ∧ c.month ≤ 12 ∧ 1 ≤ c.day ∧
    c.day ≤ monthLen c.year c.month

instance (c : Date) : Decidable c.Valid := by unfold Date.Valid; infer_instance

/-- Number of days from 1970-01-01 to a date. -/
def dayNumber (c : Date) : Int :=
  daysBeforeYear c.year + daysBeforeMonth c.year c.month + c.day - 1 - 719162

/-- `UTCDateTime(y, m, d, h, mi, s)` as seconds since 1970 (`None`-like: an invalid time raises
ValueError). -/
def utcSeconds (c : Date) (h mi s : Int) : Option Int :=
  if c.Valid ∧ 0 ≤ h ∧ h ≤ 23 ∧ 0 ≤ mi ∧ mi ≤ 59 ∧ 0 ≤ s ∧ s ≤ 59
  then some (86400 * dayNumber c + 3600 * h + 60 * mi + s) else none

/-- Year containing a day: `d` counts from 1 January of `y`. -/
def yearLoop : Nat → Int → Int → Int × Int
  | 0, y, d => (y, d)
  | f + 1, y, d => if d < yearLen y then (y, d) else yearLoop f (y + 1) (d - yearLen y)

/-- Month containing a day: `d` counts from the first of `m`. -/
def monthLoop (y : Int) : Nat → Int → Int → Int × Int
  | 0, m, d => (m, d)
  | f + 1, m, d => if d < monthLen y m then (m, d) else monthLoop y f (m + 1) (d - monthLen y m)

/-- The date with a given day number (`datetime.fromtimestamp` without the time of day). -/
def dateOfDay (n : Int) : Date :=
  let d := n + 719162
  let (y, r) := yearLoop 400 (400 * (d / 146097) + 1) (d % 146097)
  let (m, r) := monthLoop y 12 1 r
  ⟨y, m, r + 1⟩

/-! ## Facts -/

theorem isLeap_iff (y : Int) : isLeap y = true ↔ y % 4 = 0 ∧ (y % 100 ≠ 0 ∨ y % 400 = 0) := by
  simp [isLeap]

theorem daysBeforeYear_succ (y : Int) : daysBeforeYear (y + 1) = daysBeforeYear y + yearLen y := by
  unfold daysBeforeYear yearLen
  by_cases h : isLeap y = true
  · rw [if_pos h]; rw [isLeap_iff] at h; omega
  · rw [if_neg h]
    rw [isLeap_iff] at h; omega

theorem yearLen_pos (y : Int) : 365 ≤ yearLen y ∧ yearLen y ≤ 366 := by
  unfold yearLen; split_ifs <;> omega

theorem daysBeforeMonth_succ (y m : Int) (h1 : 1 ≤ m) (h2 : m ≤ 12) :
    daysBeforeMonth y (m + 1) = daysBeforeMonth y m + monthLen y m := by
  unfold daysBeforeMonth monthLen
  by_cases h : isLeap y = true
  · interval_cases m <;> simp [h]
  · have h' : isLeap y = false := by simpa using h
    interval_cases m <;> simp [h']

theorem daysBeforeMonth_one (y : Int) : daysBeforeMonth y 1 = 0 := by
  unfold daysBeforeMonth; simp

theorem daysBeforeMonth_end (y : Int) : daysBeforeMonth y 13 = yearLen y := by
  unfold daysBeforeMonth yearLen
  by_cases h : isLeap y = true
  · simp [h]
  · have h' : isLeap y = false := by simpa using h
    simp [h']

theorem monthLen_pos (y m : Int) : 28 ≤ monthLen y m ∧ monthLen y m ≤ 31 := by
  unfold monthLen; split_ifs <;> omega

theorem daysBeforeMonth_mono (y : Int) {a b : Int} (h1 : 1 ≤ a) (hab : a < b) (h2 : b ≤ 13) :
    daysBeforeMonth y a + monthLen y a ≤ daysBeforeMonth y b := by
  have key : ∀ (k : Nat), a + 1 + k ≤ 13 →
      daysBeforeMonth y a + monthLen y a ≤ daysBeforeMonth y (a + 1 + k) := by
    intro k
    induction k with
    | zero => intro h; simp only [Nat.cast_zero, add_zero]; rw [daysBeforeMonth_succ y a h1 (by omega)]
    | succ k ih =>
      intro h
      have := ih (by push_cast at h; omega)
      have e := daysBeforeMonth_succ y (a + 1 + k) (by omega) (by push_cast at h; omega)
      have := monthLen_pos y (a + 1 + k)
      rw [show a + 1 + ((k + 1 : Nat) : Int) = a + 1 + k + 1 by push_cast; ring]
      omega
  have := key (b - a - 1).toNat (by omega)
  rw [show a + 1 + ((b - a - 1).toNat : Int) = b by omega] at this
  exact this

theorem daysBeforeYear_mono {a b : Int} (h : a < b) :
    daysBeforeYear a + yearLen a ≤ daysBeforeYear b := by
  have key : ∀ (k : Nat), daysBeforeYear a + yearLen a ≤ daysBeforeYear (a + 1 + k) := by
    intro k
    induction k with
    | zero => simp only [Nat.cast_zero, add_zero]; rw [daysBeforeYear_succ]
    | succ k ih =>
      have e := daysBeforeYear_succ (a + 1 + k)
      have := yearLen_pos (a + 1 + k)
      rw [show a + 1 + ((k + 1 : Nat) : Int) = a + 1 + k + 1 by push_cast; ring]
      omega
  have := key (b - a - 1).toNat
  rw [show a + 1 + ((b - a - 1).toNat : Int) = b by omega] at this
  exact this

theorem yearLoop_spec : ∀ (f : Nat) (y d : Int), 0 ≤ d →
    d < daysBeforeYear (y + f) - daysBeforeYear y →
    y ≤ (yearLoop f y d).1 ∧ 0 ≤ (yearLoop f y d).2 ∧ (yearLoop f y d).2 < yearLen (yearLoop f y d).1 ∧
    daysBeforeYear (yearLoop f y d).1 + (yearLoop f y d).2 = daysBeforeYear y + d := by
  intro f
  induction f with
  | zero => intro y d h0 h; simp at h; omega
  | succ f ih =>
    intro y d h0 h
    unfold yearLoop
    split_ifs with hd
    · exact ⟨le_refl _, h0, hd, rfl⟩
    · have e := daysBeforeYear_succ y
      have := ih (y + 1) (d - yearLen y) (by omega)
        (by rw [show y + ((f + 1 : Nat) : Int) = y + 1 + f by push_cast; ring] at h; omega)
      refine ⟨by omega, this.2.1, this.2.2.1, by omega⟩

theorem monthLoop_spec (y : Int) : ∀ (f : Nat) (m d : Int), 0 ≤ d → 1 ≤ m → m + f ≤ 13 →
    d < daysBeforeMonth y (m + f) - daysBeforeMonth y m →
    1 ≤ (monthLoop y f m d).1 ∧ (monthLoop y f m d).1 ≤ 12 ∧
    0 ≤ (monthLoop y f m d).2 ∧ (monthLoop y f m d).2 < monthLen y (monthLoop y f m d).1 ∧
    daysBeforeMonth y (monthLoop y f m d).1 + (monthLoop y f m d).2 = daysBeforeMonth y m + d := by
  intro f
  induction f with
  | zero => intro m d h0 _ _ h; simp at h; omega
  | succ f ih =>
    intro m d h0 h1 h2 h
    unfold monthLoop
    split_ifs with hd
    · exact ⟨h1, by push_cast at h2; omega, h0, hd, rfl⟩
    · have e := daysBeforeMonth_succ y m h1 (by push_cast at h2; omega)
      have := ih (m + 1) (d - monthLen y m) (by omega) (by omega) (by push_cast at h2; omega)
        (by rw [show m + ((f + 1 : Nat) : Int) = m + 1 + f by push_cast; ring] at h; omega)
      refine ⟨this.1, this.2.1, this.2.2.1, this.2.2.2.1, by omega⟩

theorem daysBeforeYear_cycle (q : Int) : daysBeforeYear (400 * q + 1) = 146097 * q := by
  unfold daysBeforeYear; omega

theorem dateOfDay_spec (n : Int) :
    1 ≤ (dateOfDay n).month ∧ (dateOfDay n).month ≤ 12 ∧ 1 ≤ (dateOfDay n).day ∧
    (dateOfDay n).day ≤ monthLen (dateOfDay n).year (dateOfDay n).month ∧
    dayNumber (dateOfDay n) = n ∧
    400 * ((n + 719162) / 146097) + 1 ≤ (dateOfDay n).year := by
  have hd := daysBeforeYear_cycle ((n + 719162) / 146097)
  have hd2 : daysBeforeYear (400 * ((n + 719162) / 146097) + 1 + (400 : Nat))
      = 146097 * ((n + 719162) / 146097 + 1) := by
    rw [← daysBeforeYear_cycle]; congr 1; push_cast; ring
  have hy := yearLoop_spec 400 (400 * ((n + 719162) / 146097) + 1) ((n + 719162) % 146097)
    (by omega) (by rw [hd2, hd]; omega)
  revert hy
  unfold dateOfDay
  simp only
  generalize yearLoop 400 (400 * ((n + 719162) / 146097) + 1) ((n + 719162) % 146097) = yr
  obtain ⟨y, r⟩ := yr
  simp only
  intro hy
  have hm := monthLoop_spec y 12 1 r hy.2.1 (by omega) (by norm_num)
    (by norm_num; rw [daysBeforeMonth_end, daysBeforeMonth_one]; omega)
  revert hm
  generalize monthLoop y 12 1 r = mr
  obtain ⟨m, s⟩ := mr
  simp only [dayNumber]
  intro hm
  rw [daysBeforeMonth_one] at hm
  refine ⟨hm.1, hm.2.1, by omega, by omega, by omega, by omega⟩

end Gemlog
