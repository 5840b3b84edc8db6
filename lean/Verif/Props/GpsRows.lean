import Verif.Model.GpsRows
import Verif.Props.Calendar
import Verif.Lemmas.Process
import Mathlib.Data.Rat.Floor
import Mathlib.Tactic.FieldSimp
import Mathlib.Data.List.Forall2

/-!
# C111: year and day of year in the GPS table denote the time of the fix

Beside its time, every fix is listed with the year and the day of the year (with its fraction). They are those of the calendar fields received
from the satellites, they give back the time, and ordering rows by them is ordering them by time.
-/

namespace Gemlog

/-! ## Specification -/

/-- The calendar fields in a GPS line. -/
def Fields (g : GRaw) (a : Instant) : Prop :=
  ∃ y mo d h mi s : Rat, g.year = some y ∧ g.month = some mo ∧ g.day = some d ∧ g.hour = some h ∧ g.minute = some mi ∧ g.second = some s ∧
    a = ⟨pyTrunc y, pyTrunc mo, pyTrunc d, pyTrunc h, pyTrunc mi, pyTrunc s⟩

/-- `n` is the number of the day in its year: the days of the months before, and the day of the month. -/
def DayOfYear (a : Instant) (n : Int) : Prop :=
  ∃ leap : Bool, (leap = true ↔ LeapYear a.year) ∧ n = ((almanac leap).take (a.month.toNat - 1)).sum + a.day

/-- The part of the day that has passed. -/
def dayPart (a : Instant) : Rat := (a.hour : Rat) / 24 + (a.minute : Rat) / (24 * 60) + (a.second : Rat) / (24 * 60 * 60)

instance (y : Int) : Decidable (LeapYear y) := by unfold LeapYear; infer_instance

/-! ## Proofs -/

theorem newYear_real {y : Int} (h : 1 ≤ y ∧ y ≤ 9999) : (Instant.mk y 1 1 0 0 0).Real :=
  ⟨h, ⟨le_refl _, by norm_num⟩, ⟨le_refl _, isLeap y, leap_iff _, by simp [almanac]⟩, ⟨le_refl _, by norm_num⟩, ⟨le_refl _, by norm_num⟩, ⟨le_refl _, by norm_num⟩⟩

theorem yearLen_leap (y : Int) : ((yearLen y : Int) : Rat) = if LeapYear y then 366 else 365 := by
  unfold yearLen
  by_cases hy : isLeap y = true
  · rw [if_pos hy, if_pos ((leap_iff _).mp hy)]; norm_num
  · rw [if_neg hy, if_neg (fun h => hy ((leap_iff _).mpr h))]; norm_num

theorem almanac_sum (y m : Int) (h1 : 1 ≤ m) (h2 : m ≤ 12) :
    ((almanac (isLeap y)).take (m.toNat - 1)).sum = daysBeforeMonth y m := by
  unfold almanac daysBeforeMonth
  cases h : isLeap y
  · interval_cases m <;> simp
  · interval_cases m <;> simp

theorem withTime_fields {g : GRaw} {f : Fix} (h : withTime g = some f) :
    ∃ a : Instant, ∃ t : Int, Fields g a ∧ a.Real ∧ a.time = some t ∧ f = ⟨g, (t : Rat)⟩ := by
  unfold withTime makeGpsTime at h
  split at h
  · rename_i y mo d hh mi s e1 e2 e3 e4 e5 e6
    obtain ⟨t, ht, hf⟩ := Option.map_eq_some_iff.mp h
    refine ⟨⟨pyTrunc y, pyTrunc mo, pyTrunc d, pyTrunc hh, pyTrunc mi, pyTrunc s⟩, t, ⟨y, mo, d, hh, mi, s, e1, e2, e3, e4, e5, e6, rfl⟩, ?_, ht, hf.symm⟩
    rw [← C12_time_iff_real]
    show (utcSeconds _ _ _ _).isSome = true
    rw [ht]
    rfl
  · cases h

theorem gpsDate_eq {a : Instant} {t : Int} (hr : a.Real) (ht : a.time = some t) :
    gpsDate t = ((daysBeforeMonth a.year a.month + a.day : Int) : Rat) + dayPart a := by
  obtain ⟨t', h1, h2, h3, h4, h5⟩ := C12_split_inverts a hr
  obtain rfl : t = t' := Option.some.inj (ht.symm.trans h1)
  unfold gpsDate julday dayPart
  simp only [Int.floor_intCast, h2, h3, h4, h5]
  push_cast
  ring

/-- **C111.** The rows of the table are those of the fixes, in order, with their times and positions; the year is that of the calendar fields, and the date is
the number of the day in the year plus the part of the day that has passed. -/
theorem C111_rows (lines : List GRaw) (fixes : List Fix) (h : List.Forall₂ (fun g f => withTime g = some f) lines fixes) :
    ∃ rows, reformatGps fixes = .ok rows ∧ List.Forall₂ (fun f r => r.t = f.t ∧ r.lat = f.lat ∧ r.lon = f.lon) fixes rows ∧
      List.Forall₂ (fun g r => ∃ a n, Fields g a ∧ a.Real ∧ DayOfYear a n ∧ r.year = a.year ∧ r.date = n + dayPart a) lines rows := by
  induction h with
  | nil => exact ⟨[], rfl, .nil, .nil⟩
  | @cons g f lines fixes hf _ ih =>
    obtain ⟨rows, e1, e2, e3⟩ := ih
    obtain ⟨a, t, hfields, hreal, ht, rfl⟩ := withTime_fields hf
    obtain ⟨y, mo, d, hh, mi, s, ey, -, -, -, -, -, ea⟩ := id hfields
    have hrow : gpsRow ⟨g, (t : Rat)⟩ = .ok ⟨pyTrunc y, gpsDate t, g.lat, g.lon, t⟩ := by
      unfold gpsRow
      simp only [ey]
    refine ⟨⟨pyTrunc y, gpsDate t, g.lat, g.lon, t⟩ :: rows, ?_, .cons ⟨rfl, rfl, rfl⟩ e2, .cons ⟨a, _, hfields, hreal, ⟨isLeap a.year, leap_iff _, rfl⟩, ?_, ?_⟩ e3⟩
    · unfold reformatGps at e1 ⊢
      rw [List.mapM_cons, hrow, e1]
      rfl
    · rw [ea]
    · show gpsDate t = _
      rw [gpsDate_eq hreal ht, almanac_sum _ _ hreal.month.1 hreal.month.2]

theorem dayPart_bounds {a : Instant} (h : a.Real) : 0 ≤ dayPart a ∧ dayPart a < 1 := by
  have h1 : (0 : Rat) ≤ a.hour ∧ (a.hour : Rat) ≤ 23 := ⟨by exact_mod_cast h.hour.1, by have := h.hour.2; exact_mod_cast (show a.hour ≤ 23 by omega)⟩
  have h2 : (0 : Rat) ≤ a.minute ∧ (a.minute : Rat) ≤ 59 := ⟨by exact_mod_cast h.minute.1, by have := h.minute.2; exact_mod_cast (show a.minute ≤ 59 by omega)⟩
  have h3 : (0 : Rat) ≤ a.second ∧ (a.second : Rat) ≤ 59 := ⟨by exact_mod_cast h.second.1, by have := h.second.2; exact_mod_cast (show a.second ≤ 59 by omega)⟩
  unfold dayPart
  constructor <;> linarith

/-- A row of the table that belongs to a fix. -/
theorem row_fields {g : GRaw} {f : Fix} {r : FixRow} (h : withTime g = some f) (hr : gpsRow f = .ok r) :
    ∃ a : Instant, ∃ t : Int, a.Real ∧ a.time = some t ∧ f.t = t ∧ r.year = a.year ∧
      r.date = ((daysBeforeMonth a.year a.month + a.day : Int) : Rat) + dayPart a := by
  obtain ⟨a, t, ⟨y, mo, d, hh, mi, s, ey, -, -, -, -, -, ea⟩, hreal, ht, rfl⟩ := withTime_fields h
  unfold gpsRow at hr
  simp only [ey] at hr
  cases hr
  refine ⟨a, t, hreal, ht, rfl, by rw [ea], gpsDate_eq hreal ht⟩

/-- **C111, the time is recovered.** The time of a fix is the beginning of its year plus the days before its date. -/
theorem C111_time (g : GRaw) (f : Fix) (r : FixRow) (h : withTime g = some f) (hr : gpsRow f = .ok r) :
    ∃ newYear : Int, (Instant.mk r.year 1 1 0 0 0).time = some newYear ∧ f.t = newYear + (r.date - 1) * 86400 := by
  obtain ⟨a, t, hreal, ht, e1, e2, e3⟩ := row_fields h hr
  have hy : (Instant.mk r.year 1 1 0 0 0).Real := newYear_real (e2 ▸ hreal.year)
  refine ⟨_, time_eq hy, ?_⟩
  rw [time_eq hreal] at ht
  have ht := Option.some.inj ht
  rw [e1, ← ht, e3, e2]
  simp only [dayNumber, daysBeforeMonth_one, dayPart]
  push_cast
  ring

/-- **C111, the range of dates.** A date is at least 1 and less than the number of days of its year plus 1. -/
theorem C111_range (g : GRaw) (f : Fix) (r : FixRow) (h : withTime g = some f) (hr : gpsRow f = .ok r) :
    1 ≤ r.date ∧ r.date < (if LeapYear r.year then 366 else 365) + 1 := by
  obtain ⟨a, t, hreal, ht, e1, e2, e3⟩ := row_fields h hr
  obtain ⟨⟨y1, y2, m1, m2, d1, d2⟩, -⟩ := (real_iff a).mp hreal
  simp only at m1 m2 d1 d2
  have hb := dayPart_bounds hreal
  have h0 : 0 ≤ daysBeforeMonth a.year a.month := by
    by_cases hm : a.month = 1
    · rw [hm, daysBeforeMonth_one]
    · have := daysBeforeMonth_mono a.year (a := 1) (b := a.month) le_rfl (by omega) (by omega)
      rw [daysBeforeMonth_one] at this
      have := monthLen_pos a.year 1
      omega
  have h1 := daysBeforeMonth_mono a.year m1 (show a.month < 13 by omega) le_rfl
  rw [daysBeforeMonth_end] at h1
  have lo : ((1 : Int) : Rat) ≤ ((daysBeforeMonth a.year a.month + a.day : Int) : Rat) := by exact_mod_cast (by omega)
  have hi : ((daysBeforeMonth a.year a.month + a.day : Int) : Rat) ≤ ((yearLen a.year : Int) : Rat) := by exact_mod_cast (by omega)
  have hl := yearLen_leap a.year
  rw [e3, e2]
  rw [hl] at hi
  push_cast at lo hi ⊢
  constructor <;> linarith

/-- **C111, order.** One fix is earlier than another exactly if its year is smaller, or the years are the same and its date is smaller. -/
theorem C111_order (g g' : GRaw) (f f' : Fix) (r r' : FixRow) (h : withTime g = some f) (h' : withTime g' = some f') (hr : gpsRow f = .ok r)
    (hr' : gpsRow f' = .ok r') : f.t < f'.t ↔ r.year < r'.year ∨ r.year = r'.year ∧ r.date < r'.date := by
  have key : ∀ (g g' : GRaw) (f f' : Fix) (r r' : FixRow), withTime g = some f → withTime g' = some f' → gpsRow f = .ok r → gpsRow f' = .ok r' →
      r.year < r'.year → f.t < f'.t := by
    intro g g' f f' r r' h h' hr hr' hlt
    obtain ⟨n, e1, e2⟩ := C111_time g f r h hr
    obtain ⟨n', e1', e2'⟩ := C111_time g' f' r' h' hr'
    obtain ⟨a, t, hreal, ht, -, ey, -⟩ := row_fields h hr
    obtain ⟨b, t', hreal', ht', -, ey', -⟩ := row_fields h' hr'
    have b1 := (C111_range g f r h hr).2
    have b2 := (C111_range g' f' r' h' hr').1
    rw [time_eq (newYear_real (ey ▸ hreal.year))] at e1
    rw [time_eq (newYear_real (ey' ▸ hreal'.year))] at e1'
    simp only [dayNumber, daysBeforeMonth_one, Option.some.injEq] at e1 e1'
    have hyl := daysBeforeYear_mono hlt
    have hn : n + 86400 * yearLen r.year ≤ n' := by omega
    have hn' : (n : Rat) + 86400 * (yearLen r.year : Rat) ≤ n' := by exact_mod_cast hn
    have hl := yearLen_leap r.year
    rw [← hl] at b1
    rw [e2, e2']
    linarith
  have same : ∀ (g g' : GRaw) (f f' : Fix) (r r' : FixRow), withTime g = some f → withTime g' = some f' → gpsRow f = .ok r → gpsRow f' = .ok r' →
      r.year = r'.year → (f.t < f'.t ↔ r.date < r'.date) := by
    intro g g' f f' r r' h h' hr hr' heq
    obtain ⟨n, e1, e2⟩ := C111_time g f r h hr
    obtain ⟨n', e1', e2'⟩ := C111_time g' f' r' h' hr'
    rw [heq] at e1
    obtain rfl : n = n' := Option.some.inj (e1.symm.trans e1')
    rw [e2, e2']
    constructor <;> intro h <;> linarith
  rcases lt_trichotomy r.year r'.year with hlt | heq | hgt
  · exact ⟨fun _ => Or.inl hlt, fun _ => key _ _ _ _ _ _ h h' hr hr' hlt⟩
  · rw [same _ _ _ _ _ _ h h' hr hr' heq]
    exact ⟨fun hd => Or.inr ⟨heq, hd⟩, fun hd => hd.elim (fun hl => by omega) And.right⟩
  · have := key _ _ _ _ _ _ h' h hr' hr hgt
    constructor
    · intro hl; exact absurd hl (not_lt.mpr this.le)
    · rintro (hl | ⟨hl, -⟩) <;> omega

theorem filterMap_forall₂ (l : List GRaw) :
    List.Forall₂ (fun g f => withTime g = some f) (l.filter fun g => (withTime g).isSome) (l.filterMap withTime) := by
  induction l with
  | nil => exact .nil
  | cons g l ih =>
    cases h : withTime g with
    | none => rwa [List.filterMap_cons_none h, List.filter_cons_of_neg (by simp [h])]
    | some f =>
      rw [List.filterMap_cons_some (f := withTime) (b := f) h, List.filter_cons_of_pos (by simp [h])]
      exact .cons h ih

theorem gpsTable_lines {e : Bool} {rows : List (Rat × TRow)} {fixes : List Fix} (h : gpsTable e rows = some fixes) :
    ∃ lines, List.Forall₂ (fun g f => withTime g = some f) lines fixes := by
  unfold gpsTable at h
  split at h
  · cases h
  · split at h
    · cases h
    · dsimp only at h
      split_ifs at h
      cases h
      exact ⟨_, filterMap_forall₂ _⟩

/-- **C111 for files.** The fixes of every raw file that is read, in any format and by any reader, are listed completely, each with the year of its time and a date from
which the time is recovered. -/
theorem C111_file (e : Bool) (table : Table) (offset : Rat) (version : String) (rg : Bool) (out : FileData)
    (h : processData e table offset version rg = .ok out) :
    ∃ rows, reformatGps out.gps = .ok rows ∧ List.Forall₂ (fun f r => r.t = f.t ∧ r.lat = f.lat ∧ r.lon = f.lon) out.gps rows ∧
      ∀ r ∈ rows, ∃ newYear : Int, (Instant.mk r.year 1 1 0 0 0).time = some newYear ∧ r.t = newYear + (r.date - 1) * 86400 ∧
        1 ≤ r.date ∧ r.date < (if LeapYear r.year then 366 else 365) + 1 := by
  have hl : ∃ lines, List.Forall₂ (fun g f => withTime g = some f) lines out.gps := by
    obtain ⟨p⟩ := process_ok h
    rcases p.hgps with hg | ⟨-, hg, -⟩
    · exact gpsTable_lines hg
    · exact ⟨[], by rw [hg]; exact .nil⟩
  obtain ⟨lines, hl⟩ := hl
  obtain ⟨rows, e1, e2, -⟩ := C111_rows lines out.gps hl
  refine ⟨rows, e1, e2, ?_⟩
  clear e2 h
  generalize out.gps = gs at hl e1
  unfold reformatGps at e1
  induction hl generalizing rows with
  | nil => cases e1; simp
  | @cons g f lines fixes hf _ ih =>
    rw [List.mapM_cons] at e1
    cases hrow : gpsRow f with
    | error x => rw [hrow] at e1; cases e1
    | ok r =>
      rw [hrow] at e1
      cases hrest : fixes.mapM gpsRow with
      | error x => rw [hrest] at e1; cases e1
      | ok rs =>
        rw [hrest] at e1
        cases e1
        intro q hq
        rcases List.mem_cons.mp hq with rfl | hq
        · obtain ⟨n, a1, a2⟩ := C111_time g f q hf hrow
          have ht : q.t = f.t := by
            unfold gpsRow at hrow
            split at hrow
            · cases hrow
            · cases hrow; rfl
          exact ⟨n, a1, by rw [ht, a2], C111_range g f q hf hrow⟩
        · exact ih rs hrest q hq

/-! ## Examples -/

/-- A fix at noon of the last day of a leap year. -/
def lastDay : GRaw := ⟨0, some 5, some 2020, some 12, some 31, some 12, some 0, some 0, some 43, some (-116)⟩

example : withTime lastDay = some ⟨lastDay, 1609416000⟩ ∧ gpsRow ⟨lastDay, 1609416000⟩ = .ok ⟨2020, 366 + 1 / 2, some 43, some (-116), 1609416000⟩ := by
  constructor <;> decide +kernel

example : ∃ rows, reformatGps [⟨lastDay, 1609416000⟩] = .ok rows ∧ rows.length = 1 := by
  obtain ⟨rows, h, h2, -⟩ := C111_rows [lastDay] [⟨lastDay, 1609416000⟩] (.cons (by decide +kernel) .nil)
  exact ⟨rows, h, h2.length_eq.symm⟩

end Gemlog
