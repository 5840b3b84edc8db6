import Verif.Props.Days

/-!
# C60: the days of a run that starts at any time of day
-/

namespace Gemlog

/-! ## Specification -/

/-- The start of the second day of a run that starts at `a`, in microseconds: the next midnight, and if `a` is in the last two seconds of a day the one after that; later by the fraction of the
second of `a`. -/
def secondDay (a : Int) : Int :=
  a - a % 86400000000 + a % 1000000 + if a % 86400000000 < 86398000000 then 86400000000 else 172800000000

/-! ## Proof -/

theorem nextMidnight_eq (a : Int) : nextMidnight a = secondDay a := by
  unfold nextMidnight secondDay
  dsimp only
  split <;> omega

theorem secondDay_aligned (a : Int) : secondDay a % 86400000000 < 1000000 := by
  unfold secondDay
  split <;> omega

theorem secondDay_ge (a : Int) : a < secondDay a := by
  unfold secondDay
  split <;> omega

theorem secondDay_later (a : Int) : secondDay (a + 86400000000) = secondDay a + 86400000000 := by
  unfold secondDay
  split <;> split <;> omega

theorem dayList_any {a b : Int} (k : Nat) :
    (∃ e, (dayList a b)[k + 1]? = some (secondDay a + k * 86400000000, e) ∧ min e b = min (secondDay a + (k + 1) * 86400000000) b ∧
      secondDay a + k * 86400000000 < b) ∨
    ((dayList a b)[k + 1]? = none ∧ b ≤ secondDay a + k * 86400000000) := by
  unfold dayList
  rw [List.zip_cons_cons, List.getElem?_cons_succ]
  have hge := secondDay_ge a
  have hal := secondDay_aligned a
  have hlat := secondDay_later a
  rw [moreStarts, moreEnds, nextMidnight_eq, nextMidnight_eq, hlat]
  generalize secondDay a = c at *
  by_cases hc : c < b
  · rw [if_pos hc]
    have hs := moreStarts_aligned b (b - a).toNat c hal (by omega)
    cases k with
    | zero =>
      left
      split
      · exact ⟨c + 86400000000, by rw [List.zip_cons_cons, List.getElem?_cons_zero]; simp, by simp, by simpa using hc⟩
      · exact ⟨b, by rw [List.zip_cons_cons, List.getElem?_cons_zero]; simp, by simp; omega, by simpa using hc⟩
    | succ k =>
      have hs' := hs k
      by_cases hlt : c + (k + 1) * 86400000000 < b
      · left
        rw [if_pos hlt] at hs'
        rw [if_pos (by have : (0 : Int) ≤ k * 86400000000 := by positivity
                       linarith)]
        have he := moreEnds_aligned b (b - a).toNat (c + 86400000000) (by omega) (by omega) k (by linarith)
        refine ⟨min (c + 86400000000 + ((k : Int) + 1) * 86400000000) b, ?_, ?_, by push_cast; exact hlt⟩
        · rw [List.zip_cons_cons, List.getElem?_cons_succ, List.getElem?_zip_eq_some]
          exact ⟨by rw [hs']; push_cast; rfl, he⟩
        · have : c + 86400000000 + ((k : Int) + 1) * 86400000000 = c + (((k + 1 : Nat) : Int) + 1) * 86400000000 := by push_cast; ring
          rw [this]
          omega
      · right
        rw [if_neg hlt] at hs'
        refine ⟨?_, by push_cast; omega⟩
        have hn := List.getElem?_eq_none_iff.mp hs'
        rw [List.getElem?_eq_none_iff, List.length_zip, List.length_cons]
        omega
  · right
    rw [if_neg hc]
    have : (0 : Int) ≤ k * 86400000000 := by positivity
    exact ⟨by simp, by omega⟩

/-- **C60, whatever the start.** The run has a first day, of 24 hours, and one more for each further 24 hours from `secondDay`, as long as they begin before the end. Each is handed exactly the
samples of the wanted channels in it, as often as they are in the files. -/
theorem C60_days (files : List DFile) (hnd : (files.map DFile.name).Nodup) (ho : TimeOrdered files) (m n : Int)
    (hm : FirstTime files m) (hn : LastTime files n) (ids : List (List Nat)) (t1 t2 : Int) (days : List (List DSample))
    (hr : loopThroughDays files ids t1 t2 = some days) :
    (∃ out, days[0]? = some out ∧ ∀ x, out.count x =
      if x.id ∈ ids ∧ max t1 m ≤ x.t ∧ x.t ≤ max t1 m + 86400000000 ∧ x.t ≤ min t2 n then (files.flatMap DFile.all).count x else 0) ∧
    ∀ k : Nat, (secondDay (max t1 m) + k * 86400000000 < min t2 n →
        ∃ out, days[k + 1]? = some out ∧ ∀ x, out.count x =
          if x.id ∈ ids ∧ secondDay (max t1 m) + k * 86400000000 ≤ x.t ∧ x.t ≤ secondDay (max t1 m) + (k + 1) * 86400000000 ∧ x.t ≤ min t2 n
          then (files.flatMap DFile.all).count x else 0) ∧
      (min t2 n ≤ secondDay (max t1 m) + k * 86400000000 → days[k + 1]? = none) := by
  obtain ⟨hlen, hcount⟩ := loopThroughDays_count hnd ho hm hn hr
  generalize max t1 m = a at *
  generalize min t2 n = b at *
  constructor
  · have hd0 : (dayList a b)[0]? = some (a, a + 86400000000) := rfl
    have hl := (List.getElem?_eq_some_iff.mp hd0).1
    refine ⟨days[0]'(by omega), List.getElem?_eq_getElem _, fun x => ?_⟩
    rw [hcount 0 _ _ hd0 (List.getElem?_eq_getElem _) x]
    refine if_congr ?_ rfl rfl
    unfold InRange
    dsimp only
    rw [le_min_iff]
  · intro k
    rcases dayList_any (a := a) (b := b) k with ⟨e, h1, h2, h3⟩ | ⟨h1, h2⟩
    · refine ⟨fun _ => ?_, fun h => by omega⟩
      have hl := (List.getElem?_eq_some_iff.mp h1).1
      refine ⟨days[k + 1]'(by omega), List.getElem?_eq_getElem _, fun x => ?_⟩
      rw [hcount (k + 1) _ _ h1 (List.getElem?_eq_getElem _) x]
      refine if_congr ?_ rfl rfl
      unfold InRange
      dsimp only
      rw [h2, le_min_iff]
    · refine ⟨fun h => by omega, fun _ => ?_⟩
      have := List.getElem?_eq_none_iff.mp h1
      exact List.getElem?_eq_none_iff.mpr (by omega)

/-- **C60 is violated at the end of a day.** If the run starts in the last two seconds of a day, the samples more than 24 hours after the start and before the second next midnight are handed to
no daily analysis. -/
theorem C60_violated_last_seconds (files : List DFile) (hnd : (files.map DFile.name).Nodup) (ho : TimeOrdered files) (m n : Int)
    (hm : FirstTime files m) (hn : LastTime files n) (ids : List (List Nat)) (t1 t2 : Int) (days : List (List DSample))
    (hr : loopThroughDays files ids t1 t2 = some days) (hlate : 86398000000 ≤ max t1 m % 86400000000) (x : DSample)
    (h1 : max t1 m + 86400000000 < x.t) (h2 : x.t < max t1 m - max t1 m % 86400000000 + 172800000000) :
    ∀ out ∈ days, x ∉ out := by
  obtain ⟨⟨out0, e0, c0⟩, hk⟩ := C60_days files hnd ho m n hm hn ids t1 t2 days hr
  intro out hout hx
  have hpos := List.count_pos_iff.mpr hx
  obtain ⟨i, hi⟩ := List.mem_iff_getElem?.mp hout
  have hsd : max t1 m - max t1 m % 86400000000 + 172800000000 ≤ secondDay (max t1 m) := by
    unfold secondDay
    rw [if_neg (by omega)]
    omega
  cases i with
  | zero =>
    rw [e0] at hi
    cases hi
    rw [c0, if_neg (by omega)] at hpos
    omega
  | succ k =>
    by_cases hb : secondDay (max t1 m) + k * 86400000000 < min t2 n
    · obtain ⟨out', e, c⟩ := (hk k).1 hb
      rw [e] at hi
      cases hi
      have : (0 : Int) ≤ k * 86400000000 := by positivity
      rw [c, if_neg (by omega)] at hpos
      omega
    · rw [(hk k).2 (by omega)] at hi
      cases hi

/-! ## Example: a run from one second before midnight; the sample at 23:59:59.5 of the second day is in none -/

def lastSecondFiles : List DFile :=
  [⟨bytes "a", [⟨bytes "X", [(86399000000, 1), (86400000000, 2), (172799000000, 3), (172799500000, 4), (172800000000, 5), (200000000000, 6)]⟩]⟩]

example : (lastSecondFiles.map DFile.name).Nodup ∧ FirstTime lastSecondFiles 86399000000 ∧ LastTime lastSecondFiles 200000000000 := by
  unfold FirstTime LastTime; decide +kernel
example : TimeOrdered lastSecondFiles := by unfold TimeOrdered; decide +kernel
example : loopThroughDays lastSecondFiles [bytes "X"] 0 999999999999 =
    some [[⟨bytes "X", 86399000000, 1⟩, ⟨bytes "X", 86400000000, 2⟩, ⟨bytes "X", 172799000000, 3⟩], [⟨bytes "X", 172800000000, 5⟩, ⟨bytes "X", 200000000000, 6⟩]] := by
  decide +kernel

end Gemlog
