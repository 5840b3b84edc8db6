import Verif.Props.XcorrAll

/-!
# C109: a gap costs at most the day it lies in
-/

namespace Gemlog

/-- No masked samples if nothing is missing in the slice. -/
theorem SliceOf.unmasked_in {d : Int} {files : List DFile} {ids : List (List Nat)} {lo hi : Int} {sl : List MSample} (h : SliceOf d files ids lo hi sl)
    (hu : ∀ id ∈ ids, ∀ t, lo ≤ t → t ≤ hi → ¬ MissingAt d files id t) : ∀ s ∈ sl, ∃ v, s.v = some v := by
  intro s hs
  obtain ⟨⟨a, ha, hai, hat, had⟩, ⟨b, hb, hbi, hbt⟩⟩ := h.between s hs
  obtain ⟨hid, h1, h2⟩ := h.within s hs
  have hz : ∃ z ∈ samplesIn files, z.id = s.id ∧ z.t = s.t := by
    by_contra hno
    push Not at hno
    refine hu s.id hid s.t h1 h2 ⟨⟨a, ha, hai, ?_, had⟩, ⟨b, hb, hbi, ?_⟩, hno⟩
    · exact lt_of_le_of_ne hat (hno a ha hai)
    · exact lt_of_le_of_ne hbt (hno b hb hbi).symm
  obtain ⟨z, hz, hzi, hzt⟩ := hz
  have hreal := (h.real z.id z.t z.v).mpr ⟨hz, by rw [hzi]; exact hid, by omega, by omega⟩
  have : s = ⟨z.id, z.t, some z.v⟩ := by
    by_contra hne
    have hr : ∀ a b : MSample, Earlier a b → ¬ (a.id = b.id ∧ a.t = b.t) := by
      rintro a b (hab | hab) ⟨he, ht⟩
      · rw [he] at hab; exact lt_irrefl _ hab
      · omega
    have h1 : sl.Pairwise fun a b => a ≠ b → ¬ (a.id = b.id ∧ a.t = b.t) := h.sorted.imp (S := fun a b => a ≠ b → ¬ (a.id = b.id ∧ a.t = b.t))
      (by intro a b hab _; exact hr a b hab)
    have h2 : sl.Pairwise fun a b => b ≠ a → ¬ (b.id = a.id ∧ b.t = a.t) := h.sorted.imp (S := fun a b => b ≠ a → ¬ (b.id = a.id ∧ b.t = a.t))
      (by intro a b hab _ hc; exact hr a b hab ⟨hc.1.symm, hc.2.symm⟩)
    have := List.Pairwise.forall_of_forall_of_flip (R := fun a b : MSample => a ≠ b → ¬ (a.id = b.id ∧ a.t = b.t)) (l := sl)
      (fun a _ hne => absurd rfl hne) h1 h2
    exact this hs hreal hne ⟨hzi.symm, hzt.symm⟩
  exact ⟨z.v, by rw [this]⟩

/-- **C109, other days.** However many samples are missing elsewhere: a day on which no sample of the chosen channels is missing is analysed as if nothing were missing, from exactly the
samples that the files have on this day; it is skipped only if the analysis of its windows fails by itself. -/
theorem C109_other_days {V : Type} (process : List WTrace → List WTrace) (f : List WTrace → Except Exc (List (List Nat × V)))
    (win overlap : Rat) (d : Int) (files : List DFile) (hf : GoodFiles d files) (m n : Int) (hm : FirstTime files m) (hn : LastTime files n)
    (ids : List (List Nat)) (t1 t2 : Int) (res : DaysOut V) (hr : loopResults (oneDayTable process f win overlap) d files ids t1 t2 = some res)
    (k : Nat) (day : Int × Int) (hday : (dayList (max t1 m) (min t2 n))[k]? = some day)
    (hu : ∀ id ∈ ids, ∀ t, day.1 ≤ t → t ≤ min day.2 (min t2 n) → ¬ MissingAt d files id t) :
    ∃ st, ShowsDay files ids day.1 (min day.2 (min t2 n)) st ∧ res.days[k]? = some (applyWindows f (process st) win overlap).toOption := by
  obtain ⟨sls, rfl, hlen, hsl⟩ := loopResults_slices hf hm hn hr
  have hk := (List.getElem?_eq_some_iff.mp hday).1
  have hs := hsl k day (sls[k]'(by omega)) hday (List.getElem?_eq_getElem _)
  have hv := hs.unmasked_in hu
  refine ⟨_, hs.shows hv, ?_⟩
  unfold collectDays
  dsimp only
  rw [List.getElem?_map, List.getElem?_eq_getElem (by omega : k < sls.length), Option.map_some, oneDayTable_whole process f win overlap hv]

/-- Two days of two channels; one sample of the second channel is missing on the first day. -/
def demoTwoDays : List DFile :=
  [⟨bytes "a", [⟨bytes "X", [(0, 1), (21600000000, 2), (43200000000, 3), (64800000000, 4), (86400000000, 5), (108000000000, 6), (129600000000, 7), (151200000000, 8)]⟩]⟩,
   ⟨bytes "b", [⟨bytes "Y", [(0, 5)]⟩, ⟨bytes "Y", [(43200000000, 6), (64800000000, 7), (86400000000, 5), (108000000000, 6), (129600000000, 7), (151200000000, 8)]⟩]⟩]

example : GoodFiles 21600000000 demoTwoDays ∧ FirstTime demoTwoDays 0 ∧ LastTime demoTwoDays 151200000000 ∧
    (dayList (max (-5) 0) (min 999999999999 151200000000)) = [(0, 86400000000), (86400000000, 151200000000)] :=
  ⟨{ pos := by decide
     names := by decide +kernel
     ordered := by unfold TimeOrdered; decide +kernel
     grid := by decide +kernel
     single := by decide +kernel }, by unfold FirstTime; decide +kernel, by unfold LastTime; decide +kernel, by decide +kernel⟩

/-- Nothing is missing on the second day. -/
example : ∀ id ∈ [bytes "X", bytes "Y"], ∀ t, (86400000000 : Int) ≤ t → t ≤ min 151200000000 (min 999999999999 151200000000) →
    ¬ MissingAt 21600000000 demoTwoDays id t := by
  rintro id hid t h1 h2 ⟨⟨a, ha, hai, hat, k, hk⟩, ⟨b, hb, hbi, hbt⟩, hno⟩
  have key : ∀ x ∈ samplesIn demoTwoDays, ∃ j : Int, x.t = 21600000000 * j := by
    have : ∀ x ∈ samplesIn demoTwoDays, x.t = 21600000000 * (x.t / 21600000000) := by decide +kernel
    exact fun x hx => ⟨_, this x hx⟩
  obtain ⟨j, hj⟩ := key a ha
  have ht : t = 21600000000 * (j + k) := by omega
  have hr : j + k = 4 ∨ j + k = 5 ∨ j + k = 6 ∨ j + k = 7 := by omega
  have all : ∀ id ∈ [bytes "X", bytes "Y"], ∀ i ∈ [(4 : Int), 5, 6, 7], ∃ z ∈ samplesIn demoTwoDays, z.id = id ∧ z.t = 21600000000 * i := by decide +kernel
  obtain ⟨z, hz, hzi, hzt⟩ := all id hid (j + k) (by simpa using hr)
  exact hno z hz hzi (by rw [hzt, ht])

/-- The first day is skipped, the second is not. -/
example : (loopResults (oneDayTable id demoCount 21600 0) 21600000000 demoTwoDays [bytes "X", bytes "Y"] (-5) 999999999999).map
    (fun r => r.days.map Option.isSome) = some [false, true] := by decide +kernel

end Gemlog
