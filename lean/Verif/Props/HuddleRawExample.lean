import Verif.Props.HuddleRaw

/-!
# C122: a logger in a huddle, recorded twice, thirteen minutes apart
-/

namespace Gemlog

/-! ## Two files without defects -/

/-- A fix in minute `m` of 2020, `k` seconds after the count 0. -/
def minuteFix (m k : Nat) (ms : Dec) : Event :=
  ⟨k * 9765625 / 10000, .fix ms (.ofNat 100) 2020 1 1 0 m (.ofNat k) (.ofNat 43) (.ofNat 116)⟩

def minuteFixes (m : Nat) : List Event :=
  [minuteFix m 2 ⟨false, 1953, bytes "125", by decide +kernel⟩, minuteFix m 3 ⟨false, 2929, bytes "6875", by decide +kernel⟩,
   minuteFix m 4 ⟨false, 3906, bytes "25", by decide +kernel⟩, minuteFix m 5 ⟨false, 4882, bytes "8125", by decide +kernel⟩,
   minuteFix m 6 ⟨false, 5859, bytes "375", by decide +kernel⟩, minuteFix m 7 ⟨false, 6835, bytes "9375", by decide +kernel⟩,
   minuteFix m 8 ⟨false, 7812, bytes "5", by decide +kernel⟩, minuteFix m 9 ⟨false, 597, bytes "0625", by decide +kernel⟩,
   minuteFix m 10 ⟨false, 1573, bytes "625", by decide +kernel⟩, minuteFix m 11 ⟨false, 2550, bytes "1875", by decide +kernel⟩]

/-- A status line: the battery has 4 V in minute 0 and 2 V in minute 13; the GPS is on. -/
def minuteStatus (m i : Nat) : Event :=
  ⟨(100 * i + 100 : Nat), .status (.ofNat (100 * i + 100)) (.ofNat (if m = 0 then 4 else 2)) (.ofNat 20) (.ofNat (i % 2)) (.ofNat (i % 3)) 1 2 3 0 1 60 70⟩

/-- Two seconds of samples, seven status lines, and fixes, counted from minute `m` of 2020. -/
def minuteLog (m : Nat) : List Event :=
  [⟨0, .other (bytes "#GemCSV0.91")⟩] ++ (List.range 7).map (minuteStatus m) ++ (List.range 82).map longSample ++ minuteFixes m

def minuteSpan (m : Nat) : BlockSpan :=
  ⟨1577836800 + 60 * m, 1024 / 1000000, 1577836800 + 60 * m + 1024 / 1000000 * (893 / 100), 1577836800 + 60 * m + 1024 / 1000000 * (1944 + 893 / 100), fun _ => 7⟩

def minuteOf (e : Entry) : List Event := if e.name = bytes "FILE0001.012" then minuteLog 0 else minuteLog 13

noncomputable def minuteDisk : RawDisk :=
  ⟨fun e => textOf (minuteOf e), fun _ _ => .error .other, fun _ _ => .error .other, fun _ => .ok "012", fun _ => 0, [], [], false, 1800000000,
    idealFit, flatSpline⟩

theorem minuteFix_at (m k : Nat) (hm : m = 0 ∨ m = 13) (hk : k < 14) (ms : Dec) :
    ∃ t : Int, (minuteFix m k ms).FixAt t ∧ (t : Rat) = (1577836800 + 60 * m) + 1024 / 1000000 * (minuteFix m k ms).T := by
  refine ⟨1577836800 + 60 * m + k, ?_, ?_⟩
  · unfold minuteFix Event.FixAt
    refine ⟨by decide +kernel, by decide +kernel, by decide +kernel, by decide, ((k : Nat) : Int), ?_, ?_, ?_⟩
    · simp [Dec.val, Dec.ofNat, digitsVal]
    · exact ⟨by norm_num, by norm_num, ⟨by norm_num, true, by simp [LeapYear], by norm_num [almanac]⟩, by norm_num, ⟨by simp only; omega, by simp only; omega⟩,
        ⟨by simp only; omega, by simp only; omega⟩⟩
    · rcases hm with rfl | rfl <;> interval_cases k <;> decide +kernel
  · unfold minuteFix
    push_cast
    ring

theorem minute_samples (m : Nat) (hm : m = 0 ∨ m = 13) :
    sampleTimes (minuteLog m) = (List.range 82).map fun i : Nat => ((24 * i : Nat) : Rat) := by
  rcases hm with rfl | rfl <;> decide +kernel

theorem printed_status {m : Nat} {rest : List Event} (hr : ∀ prev, TimesPrinted prev rest) : ∀ (L : List Nat) (prev : Option Rat),
    (∀ i ∈ L, 100 * i + 100 < 8192) → TimesPrinted prev (L.map (minuteStatus m) ++ rest)
  | [], prev, _ => hr prev
  | i :: L, prev, h => by
    rw [List.map_cons, List.cons_append]
    unfold minuteStatus
    simp only [TimesPrinted]
    have h1 : 100 * i + 100 < 8192 := h i (by simp)
    have hv : (Dec.ofNat (100 * i + 100)).val = ((100 * i + 100 : Nat) : Rat) := by simp [Dec.val, Dec.ofNat, digitsVal]
    refine ⟨⟨by rw [hv]; positivity, by rw [hv]; exact_mod_cast h1, 0, by rw [hv]; push_cast; ring⟩, ?_⟩
    exact printed_status hr L _ fun i hi => h i (by simp [hi])

theorem minute_sound (m : Nat) (hm : m = 0 ∨ m = 13) : SoundFile (1577836800 + 60 * m) (1024 / 1000000) (minuteLog m) := by
  have w : ∀ (T s : Rat) (k : Int), 0 ≤ s → s < 8192 → T = s + k * 8192 → WrappedReading 8192 T s := fun T s k h1 h2 h3 => ⟨h1, h2, k, h3⟩
  have hfix : ∀ prev, TimesPrinted prev (minuteFixes m) := by
    intro prev
    unfold minuteFixes minuteFix
    simp only [TimesPrinted]
    refine ⟨w _ _ 0 ?_ ?_ ?_, w _ _ 0 ?_ ?_ ?_, w _ _ 0 ?_ ?_ ?_, w _ _ 0 ?_ ?_ ?_, w _ _ 0 ?_ ?_ ?_, w _ _ 0 ?_ ?_ ?_, w _ _ 0 ?_ ?_ ?_,
      w _ _ 1 ?_ ?_ ?_, w _ _ 1 ?_ ?_ ?_, w _ _ 1 ?_ ?_ ?_, trivial⟩ <;> decide +kernel
  refine ⟨?_, ?_, ?_, ?_, ?_, ?_, ?_, ?_, ?_, ?_, ?_⟩
  · rcases hm with rfl | rfl <;> decide +kernel
  · rcases hm with rfl | rfl <;> decide +kernel
  · unfold minuteLog
    rw [List.append_assoc, List.append_assoc, List.cons_append, List.nil_append]
    simp only [TimesPrinted]
    exact printed_status (fun prev => printed_samples hfix _ _ (by decide)) _ _ (by decide)
  · rcases hm with rfl | rfl <;> decide +kernel
  · rcases hm with rfl | rfl <;> decide +kernel
  · rcases hm with rfl | rfl <;> decide +kernel
  · rcases hm with rfl | rfl <;> decide +kernel
  · intro e he hf
    unfold minuteLog at he
    rcases List.mem_append.mp he with he | he
    · rcases List.mem_append.mp he with he | he
      · rcases List.mem_append.mp he with he | he
        · simp only [List.mem_cons, List.not_mem_nil, or_false] at he
          subst he
          exact absurd hf (by simp [Event.isFix])
        · obtain ⟨i, _, rfl⟩ := List.mem_map.mp he
          exact absurd hf (by simp [Event.isFix, minuteStatus])
      · obtain ⟨i, _, rfl⟩ := List.mem_map.mp he
        exact absurd hf (by simp [Event.isFix, longSample])
    · unfold minuteFixes at he
      simp only [List.mem_cons, List.not_mem_nil, or_false] at he
      rcases he with rfl | rfl | rfl | rfl | rfl | rfl | rfl | rfl | rfl | rfl <;> exact minuteFix_at m _ hm (by decide) _
  · rcases hm with rfl | rfl <;> decide +kernel
  · rcases hm with rfl | rfl <;> decide +kernel
  · rcases hm with rfl | rfl <;> decide +kernel

theorem minute_clean (m : Nat) (hm : m = 0 ∨ m = 13) : CleanRecording (1577836800 + 60 * m) (1024 / 1000000) [minuteLog m] := by
  refine ⟨by norm_num, ⟨⟨minute_sound m hm, ?_, ?_⟩, trivial⟩, ?_, ?_⟩
  · unfold NearStart; rcases hm with rfl | rfl <;> decide +kernel
  · rcases hm with rfl | rfl <;> decide +kernel
  · rcases hm with rfl | rfl <;> decide +kernel
  · intro x y z l h
    rw [List.flatMap_singleton, minute_samples m hm, show List.range 82 = 0 :: 1 :: 2 :: (List.range 79).map (· + 3) by decide] at h
    simp only [List.map_cons, List.cons.injEq] at h
    obtain ⟨rfl, rfl, -⟩ := h
    left; norm_num

theorem minute_block (m : Nat) (hm : m = 0 ∨ m = 13) (n : Int) (e : Entry) (hn : n = 1 ∧ m = 0 ∧ e = ⟨bytes "FILE0001.012", 500, .str (bytes "012")⟩ ∨
    n = 13 ∧ m = 13 ∧ e = ⟨bytes "FILE0013.012", 500, .str (bytes "012")⟩) :
    CleanBlock minuteDisk longDir (bytes "012") minuteOf [n] (minuteSpan m) e [] := by
  have hlog : minuteOf e = minuteLog m := by
    rcases hn with ⟨_, rfl, rfl⟩ | ⟨_, rfl, rfl⟩
    · unfold minuteOf; rw [if_pos rfl]
    · unfold minuteOf; rw [if_neg (by decide +kernel)]
  refine ⟨?_, fun _ _ => rfl, ?_, ⟨"0.91", by decide, ?_⟩, fun _ _ => ⟨_, rfl⟩, .inl rfl, ?_, ?_, ?_, ?_, ?_⟩
  · rcases hn with ⟨rfl, _, rfl⟩ | ⟨rfl, _, rfl⟩ <;> decide +kernel
  · rw [List.map_singleton, hlog]; exact minute_clean m hm
  · rw [hlog]
    exact ⟨_, _, rfl, congrArg LogLine.other (by decide +kernel)⟩
  · rw [List.map_singleton, hlog]; rcases hm with rfl | rfl <;> decide +kernel
  · rw [List.map_singleton, hlog]; rcases hm with rfl | rfl <;> decide +kernel
  · unfold minuteSpan; norm_num
  · rw [List.map_singleton, hlog]; rcases hm with rfl | rfl <;> decide +kernel
  · have hne : ¬ (trueRecord (1577836800 + 60 * m) (1024 / 1000000) [minuteLog m]).length < 2 := by rcases hm with rfl | rfl <;> decide +kernel
    rw [List.map_singleton, hlog]
    rw [show minuteDisk.spline = flatSpline from rfl]
    unfold flatSpline
    rw [show (minuteSpan m).offset = 1577836800 + 60 * (m : Rat) from rfl, show (minuteSpan m).rate = 1024 / 1000000 from rfl, List.length_map, if_neg hne]
    rfl

/-- The hypotheses of `C122_huddle` hold for the two files, the huddle test of the logger alone completes, and it warns about the battery, which has 2 V in the second file. -/
example : ∃ s tb out row, Settles (convertT (tableJobOf minuteDisk.env longDir (bytes "012") [1, 13] 1 (10000 * 360000) 253402300799000000) none)
    (.done (s, tb)) ∧ verifyHuddle [(bytes "012", metaLogOf tb)] false = .ok out ∧ out.printed.individual.results[0]? = some (bytes "012", row) ∧
    row.head? = some (.battMin, .warning) := by
  have hbl : (jobOf minuteDisk.env longDir (bytes "012") [1, 13] 1 (10000 * 360000) 253402300799000000).blocks = [[1], [13]] := by decide +kernel
  obtain ⟨s, tb, h1, h2, h3⟩ := C122_huddle minuteDisk longDir (bytes "012") minuteOf [none] [1, 13] (by decide +kernel) 12 (by decide +kernel)
    (specsOf (7 / 10)) (by decide +kernel) idealFit_reproduces idealFit_line 1 360000 253402300799000000 (by decide) (by decide) (minuteSpan 0) [minuteSpan 13]
    (by
      rw [hbl]
      exact .cons ⟨_, _, minute_block 0 (.inl rfl) 1 _ (.inl ⟨rfl, rfl, rfl⟩)⟩
        (.cons ⟨_, _, minute_block 13 (.inr rfl) 13 _ (.inr ⟨rfl, rfl, rfl⟩)⟩ .nil))
    (by unfold minuteSpan; simp only [List.isChain_cons_cons, List.isChain_singleton]; norm_num) (by unfold minuteSpan; norm_num)
    (by unfold minuteSpan; norm_num)
    (by
      intro r hr
      simp only [List.mem_cons, List.not_mem_nil, or_false] at hr
      rcases hr with rfl | rfl <;> unfold minuteSpan <;> norm_num)
  rw [hbl] at h2 h3
  have hok : ∃ out, verifyHuddle [(bytes "012", metaLogOf tb)] false = .ok out := by
    rw [h2]
    have : (verifyHuddle [(bytes "012", rowsOf (statusLines minuteOf (List.zip ([[1], [13]].map (findFiles longDir (bytes "012"))) [minuteSpan 0, minuteSpan 13])))]
      false).toBool = true := by decide +kernel
    revert this
    cases verifyHuddle [(bytes "012", rowsOf (statusLines minuteOf (List.zip ([[1], [13]].map (findFiles longDir (bytes "012"))) [minuteSpan 0, minuteSpan 13])))]
      false with
    | error e => intro h; cases h
    | ok out => intro _; exact ⟨out, rfl⟩
  obtain ⟨out, hout⟩ := hok
  obtain ⟨row, h4, h5, h6⟩ := h3 [] [] false out hout
  refine ⟨s, tb, out, row, h1, hout, h4, ?_⟩
  obtain ⟨p, row, rfl⟩ := List.exists_cons_of_ne_nil (show row ≠ [] by rintro rfl; cases h5)
  obtain ⟨test, status⟩ := p
  have htest : test = .battMin := by have := congrArg List.head? h5; simpa [allTests] using this
  subst htest
  have h7 := (h6 (.battMin, status) (by simp)).2.1.mpr ⟨by
    simp only [LoggedError]
    decide +kernel, by
    simp only [LoggedWarning]
    decide +kernel⟩
  simp only at h7
  rw [h7]
  rfl

end Gemlog
