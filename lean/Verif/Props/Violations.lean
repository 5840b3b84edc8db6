import Verif.Props.Drift
import Verif.Props.Names
import Verif.Props.GemCatDir
import Verif.Props.Summary

/-!
# Defects in general: C19, C20, C36, C57, C61

The theorems `C19_violated`, `C20_violated`, `C36_violated`, `C57_violated` and `C61_violated_substring` show one input each. Here are all inputs of
their kind.
-/

namespace Gemlog

/-! ## C19 and C20 -/

/-- **C19 is violated by every clock that runs backwards.** If the fixes are on a line, at least ten of them at four different counts, and the last is
earlier than the first (by more than a nanosecond), the file is accepted, although its fixes cover none of it, provided their counts span 0.000512 of the
data (3.7 s of a file of two hours). -/
theorem C19_violated_backwards (fit : Fitter) (hfit : Reproduces fit) (hfit1 : ReproducesLines fit) (L : FileData) (a b : Rat)
    (hclock : ∀ f ∈ L.gps, f.t = a + b * f.msPPS) (hn : 10 ≤ L.gps.length)
    (hdist : ∃ x1 x2 x3 x4, x1 < x2 ∧ x2 < x3 ∧ x3 < x4 ∧ x1 ∈ L.gps.map (·.msPPS) ∧ x2 ∈ L.gps.map (·.msPPS) ∧
      x3 ∈ L.gps.map (·.msPPS) ∧ x4 ∈ L.gps.map (·.msPPS))
    (hback : fixSpan L < -(1 / 1000000000)) (hdata : 0 ≤ dataSpan L) (hspan : SpanTest L (fixPoints L)) :
    (∃ info, calculateDrift fit L true = .ok info ∧ ∀ x, timeOf info x = a + b * x) ∧ ¬ CoversHalf L := by
  have hmap : (fixPoints L).map Prod.fst = L.gps.map (·.msPPS) := by simp [fixPoints]
  have hlenp : (fixPoints L).length = L.gps.length := by simp [fixPoints]
  have hpts : ∀ p ∈ fixPoints L, p.2 = a + b * p.1 := by
    intro p hp
    obtain ⟨f, hf, rfl⟩ := List.mem_map.mp hp
    exact hclock f hf
  have hg : L.gps ≠ [] := by intro h; rw [h] at hn; simp at hn
  have hne : fixPoints L ≠ [] := by intro h; rw [← hlenp, h] at hn; simp at hn
  obtain ⟨co1, hco1, hex1⟩ := hfit1 (fixPoints L) a b hpts
    (by obtain ⟨x1, x2, _, _, h12, _, _, h1, h2, _⟩ := hdist; rw [hmap]; exact ⟨x1, x2, h12, h1, h2⟩)
  obtain ⟨co3, hco3, hlen3, hex3⟩ := hfit (fixPoints L) a b 0 0
    (by intro p hp; rw [hpts p hp]; unfold cubic; ring) (by rw [hmap]; exact hdist)
  have hr1 := robust_exact (MAD := none) (by simp) hco1 hne hex1
  have hr3 := robust_exact (MAD := some (1 / 100)) (by intro m hm; simp at hm; rw [← hm]; norm_num) hco3 hne hex3
  have hstep : detectStep fit (fixPoints L) = .ok false := by
    unfold detectStep
    rw [hr1]
    simp only [Except.ok.injEq]
    rw [anyJump_iff]
    unfold NoStep
    exact noStep_zeros _
  have hreg := tryRegression_some.mpr ⟨hr3, hspan, by simp only; omega⟩
  have hneg : fixSpan L + 1 / 1000000000 < 0 := by linarith
  have hsuf : sufficientB L = true := by
    unfold sufficientB ratioLt
    rw [if_neg (ne_of_lt hneg)]
    simp only [Bool.and_eq_true, decide_eq_true_eq]
    refine ⟨hg, ?_⟩
    have : 1024 / 1000000 * dataSpan L / (fixSpan L + 1 / 1000000000) ≤ 0 :=
      div_nonpos_of_nonneg_of_nonpos (by linarith) (le_of_lt hneg)
    linarith
  have hok : calculateDrift fit L true = .ok (headerOf L co3 (some 0) (fixPoints L).length) := by
    rw [calculateDrift_eq, if_neg (by simp [hg]), if_neg (by rw [hsuf]; simp), if_neg (by rw [hstep]; simp), if_neg (by rw [hstep]; simp),
      if_pos hsuf, hreg]
  refine ⟨⟨_, hok, ?_⟩, ?_⟩
  · have := (C22_perfect_timing fit hfit L a b 0 0 (by intro f hf; rw [hclock f hf]; ring) hdist _ hok).2.2
    intro x
    rw [this x]; ring
  · unfold CoversHalf
    intro h
    linarith

/-- **C20 is violated by every clock that is a thousand times too fast.** If the fixes are on a line with a slope of at least a second per count (it should
be a millisecond), any file whose fixes span 0.000512 of its counts is accepted, and all its times are taken from that line. -/
theorem C20_violated_fast (fit : Fitter) (hfit : Reproduces fit) (hfit1 : ReproducesLines fit) (L : FileData) (a b : Rat) (hb : 1 ≤ b)
    (hclock : ∀ f ∈ L.gps, f.t = a + b * f.msPPS) (hn : 10 ≤ L.gps.length)
    (hdist : ∃ x1 x2 x3 x4, x1 < x2 ∧ x2 < x3 ∧ x3 < x4 ∧ x1 ∈ L.gps.map (·.msPPS) ∧ x2 ∈ L.gps.map (·.msPPS) ∧
      x3 ∈ L.gps.map (·.msPPS) ∧ x4 ∈ L.gps.map (·.msPPS))
    (first last : Fix) (h1 : L.gps.head? = some first) (h2 : L.gps.getLast? = some last) (hpos : first.msPPS < last.msPPS)
    (hspan : 512 / 1000000 * dataSpan L ≤ last.msPPS - first.msPPS) :
    ∃ info, calculateDrift fit L true = .ok info ∧ (∀ x, timeOf info x = a + b * x) ∧ info.numNonoutliers = L.gps.length := by
  have hfs : fixSpan L = b * (last.msPPS - first.msPPS) := by
    unfold fixSpan
    rw [h1, h2]
    simp only [Option.map_some, Option.getD_some]
    rw [hclock last (List.mem_of_getLast? h2), hclock first (List.mem_of_mem_head? (by rw [h1]; rfl))]
    ring
  have hd : 0 < last.msPPS - first.msPPS := by linarith
  have hge : last.msPPS - first.msPPS ≤ fixSpan L := by rw [hfs]; nlinarith
  have hst : SpanTest L (fixPoints L) := by
    unfold SpanTest fixPoints
    simp only [List.getLast?_map, List.head?_map, h1, h2, Option.map_some, Option.getD_some]
    rw [if_neg (ne_of_gt hd), div_le_iff₀ hd]
    linarith
  obtain ⟨info, hok, ht⟩ := C22_linear_clock_accepted fit hfit hfit1 L a b hclock hn hdist (by linarith)
    (by unfold CoversHalf; linarith) hst
  exact ⟨info, hok, ht, (C22_perfect_timing fit hfit L a b 0 0 (by intro f hf; rw [hclock f hf]; ring) hdist _ hok).1⟩

/-- Twelve fixes at counts 0, 1000, ..., 11000 in a file of 7000 s: backwards, and too fast. -/
def backwardsFile : FileData := fileWith 7000000 ((List.range 12).map fun i => (1000 * (i : Rat), 100 - (i : Rat)))

def fastFile : FileData := fileWith 7000000 ((List.range 12).map fun i => (1000 * (i : Rat), 1000 * (i : Rat)))

example : ∃ info, calculateDrift idealFit backwardsFile true = .ok info := by
  obtain ⟨⟨info, h, -⟩, -⟩ := C19_violated_backwards idealFit idealFit_reproduces idealFit_line backwardsFile 100 (-1 / 1000)
    (by decide +kernel) (by decide +kernel) ⟨0, 1000, 2000, 3000, by decide +kernel⟩ (by decide +kernel) (by decide +kernel)
    (by unfold SpanTest; decide +kernel)
  exact ⟨info, h⟩

example : ∃ info, calculateDrift idealFit fastFile true = .ok info := by
  obtain ⟨info, h, -⟩ := C20_violated_fast idealFit idealFit_reproduces idealFit_line fastFile 0 1 (by norm_num)
    (by decide +kernel) (by decide +kernel) ⟨0, 1000, 2000, 3000, by decide +kernel⟩
    (fastFile.gps.head (by decide +kernel)) (fastFile.gps.getLast (by decide +kernel)) (by decide +kernel) (by decide +kernel)
    (by decide +kernel) (by decide +kernel)
  exact ⟨info, h⟩

/-! ## C36 -/

/-- **C36 is violated by every two segments that start in the same second.** Whatever else a conversion writes, in whatever folder, the segment written
first is in no file at the end. -/
theorem C36_violated_second (id fmt : List Nat) (before between after : List Trace) (x y : Trace) (hsec : x.start / 100 = y.start / 100)
    (hne : x ∉ between ++ y :: after) (dir : Dir Trace) (hdir : ∀ name, dir name ≠ some x) (name : List Nat) :
    (dir.writeAll (segmentWrites id fmt (before ++ x :: between ++ y :: after))) name ≠ some x := by
  have hname : convertedName id fmt x.start = convertedName id fmt y.start := by unfold convertedName; rw [hsec]
  intro h
  have hlast : ∀ (l : List Trace) (d : Dir Trace), x ∉ l → (∀ nm, d nm = some x → nm = convertedName id fmt x.start) →
      ∀ nm, (d.writeAll (segmentWrites id fmt l)) nm = some x → nm = convertedName id fmt x.start := by
    intro l
    induction l with
    | nil => intro d _ hd nm h; exact hd nm h
    | cons t l ih =>
      intro d hx hd nm h
      simp only [List.mem_cons, not_or] at hx
      refine ih (d.write (convertedName id fmt t.start) t) hx.2 ?_ nm h
      intro m hm
      unfold Dir.write at hm
      split at hm
      · simp only [Option.some.injEq] at hm
        exact absurd hm.symm hx.1
      · exact hd m hm
  have hnone : ∀ (l : List Trace) (d : Dir Trace), x ∉ l → (∀ nm, d nm ≠ some x) →
      ∀ nm, (d.writeAll (segmentWrites id fmt l)) nm ≠ some x := by
    intro l
    induction l with
    | nil => intro d _ hd nm; exact hd nm
    | cons t l ih =>
      intro d hx hd nm
      simp only [List.mem_cons, not_or] at hx
      refine ih (d.write (convertedName id fmt t.start) t) hx.2 ?_ nm
      intro m hm
      unfold Dir.write at hm
      split at hm
      · simp only [Option.some.injEq] at hm
        exact absurd hm.symm hx.1
      · exact hd m hm
  simp only [List.mem_append, List.mem_cons, not_or] at hne
  have hsplit : dir.writeAll (segmentWrites id fmt (before ++ x :: between ++ y :: after)) =
      (((dir.writeAll (segmentWrites id fmt (before ++ [x]))).writeAll (segmentWrites id fmt between)).write (convertedName id fmt y.start) y).writeAll
        (segmentWrites id fmt after) := by
    have : before ++ x :: between ++ y :: after = (before ++ [x]) ++ (between ++ ([y] ++ after)) := by simp
    rw [this]
    unfold segmentWrites
    rw [List.map_append, writeAll_append, List.map_append, writeAll_append, List.map_append, writeAll_append]
    rfl
  rw [hsplit] at h
  -- the only file that may hold `x` is that with its name
  have hbef : ∀ nm, (dir.writeAll (segmentWrites id fmt (before ++ [x]))) nm = some x → nm = convertedName id fmt x.start := by
    intro nm h
    have hkey : ∀ (l : List Trace) (d : Dir Trace), (∀ nm, d nm = some x → nm = convertedName id fmt x.start) →
        ∀ nm, (d.writeAll (segmentWrites id fmt l)) nm = some x → nm = convertedName id fmt x.start := by
      intro l
      induction l with
      | nil => intro d hd nm h; exact hd nm h
      | cons t l ih =>
        intro d hd nm h
        refine ih (d.write (convertedName id fmt t.start) t) ?_ nm h
        intro m hm
        unfold Dir.write at hm
        split at hm
        · rename_i e
          simp only [Option.some.injEq] at hm
          rw [e, hm]
        · exact hd m hm
    exact hkey _ _ (fun nm h => absurd h (hdir nm)) nm h
  refine hnone after _ hne.2.2 ?_ name h
  intro nm hm
  unfold Dir.write at hm
  split at hm
  · simp only [Option.some.injEq] at hm
    exact hne.2.1 hm.symm
  · rename_i hnm
    exact hnm ((hlast between _ hne.1 hbef nm hm).trans hname)

example : (⟨100, [1, 2]⟩ : Trace).start / 100 = (⟨122, [3]⟩ : Trace).start / 100 ∧ (⟨100, [1, 2]⟩ : Trace) ∉ ([] ++ (⟨122, [3]⟩ : Trace) :: [] : List Trace) := by
  decide

/-! ## C57 -/

/-- **C57 is violated in every folder with files of two instruments that the extension (or its absence) selects**: there is one instrument, and nothing
is written under the number of another, whatever the folder has of it. -/
theorem C57_violated_mixed (env : CatEnv) (ext : List Nat) (dir : List RawFile) (outs : List (List Nat × List Nat))
    (h : gemCat env false ext dir = .ok outs) :
    ∃ sn, (∃ e ∈ dir, env.readSN e.content = some sn) ∧
      ∀ e ∈ dir, ∀ sn', env.readSN e.content = some sn' → sn' ≠ sn → ∀ o ∈ outs, ∀ n, o.1 ≠ bytes "FILE" ++ zeroPad 4 (natStr n) ++ bytes "." ++ sn' := by
  obtain ⟨files, hf, hmem, -⟩ := C57_selected_partial env false ext dir
  rw [hf] at h
  obtain ⟨f, sn, h1, h2, h3⟩ := C57_one_serial_number env _ outs h
  have hin : f ∈ files.map RawFile.content := List.mem_of_mem_head? (by rw [h1]; rfl)
  obtain ⟨e, he, rfl⟩ := List.mem_map.mp hin
  refine ⟨sn, ⟨e, ((hmem e).mp he).1, h2⟩, ?_⟩
  intro e' _ sn' _ hne o ho n heq
  obtain ⟨m, hm⟩ := h3 o ho
  rw [heq] at hm
  have hz : ∀ k : Nat, ∀ c ∈ zeroPad 4 (natStr k), c ≠ 46 := by
    intro k c hc
    unfold zeroPad at hc
    rcases List.mem_append.mp hc with hc | hc
    · rw [List.eq_of_mem_replicate hc]; decide
    · have := isDigit_iff.mp (natStr_digits k c hc); omega
  have e1 : ∀ (k : Nat) (s : List Nat), bytes "FILE" ++ zeroPad 4 (natStr k) ++ bytes "." ++ s = bytes "FILE" ++ (zeroPad 4 (natStr k) ++ 46 :: s) := by
    intro k s
    simp [bytes]
  rw [e1, e1] at hm
  have hm' := List.append_cancel_left hm
  have key : ∀ (a b s t : List Nat), (∀ c ∈ a, c ≠ 46) → (∀ c ∈ b, c ≠ 46) → a ++ 46 :: s = b ++ 46 :: t → s = t := by
    intro a
    induction a with
    | nil =>
      intro b s t _ hb h
      cases b with
      | nil => simpa using h
      | cons c b =>
        simp only [List.nil_append, List.cons_append, List.cons.injEq] at h
        exact absurd h.1.symm (hb c (by simp))
    | cons x a ih =>
      intro b s t ha hb h
      cases b with
      | nil =>
        simp only [List.nil_append, List.cons_append, List.cons.injEq] at h
        exact absurd h.1 (ha x (by simp))
      | cons c b =>
        simp only [List.cons_append, List.cons.injEq] at h
        exact ih b s t (fun c hc => ha c (by simp [hc])) (fun c hc => hb c (by simp [hc])) h.2
  exact hne (key _ _ _ _ (hz n) (hz m) hm')

example : ∃ outs, gemCat twoEnv false [] [⟨bytes "FILE0000.001", fileA.text⟩, ⟨bytes "FILE0000.002", fileB.text⟩] = .ok outs :=
  ⟨_, C57_violated.2.2⟩

/-! ## C61 -/

/-- **C61 is violated by every number inside another.** On the command line, naming an instrument also names every instrument whose number is part of
that number; as a list it does not. -/
theorem C61_violated_part (pre sn post : List Nat) (h : pre ≠ [] ∨ post ≠ []) :
    (SNFilter.text (pre ++ sn ++ post)).has sn = true ∧ (SNFilter.list [pre ++ sn ++ post]).has sn = false := by
  constructor
  · unfold SNFilter.has
    rw [isInfix_iff]
    exact ⟨pre, post, rfl⟩
  · unfold SNFilter.has
    simp only [List.mem_singleton, decide_eq_false_iff_not]
    intro e
    have := congrArg List.length e
    simp only [List.length_append] at this
    rcases h with h | h
    · have := List.length_pos_iff.mpr h; omega
    · have := List.length_pos_iff.mpr h; omega

example : bytes "1" ≠ [] ∧ bytes "1" ++ bytes "077" ++ [] = bytes "1077" := by decide

/-- The squared distances from `a`, if the values are `a` or, for few of them, `a'`. -/
theorem sum_two_places (x : List GpsRow) (away : GpsRow → Bool) (a a' : Rat) (hx : ∀ p ∈ x, p.lat = if away p then a' else a) :
    ((x.map GpsRow.lat).map fun v => (v - a) ^ 2).sum = x.countP away * (a' - a) ^ 2 := by
  induction x with
  | nil => simp
  | cons p l ih =>
    have ih := ih fun q hq => hx q (by simp [hq])
    simp only [List.map_cons, List.sum_cons, List.countP_cons, ih]
    rw [hx p (by simp)]
    by_cases hp : away p = true
    · rw [if_pos hp, if_pos hp]; push_cast; ring
    · rw [if_neg hp, if_neg hp]; push_cast; ring

/-- One pass drops every point taken elsewhere. -/
theorem pass_drops (x : List GpsRow) (away : GpsRow → Bool) (a a' : Rat) (hx : ∀ p ∈ x, p.lat = if away p then a' else a)
    (hfar : 1 / 10000 ≤ |a' - a|) (hfew : 101 * x.countP away ≤ x.length) : ∀ p ∈ outlierPass x, away p = false := by
  intro p hp
  unfold outlierPass at hp
  simp only [List.mem_filter, Bool.and_eq_true] at hp
  obtain ⟨hpx, hclose, -⟩ := hp
  cases hpa : away p with
  | false => rfl
  | true =>
    exfalso
    have hne : x ≠ [] := List.ne_nil_of_mem hpx
    have hlne : x.map GpsRow.lat ≠ [] := by simpa using hne
    have hlen : 0 < x.length := List.length_pos_iff.mpr hne
    obtain ⟨h1, h2⟩ := median_half (x.map GpsRow.lat) hlne
    -- the median is at home
    have hmed : medianRat (x.map GpsRow.lat) = a := by
      generalize medianRat (x.map GpsRow.lat) = m at *
      rw [List.countP_map, List.length_map] at h1 h2
      have hhome : ∀ q : Rat → Bool, x.length ≤ 2 * x.countP (q ∘ GpsRow.lat) → q a = true := by
        intro q hq
        by_contra hqa
        have : x.countP (q ∘ GpsRow.lat) ≤ x.countP away := by
          refine List.countP_mono_left ?_
          intro r hr hrq
          by_contra hra
          have e := hx r hr
          rw [if_neg hra] at e
          simp only [Function.comp_apply, e] at hrq
          exact hqa hrq
        omega
      have g1 := hhome (fun v => decide (m ≤ v)) h1
      have g2 := hhome (fun v => decide (v ≤ m)) h2
      simp only [decide_eq_true_eq] at g1 g2
      exact le_antisymm g1 g2
    rw [hmed, hx p hpx, if_pos hpa] at hclose
    have hl0 : (0 : Rat) < x.length := by exact_mod_cast hlen
    have hvar : (x.length : Rat) * varRat (x.map GpsRow.lat) ≤ x.countP away * (a' - a) ^ 2 := by
      rw [← sum_two_places x away a a' hx]
      have hs := sum_shift (x.map GpsRow.lat) (meanRat (x.map GpsRow.lat)) (meanRat (x.map GpsRow.lat) - a) hlne rfl
      have e : ((x.map GpsRow.lat).map fun v => (v - a) ^ 2) =
          (x.map GpsRow.lat).map fun v => (v - meanRat (x.map GpsRow.lat) + (meanRat (x.map GpsRow.lat) - a)) ^ 2 := by
        refine List.map_congr_left ?_
        intro v _
        ring
      rw [e, hs]
      have hv : ((x.map GpsRow.lat).map fun v => (v - meanRat (x.map GpsRow.lat)) ^ 2).sum = (x.length : Rat) * varRat (x.map GpsRow.lat) := by
        unfold varRat
        rw [show meanRat ((x.map GpsRow.lat).map fun r => (r - meanRat (x.map GpsRow.lat)) ^ 2) =
          ((x.map GpsRow.lat).map fun r => (r - meanRat (x.map GpsRow.lat)) ^ 2).sum / x.length by
            rw [meanRat.eq_def ((x.map GpsRow.lat).map _)]; simp only [List.length_map]]
        field_simp
      rw [hv]
      have : 0 ≤ ((x.map GpsRow.lat).length : Rat) * (meanRat (x.map GpsRow.lat) - a) ^ 2 := by positivity
      linarith
    have hfew' : (101 : Rat) * x.countP away ≤ x.length := by exact_mod_cast hfew
    have hsq : (a' - a) ^ 2 = |a' - a| ^ 2 := (sq_abs _).symm
    rw [hsq] at hvar
    unfold closeTo at hclose
    simp only [Bool.or_eq_true, decide_eq_true_eq] at hclose
    generalize |a' - a| = d at *
    generalize varRat (x.map GpsRow.lat) = v at *
    have hd2 : 0 ≤ d ^ 2 := by positivity
    have hv101 : 101 * v ≤ d ^ 2 := by
      have : (x.length : Rat) * (101 * v) ≤ x.length * d ^ 2 := by nlinarith
      exact le_of_mul_le_mul_left this hl0
    rcases hclose with h | h
    · linarith
    · nlinarith

/-- **C61 is violated by every instrument that was tested long enough at home.** If the fixes of the period asked for were taken at one latitude, all others
at another one (0.0001 degrees or more from it, that is 11 m), and there are a hundred times as many of those, the instrument is left out of the summary,
however many fixes the period has. -/
theorem C61_violated_home (inp : GpsInput) (t1 t2 : Rat) (incl excl : Option SNFilter) (sn : List Nat) (a a' : Rat) (hfar : 1 / 10000 ≤ |a' - a|)
    (hx : ∀ p ∈ readGps inp.items sn, p.lat = if t1 ≤ p.t ∧ p.t ≤ t2 then a' else a)
    (hfew : 100 * ((readGps inp.items sn).countP fun p => decide (t1 ≤ p.t ∧ p.t ≤ t2)) ≤
      (readGps inp.items sn).countP fun p => !decide (t1 ≤ p.t ∧ p.t ≤ t2)) :
    ∀ r ∈ summarizeGps inp t1 t2 incl excl, r.sn ≠ sn := by
  have hused : usedRows inp t1 t2 sn = [] := by
    unfold usedRows
    rw [List.filter_eq_nil_iff]
    generalize hrows : readGps inp.items sn = x at *
    have hlen : x.length = (x.countP fun p => decide (t1 ≤ p.t ∧ p.t ≤ t2)) + x.countP fun p => !decide (t1 ≤ p.t ∧ p.t ≤ t2) := by
      have := List.length_eq_countP_add_countP (fun p : GpsRow => decide (t1 ≤ p.t ∧ p.t ≤ t2)) (l := x)
      rw [this]
      congr 2
      funext p
      cases decide (t1 ≤ p.t ∧ p.t ≤ t2) <;> rfl
    have hdrop := pass_drops x (fun p => decide (t1 ≤ p.t ∧ p.t ≤ t2)) a a' (by intro p hp; rw [hx p hp]; simp) hfar (by omega)
    have hsub : ∀ p ∈ removeOutliers x, p ∈ outlierPass x := by
      intro p hp
      have hpass := (C48_safe x).1
      have hsub := (C48_safe x).2.1
      generalize removeOutliers x = y at hp hpass hsub
      cases hpass with
      | done _ h => rw [h]; exact hp
      | more _ _ h r =>
        have : ∀ {u v : List GpsRow}, Passes u v → v.Sublist u := by
          intro u v huv
          induction huv with
          | done => exact List.Sublist.refl _
          | more u w _ _ ih => exact ih.trans List.filter_sublist
        exact (this r).subset hp
    intro p hp
    have := hdrop p (hsub p hp)
    simpa [Bool.decide_and] using this
  intro r hr he
  unfold summarizeGps at hr
  obtain ⟨sn', -, h'⟩ := List.mem_filterMap.mp hr
  unfold summarizeOne at h'
  split at h'
  · rename_i hne
    simp only [Option.some.injEq] at h'
    have hsn : sn' = sn := by rw [← he, ← h']; rfl
    rw [hsn, hused] at hne
    simp at hne
  · cases h'

/-- A day at home, with a fix every ten minutes but for one in the field. -/
example : (1 / 10000 : Rat) ≤ |44 - 43| ∧
    (∀ p ∈ readGps [.dir [⟨bytes "077gps_000.txt", List.replicate 144 ⟨43, -116, 0⟩ ++ [⟨44, -110, 15⟩]⟩]] (bytes "077"),
      p.lat = if 10 ≤ p.t ∧ p.t ≤ 20 then 44 else 43) := by
  decide +kernel

end Gemlog
