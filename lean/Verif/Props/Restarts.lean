import Verif.Lemmas.Restarts

/-!
# C100: recordings with restarts are read at their true times
-/

namespace Gemlog

theorem used_fixes (g : ClockedFile) :
    g.used.gps.map (fun f => (f.t, f.lat, f.lon)) = g.fixes.map fun p => (p.1, some p.2.1, some p.2.2) := by
  have h := congrArg (List.map fun q : Rat × Rat × Option Rat × Option Rat => q.2) (fixPointsOf g.offset g.rate g.events)
  rw [List.map_map, List.map_map] at h
  unfold ClockedFile.fixes
  rw [List.map_map]
  exact h

theorem used_status (g : ClockedFile) : g.used.metadata.map Prod.snd = g.status.map fun l => l.map some := by
  have h : g.used.metadata = _ := statusRows g.events
  rw [h]
  unfold ClockedFile.status
  rw [List.map_map, List.map_map]
  rfl

theorem same_flatMap {β : Type} (F : ClockedFile → List β) (hF : ∀ f k, F (f.shifted k) = F f) :
    ∀ {fs gs : List ClockedFile}, List.Forall₂ SameFile fs gs → gs.flatMap F = fs.flatMap F := by
  intro fs gs h
  induction h with
  | nil => rfl
  | @cons f g fs gs h0 _ ih =>
    obtain ⟨k, rfl⟩ := h0
    rw [List.flatMap_cons, List.flatMap_cons, ih, hF]

/-- The first fixes are not suspect (helper). -/
theorem trusted_tag {now prev next : Rat} {e : Event} {a b : Rat} {t : Int} (hfix : e.FixAt t) (hy : e.Since2015)
    (hnow : a + b * e.T ≤ now) (hnear : |a + b * e.T - prev| ≤ 86400 ∨ |a + b * e.T - next| ≤ 86400) :
    badTag now prev next (e.fixRec a b) = false := by
  rcases e with ⟨T, line⟩
  cases line with
  | sample => exact hfix.elim
  | letters => exact hfix.elim
  | status => exact hfix.elim
  | other => exact hfix.elim
  | fix ms lag yr mo day hr mn sec lat lon =>
    obtain ⟨h1, h2, _⟩ := hfix
    have hy' : (2015 : Rat) ≤ yr := by exact_mod_cast (show (2015 : Int) ≤ yr from hy)
    simp only [badTag, Event.fixRec, Event.grawD, Event.graw, Option.getD_some, Bool.or_eq_false_iff, decide_eq_false_iff_not,
      Bool.and_eq_false_iff, not_lt, gt_iff_lt, Option.some.injEq]
    exact ⟨⟨⟨⟨hnow, hy'⟩, hnear⟩, h1.1⟩, h2.1⟩

open Classical in
/-- Reading files with their own clocks, whatever times are assigned (helper). -/
theorem read_clocked (d : RawDisk) (dir : List Entry) (SN : List Nat) (nums : List Int) (log : Entry → ClockedFile)
    (first : Entry) (rest : List Entry) (hfind : findFiles dir SN nums = first :: rest)
    (htext : ∀ e ∈ first :: rest, d.content e = textOf (log e).events) (hsound : SoundClocked d.now ((first :: rest).map log))
    (v : String) (hv : v ∈ ["0.85C", "0.9", "0.91", "1.10"]) (hver : HasVersion v (log first).events)
    (hsn : ∀ e ∈ first :: rest, ∃ sn, d.readSN e = .ok sn) (n : Int) (hn : pyInt SN = some n) (specs : Specs) (hspecs : gemSpecs n = .ok specs)
    (hadc : d.adc first = 0 ∨ d.adc first = 1) (hfit : Reproduces d.fit) (hfit1 : ReproducesLines d.fit) :
    ∃ gs rows, List.Forall₂ SameFile ((first :: rest).map log) gs ∧ List.Forall₂ ClockedFile.Row gs rows ∧
      (∀ g ∈ gs, SoundFile g.offset g.rate g.events) ∧ Follow 0 gs ∧
      ∀ R : List (Rat × Int), timesOf (stamped R) ≠ [] →
        recordOf (timedData (gs.flatMap fun g => g.used.data) rows) = R.map (fun p => (p.1, some (p.2 : Rat))) →
        (∀ r ∈ runsOf (stamped R), r.headD 0 ≠ r.getLastD 0 → 1 / 100 ≤ r.getLastD 0 - r.headD 0) →
    ∃ g, readGem d.env dir SN nums true = .ok g ∧ g.problems = [] ∧ g.header.length = (first :: rest).length ∧
      g.specs.bitweightPa = (if d.adc first = 0 then 1 else 2) * specs.bitweightPa ∧
      g.gps.map (fun f => (f.t, f.lat, f.lon)) = ((first :: rest).flatMap fun e => (log e).fixes).map (fun p => (p.1, some p.2.1, some p.2.2)) ∧
      g.metadata.map (fun m => m.2.1) = ((first :: rest).flatMap fun e => (log e).status).map (fun l => l.map some) ∧
      List.Forall₂ (TraceOf d.spline (R.map fun p => (p.1, some (p.2 : Rat))))
        ((runsOf (stamped R)).filter fun r => decide (Resampled d.spline (R.map fun p => (p.1, some (p.2 : Rat))) r)) g.stream := by
  obtain ⟨hs, hrate, hbeg, hfixes, hstart, htrust⟩ := hsound
  have hmem : ∀ e ∈ first :: rest, log e ∈ (first :: rest).map log := fun e he => List.mem_map.mpr ⟨e, he, rfl⟩
  obtain ⟨gs, rows, st, hsame, hloop, hrows, hfollow⟩ := loop_sound d hfit hfit1 log (first :: rest) ⟨[], [], [], [], [], 0⟩
    (fun e he => ⟨hs _ (hmem e he), ⟨(hrate _ (hmem e he)).1, by linarith [(hrate _ (hmem e he)).2.1]⟩, hbeg _ (hmem e he)⟩) htext hsn
  simp only [List.nil_append] at hloop
  have hgs : ∀ g ∈ gs, SoundFile g.offset g.rate g.events := by
    intro g hg
    obtain ⟨f, hf, k, rfl⟩ := forall₂_right hsame g hg
    exact shifted_sound (hs f hf) k
  -- the first file
  obtain ⟨g0, gs', hg0⟩ : ∃ g0 gs', gs = g0 :: gs' := by
    cases hsame with
    | cons h _ => exact ⟨_, _, rfl⟩
  obtain ⟨k0, hk0⟩ : ∃ k, g0 = (log first).shifted k := by
    rw [hg0] at hsame
    cases hsame with
    | cons h _ => exact h
  have hg0s : SoundFile g0.offset g0.rate g0.events := hgs g0 (by rw [hg0]; simp)
  -- the fixes
  have hfixeq : (gs.flatMap fun g => g.used.gps).map (fun f => (f.t, f.lat, f.lon))
      = ((first :: rest).flatMap fun e => (log e).fixes).map (fun p => (p.1, some p.2.1, some p.2.2)) := by
    rw [← List.flatMap_map log ClockedFile.fixes, ← same_flatMap _ shifted_fixes hsame, List.map_flatMap, List.map_flatMap]
    apply List.flatMap_congr
    intro g _
    exact used_fixes g
  have hpwt : (gs.flatMap fun g => g.used.gps).Pairwise fun f g => f.t < g.t := by
    rw [← List.pairwise_map (f := fun f : Fix => f.t) (R := (· < ·))]
    have := congrArg (List.map Prod.fst) hfixeq
    rw [List.map_map, List.map_map] at this
    rw [show (fun f : Fix => f.t) = Prod.fst ∘ fun f : Fix => (f.t, f.lat, f.lon) from rfl, this]
    rw [List.flatMap_map] at hfixes
    exact hfixes
  obtain ⟨e₁, e₂, el, he, hy1, hy2, hnow, hday⟩ := htrust (log first) (by simp)
  have hgps0 : ∃ l, (gs.flatMap fun g => g.used.gps)
      = (e₁.shift k0).fixRec g0.offset g0.rate :: (e₂.shift k0).fixRec g0.offset g0.rate :: l := by
    refine ⟨(el.map (Event.shift k0)).map (Event.fixRec g0.offset g0.rate) ++ gs'.flatMap (fun g => g.used.gps), ?_⟩
    have h0 : g0.used.gps = (g0.events.filter Event.isFix).map (Event.fixRec g0.offset g0.rate) := usedData_gps _ _ _
    have h1 : g0.events.filter Event.isFix = (e₁ :: e₂ :: el).map (Event.shift k0) := by
      rw [hk0, show ((log first).shifted k0).events = (log first).events.map (Event.shift k0) from rfl, List.filter_map,
        show Event.isFix ∘ Event.shift k0 = Event.isFix from rfl, he]
    rw [hg0, List.flatMap_cons, h0, h1]
    rfl
  obtain ⟨gl, hgl⟩ := hgps0
  have hgne : (gs.flatMap fun g => g.used.gps) ≠ [] := by rw [hgl]; simp
  have hm1 : e₁ ∈ (log first).events ∧ e₁.isFix = true := List.mem_filter.mp (by rw [he]; simp)
  have hm2 : e₂ ∈ (log first).events ∧ e₂.isFix = true := List.mem_filter.mp (by rw [he]; simp)
  have hlf := hs (log first) (by simp)
  have hu : ∀ e : Event, g0.offset + g0.rate * (e.shift k0).T = (log first).utc e.T := by
    intro e
    rw [hk0]
    exact shifted_utc (log first) k0 e.T
  have h12 : e₁.T < e₂.T := by
    have := hlf.increasing
    unfold fixTimes at this
    rw [he] at this
    exact (List.pairwise_cons.mp this).1 _ (by simp)
  have hrf := hrate (log first) (by simp)
  have hu12 : (log first).utc e₁.T ≤ (log first).utc e₂.T := by
    unfold ClockedFile.utc
    have := mul_le_mul_of_nonneg_left h12.le hrf.1.le
    linarith
  obtain ⟨gl', hgood⟩ : ∃ l', goodFixes d.now (gs.flatMap fun g => g.used.gps)
      = (e₁.shift k0).fixRec g0.offset g0.rate :: (e₂.shift k0).fixRec g0.offset g0.rate :: l' := by
    obtain ⟨t1, f1, _⟩ := hlf.fixes e₁ hm1.1 hm1.2
    obtain ⟨t2, f2, _⟩ := hlf.fixes e₂ hm2.1 hm2.2
    have hy1' : (e₁.shift k0).Since2015 := hy1
    have hy2' : (e₂.shift k0).Since2015 := hy2
    rw [hgl]
    apply goodFixes_two
    · refine trusted_tag ((shift_fixAt k0 e₁ t1).mpr f1) hy1' (by rw [hu]; linarith) (.inl ?_)
      show |g0.offset + g0.rate * (e₁.shift k0).T - (g0.offset + g0.rate * (e₁.shift k0).T)| ≤ 86400
      rw [sub_self, abs_zero]
      norm_num
    · intro nx
      refine trusted_tag ((shift_fixAt k0 e₂ t2).mpr f2) hy2' (by rw [hu]; exact hnow) (.inl ?_)
      show |g0.offset + g0.rate * (e₂.shift k0).T - (g0.offset + g0.rate * (e₁.shift k0).T)| ≤ 86400
      rw [hu, hu, abs_of_nonneg (by linarith)]
      exact hday
  have hdne : (gs.flatMap fun g => g.used.data) ≠ [] := by
    intro h
    rw [hg0, List.flatMap_cons] at h
    exact usedData_ne hg0s (List.append_eq_nil_iff.mp h).1
  have hmD : (gs.flatMap fun g => g.used.data).map Prod.fst = (gs.flatMap fun g => sampleTimes g.events).map (· + 893 / 100) := by
    rw [List.map_flatMap, List.map_flatMap]
    apply List.flatMap_congr
    intro g _
    exact usedData_times g.offset g.rate g.events
  have hbreak : (findBreaks d.now ((gs.flatMap fun g => g.used.data).map Prod.fst) (gs.flatMap fun g => g.used.gps)).isSome := by
    rw [C55_fixes_partial d.now _ _ (by simpa using hdne) hgne]
    · rintro ⟨j0, j1, _⟩
      obtain ⟨x, y, z, l, hxyz, hclose⟩ := hstart (log first) (by simp)
      have hst := hlf.steady
      rw [hxyz] at hst
      rw [List.isChain_cons_cons, List.isChain_cons_cons] at hst
      have hlist : (gs.flatMap fun g => sampleTimes g.events).map (· + 893 / 100)
          = (x + 8192 * k0 + 893 / 100) :: (y + 8192 * k0 + 893 / 100) :: (z + 8192 * k0 + 893 / 100) ::
            ((l.map (· + 8192 * (k0 : Rat)) ++ gs'.flatMap fun g => sampleTimes g.events).map (· + 893 / 100)) := by
        rw [hg0, List.flatMap_cons, hk0, show ((log first).shifted k0).events = (log first).events.map (Event.shift k0) from rfl,
          shift_sampleTimes, hxyz]
        rfl
      rw [hmD, hlist] at j0 j1
      obtain ⟨u, w, a1, a2, a3⟩ := j0
      obtain ⟨w', q, b1, b2, b3⟩ := j1
      simp only [List.getElem?_cons_zero, List.getElem?_cons_succ, Option.some.injEq, zero_add] at a1 a2 b1 b2
      subst a1 a2 b1 b2
      rcases hclose with h | h
      · rcases a3 with h' | h' <;> linarith [hst.1.1]
      · rcases b3 with h' | h' <;> linarith [hst.2.1.1]
    · exact hpwt.sublist (goodFixes_sublist _ _)
    · intro f g h l hG
      rw [hgood] at hG
      simp only [List.cons.injEq] at hG
      obtain ⟨rfl, rfl, _⟩ := hG
      have g1 : ∀ e : Event, e.isFix = true → ((e.shift k0).fixRec g0.offset g0.rate).msPPS = (e.shift k0).T := fun e h => graw_T h
      refine clock_goodStep (a := g0.offset) (b := g0.rate) (by rw [hk0]; exact hrf) ?_ ?_ ?_
      · rw [g1 _ hm1.2]; rfl
      · rw [g1 _ hm2.2]; rfl
      · rw [g1 _ hm1.2, g1 _ hm2.2]
        unfold Event.shift
        simp only
        linarith
  -- resampling
  refine ⟨gs, rows, hsame, hrows, hgs, hfollow, ?_⟩
  intro R hRne hrec hruns
  have hcongr := interpTime_congr d.spline (hrec.trans (recordOf_stamped R).symm)
  obtain ⟨stream, hstream⟩ := (C28_succeeds_iff_partial d.spline (stamped R)).mpr ⟨hRne, fun r hr hne _ => hruns r hr hne⟩
  have htraces := C27_one_trace_per_run d.spline (stamped R) stream hstream
  rw [recordOf_stamped] at htraces
  have hbw := ((C42_gain_and_units SN n (d.adc first) (bytes "Pa") specs hn hspecs).2 hadc).1
    ((upper_eq_iff _ _ (by decide +kernel)).mp (by decide +kernel))
  obtain ⟨brk, hbrk⟩ := Option.isSome_iff_exists.mp hbreak
  refine ⟨⟨stream, rows, timedMetadata (gs.flatMap fun g => g.used.metadata) rows, gs.flatMap fun g => g.used.gps, [],
    ⟨specs.version, (if d.adc first = 0 then 1 else 2) * specs.bitweightV, (if d.adc first = 0 then 1 else 2) * specs.bitweightPa⟩⟩,
    ?_, rfl, ?_, rfl, hfixeq, ?_, htraces⟩
  · unfold readGem
    rw [hfind]
    simp only
    unfold readFilesAs
    have hfr : firstReadable d.env (first :: rest) = some (first :: rest, v, first) := by
      rw [firstReadable]
      have : d.env.version first = some v := by
        show formatVersion (d.content first) = _
        rw [htext first (by simp)]
        exact formatVersion_first hv hver
      rw [this]
    rw [hfr]
    simp only
    rw [severalVersion, if_pos hv]
    simp only
    unfold readSeveral
    rw [hloop]
    simp only
    rw [if_neg hdne, if_neg hgne]
    unfold assignTimes
    have hb' : findBreaks d.env.now ((gs.flatMap fun g => g.used.data).map Prod.fst) (gs.flatMap fun g => g.used.gps) = some brk := hbrk
    simp only
    rw [hb']
    simp only
    rw [show d.env.spline = d.spline from rfl, hcongr, hstream]
    simp only
    rw [show d.env.adc first = d.adc first from rfl, hbw]
  · rw [← hrows.length_eq, ← hsame.length_eq, List.length_map]
  · unfold timedMetadata
    rw [List.map_map, show ((fun m : Rat × List (Option Rat) × Option Rat => m.2.1) ∘ fun p : Rat × List (Option Rat) =>
      (p.1, p.2, applySegments rows p.1)) = Prod.snd from rfl, ← List.flatMap_map log ClockedFile.status,
      ← same_flatMap _ shifted_status hsame, List.map_flatMap, List.map_flatMap]
    apply List.flatMap_congr
    intro g _
    exact used_status g

open Classical in
/-- **C100.** Let the selected files be files without defects, each with its own clock and its own count: the logger may have been switched
off and on between any two of them, for any time. Then `read_gem` reports no problem, returns all fixes and all status lines, and its traces
are the resampled runs of the true record: every sample of every file, in order, at the UTC time given by the clock of its own file, with its
recorded pressure. -/
theorem C100_read_back (d : RawDisk) (dir : List Entry) (SN : List Nat) (nums : List Int) (log : Entry → ClockedFile)
    (first : Entry) (rest : List Entry) (hfind : findFiles dir SN nums = first :: rest)
    (htext : ∀ e ∈ first :: rest, d.content e = textOf (log e).events) (hsound : SoundSessions d.now ((first :: rest).map log))
    (v : String) (hv : v ∈ ["0.85C", "0.9", "0.91", "1.10"]) (hver : HasVersion v (log first).events)
    (hsn : ∀ e ∈ first :: rest, ∃ sn, d.readSN e = .ok sn) (n : Int) (hn : pyInt SN = some n) (specs : Specs) (hspecs : gemSpecs n = .ok specs)
    (hadc : d.adc first = 0 ∨ d.adc first = 1) (hfit : Reproduces d.fit) (hfit1 : ReproducesLines d.fit)
    (R : List (Rat × Int)) (hR : R = (first :: rest).flatMap fun e => (log e).record)
    (hruns : ∀ r ∈ runsOf (stamped R), r.headD 0 ≠ r.getLastD 0 → 1 / 100 ≤ r.getLastD 0 - r.headD 0) :
    ∃ g, readGem d.env dir SN nums true = .ok g ∧ g.problems = [] ∧ g.header.length = (first :: rest).length ∧
      g.specs.bitweightPa = (if d.adc first = 0 then 1 else 2) * specs.bitweightPa ∧
      g.gps.map (fun f => (f.t, f.lat, f.lon)) = ((first :: rest).flatMap fun e => (log e).fixes).map (fun p => (p.1, some p.2.1, some p.2.2)) ∧
      g.metadata.map (fun m => m.2.1) = ((first :: rest).flatMap fun e => (log e).status).map (fun l => l.map some) ∧
      List.Forall₂ (TraceOf d.spline (R.map fun p => (p.1, some (p.2 : Rat))))
        ((runsOf (stamped R)).filter fun r => decide (Resampled d.spline (R.map fun p => (p.1, some (p.2 : Rat))) r)) g.stream := by
  have hdist := hsound.distinct
  have hlf := hsound.sound (log first) (by simp)
  obtain ⟨gs, rows, hsame, hrows, hgs, hfollow, hread⟩ := read_clocked d dir SN nums log first rest hfind htext hsound.toSoundClocked v hv hver hsn n hn
    specs hspecs hadc hfit hfit1
  have hchain : gs.IsChain NoCollision := forall₂_isChain (R := NoCollision) (fun _ _ _ _ h1 h2 h3 => same_collision h1 h2 h3) hsame hdist
  have hseg : ∀ g ∈ gs, ∀ x ∈ sampleTimes g.events, applySegments rows (x + 893 / 100) = some (g.utc (x + 893 / 100)) :=
    fun g hg x hx => segments_sound hrows 0 none hgs hchain hfollow g hg x hx
  have hrec : recordOf (timedData (gs.flatMap fun g => g.used.data) rows) = R.map fun p => (p.1, some (p.2 : Rat)) := by
    rw [recordOf_flatMap, hR, ← List.flatMap_map log ClockedFile.record, ← same_flatMap _ shifted_record hsame, List.map_flatMap]
    apply List.flatMap_congr
    intro g hg
    exact record_used g rows (hseg g hg)
  have hRne : timesOf (stamped R) ≠ [] := by
    unfold timesOf
    rw [recordOf_stamped, hR, List.flatMap_cons]
    intro h
    simp only [List.map_append] at h
    have h2 := congrArg List.length (List.append_eq_nil_iff.mp h).1
    unfold ClockedFile.record at h2
    simp only [List.length_map, List.length_zip, pressures_length, min_self, List.length_nil] at h2
    exact hlf.samples (List.length_eq_zero_iff.mp h2)
  exact hread R hRne hrec hruns

/-! ## One trace per session -/

theorem runs_join (first last : Rat) (rest : List Rat) (rs : List (List Rat)) (hr : runs first last rest = rs) :
    ∀ (l : List Rat), l ≠ [] → l.IsChain (fun u w => ¬ InnerGap first last u w) →
      (∀ a ∈ l.getLast?, ∀ b ∈ rest.head?, InnerGap first last a b) → runs first last (l ++ rest) = l :: rs
  | [], h, _, _ => absurd rfl h
  | [a], _, _, h => by
    rw [List.singleton_append, runs, hr]
    cases rest with
    | nil => rw [show rs = [] from hr.symm]; rfl
    | cons b t =>
      obtain ⟨r, rs', e⟩ := runs_ne_nil first last b t
      rw [← hr, e]
      exact (addTime_cons first last a b r rs').1 (h a (by simp) b (by simp))
  | a :: b :: l, _, hc, h => by
    rw [List.isChain_cons_cons] at hc
    rw [List.cons_append, runs, runs_join first last rest rs hr (b :: l) (by simp) hc.2 (by rw [List.getLast?_cons_cons] at h; exact h)]
    exact (addTime_cons first last a b l rs).2 hc.1

/-- Times within a list that does not decrease. -/
theorem gapless_bounds {l : List Rat} (hc : l.IsChain fun x y => x ≤ y ∧ y - x ≤ 25 / 1000) {s e : Rat} (hs : l.head? = some s)
    (he : l.getLast? = some e) : ∀ x ∈ l, s ≤ x ∧ x ≤ e := by
  have hp : l.Pairwise (· ≤ ·) := List.isChain_iff_pairwise.mp (hc.imp fun _ _ h => h.1)
  intro x hx
  constructor
  · rw [List.head?_eq_some_iff] at hs
    obtain ⟨t, rfl⟩ := hs
    rcases List.mem_cons.mp hx with h | h
    · exact h.ge
    · exact (List.pairwise_cons.mp hp).1 x h
  · rw [List.getLast?_eq_some_iff] at he
    obtain ⟨t, rfl⟩ := he
    rcases List.mem_append.mp hx with h | h
    · exact (List.pairwise_append.mp hp).2.2 x h e (by simp)
    · exact (List.mem_singleton.mp h).le

/-- The record of a list of files (helper). -/
def recordFiles (fs : List ClockedFile) : List (Rat × Int) := fs.flatMap ClockedFile.record

/-- The times of the record (helper). -/
def fileTimes (fs : List ClockedFile) : List Rat := (recordFiles fs).map Prod.fst

theorem sessions_after {spline : Spliner} : ∀ {Gs : List (List ClockedFile)} {ss : List Session}, List.Forall₂ (RecordsSession spline) Gs ss →
    (ss.IsChain fun x y => x.stop + 25 / 1000 < y.start) → ∀ s ∈ ss.head?, ∀ x ∈ fileTimes Gs.flatten, s.start ≤ x := by
  intro Gs ss h
  induction h with
  | nil => simp
  | @cons G s Gs ss h0 hrest ih =>
    intro hc s' hs' x hx
    simp only [List.head?_cons, Option.mem_def, Option.some.injEq] at hs'
    subst hs'
    unfold fileTimes recordFiles at hx
    rw [List.flatten_cons, List.flatMap_append, List.map_append] at hx
    rcases List.mem_append.mp hx with hx | hx
    · exact (gapless_bounds h0.gapless h0.first_ h0.last_ x hx).1
    · cases hrest with
      | nil => simp at hx
      | @cons G' s' Gs ss h1 h2 =>
        rw [List.isChain_cons_cons] at hc
        have := ih hc.2 s' (by simp) x hx
        have := h0.long
        linarith

theorem sessions_last {spline : Spliner} : ∀ {Gs : List (List ClockedFile)} {ss : List Session}, List.Forall₂ (RecordsSession spline) Gs ss →
    (ss.IsChain fun x y => x.stop + 25 / 1000 < y.start) → ∀ e, (fileTimes Gs.flatten).getLast? = some e → ∀ s ∈ ss, s.stop ≤ e := by
  intro Gs ss h
  induction h with
  | nil => simp
  | @cons G s Gs ss h0 hrest ih =>
    intro hc e he s' hs'
    unfold fileTimes recordFiles at he
    rw [List.flatten_cons, List.flatMap_append, List.map_append, List.getLast?_append] at he
    cases hrest with
    | nil =>
      simp only [List.flatten_nil, List.flatMap_nil, List.map_nil, List.getLast?_nil, Option.none_or] at he
      rw [h0.last_] at he
      simp only [Option.some.injEq] at he
      rw [List.mem_singleton.mp hs', he]
    | @cons G1 s1 Gs ss h1 h2 =>
      rw [List.isChain_cons_cons] at hc
      have hne : (fileTimes (G1 :: Gs).flatten) ≠ [] := by
        unfold fileTimes recordFiles
        rw [List.flatten_cons, List.flatMap_append, List.map_append]
        intro h
        have h' := (List.append_eq_nil_iff.mp h).1
        have := h1.first_
        rw [h'] at this
        simp at this
      have he' : (fileTimes (G1 :: Gs).flatten).getLast? = some e := by
        rw [List.getLast?_eq_some_getLast hne]
        change Option.or (fileTimes (G1 :: Gs).flatten).getLast? _ = some e at he
        rw [List.getLast?_eq_some_getLast hne, Option.some_or] at he
        exact he
      have hi := ih hc.2 e he'
      rcases List.mem_cons.mp hs' with rfl | hs'
      · have a1 := hi s1 (by simp)
        have a2 := hc.1
        have a3 := h1.long
        linarith
      · exact hi s' hs'

theorem sessions_runs {spline : Spliner} (first last : Rat) : ∀ {Gs : List (List ClockedFile)} {ss : List Session},
    List.Forall₂ (RecordsSession spline) Gs ss → (ss.IsChain fun x y => x.stop + 25 / 1000 < y.start) →
    (∀ s ∈ ss, first < s.stop ∧ s.start < last) → runs first last (fileTimes Gs.flatten) = Gs.map fileTimes := by
  intro Gs ss h
  induction h with
  | nil => intro _ _; rfl
  | @cons G s Gs ss h0 hrest ih =>
    intro hc hb
    rw [List.flatten_cons, List.map_cons]
    have e : fileTimes (G ++ Gs.flatten) = fileTimes G ++ fileTimes Gs.flatten := by
      unfold fileTimes recordFiles
      rw [List.flatMap_append, List.map_append]
    rw [e]
    refine runs_join first last _ _ (ih hc.tail fun s hs => hb s (List.mem_cons_of_mem _ hs)) (fileTimes G) ?_ ?_ ?_
    · intro h
      have := h0.first_
      change (fileTimes G).head? = _ at this
      rw [h] at this
      simp at this
    · refine h0.gapless.imp ?_
      rintro u w ⟨h1, h2⟩ ⟨h | h, _⟩ <;> linarith
    · intro a ha b hb'
      have ha' : a = s.stop := by
        have := h0.last_
        change (fileTimes G).getLast? = _ at this
        rw [this] at ha
        simpa using ha.symm
      cases hrest with
      | nil => simp [fileTimes, recordFiles] at hb'
      | @cons G1 s1 Gs ss h1 h2 =>
        rw [List.isChain_cons_cons] at hc
        have hb1 : b = s1.start := by
          rw [List.flatten_cons] at hb'
          have e : fileTimes (G1 ++ Gs.flatten) = fileTimes G1 ++ fileTimes Gs.flatten := by
            unfold fileTimes recordFiles
            rw [List.flatMap_append, List.map_append]
          have := h1.first_
          change (fileTimes G1).head? = _ at this
          rw [e, List.head?_append, this] at hb'
          simpa using hb'.symm
        rw [ha', hb1]
        refine ⟨.inl (by linarith [hc.1]), (hb s (by simp)).1, (hb s1 (by simp)).2⟩

/-- The points given to the spline are those of the session. -/
theorem session_window {G : List ClockedFile} {s : Session} {spline : Spliner} (h : RecordsSession spline G s) (before after : List (Rat × Int))
    (hb : ∀ p ∈ before, p.1 + 25 / 1000 < s.start) (ha : ∀ p ∈ after, s.stop + 25 / 1000 < p.1) :
    windowOf ((before ++ recordFiles G ++ after).map fun p => (p.1, some (p.2 : Rat))) (fileTimes G)
      = (recordFiles G).map fun p => (p.1, some (p.2 : Rat)) := by
  have hhead : (fileTimes G).headD 0 = s.start := by
    rw [List.headD_eq_head?_getD, show (fileTimes G).head? = _ from h.first_]; rfl
  have hlast : (fileTimes G).getLastD 0 = s.stop := by
    rw [List.getLastD_eq_getLast?, show (fileTimes G).getLast? = _ from h.last_]; rfl
  unfold windowOf
  rw [hhead, hlast, List.map_append, List.map_append, List.filter_append, List.filter_append]
  have e1 : (before.map fun p => (p.1, some (p.2 : Rat))).filter
      (fun p => decide (s.start - 11 / 1000 ≤ p.1 ∧ p.1 ≤ s.stop + 9 / 1000)) = [] := by
    rw [List.filter_eq_nil_iff]
    intro p hp
    obtain ⟨q, hq, rfl⟩ := List.mem_map.mp hp
    have := hb q hq
    simp only [decide_eq_true_eq, not_and, not_le]
    intro _
    linarith
  have e2 : (after.map fun p => (p.1, some (p.2 : Rat))).filter
      (fun p => decide (s.start - 11 / 1000 ≤ p.1 ∧ p.1 ≤ s.stop + 9 / 1000)) = [] := by
    rw [List.filter_eq_nil_iff]
    intro p hp
    obtain ⟨q, hq, rfl⟩ := List.mem_map.mp hp
    have := ha q hq
    simp only [decide_eq_true_eq, not_and, not_le]
    intro _
    linarith
  have e3 : ((recordFiles G).map fun p => (p.1, some (p.2 : Rat))).filter
      (fun p => decide (s.start - 11 / 1000 ≤ p.1 ∧ p.1 ≤ s.stop + 9 / 1000)) = (recordFiles G).map fun p => (p.1, some (p.2 : Rat)) := by
    rw [List.filter_eq_self]
    intro p hp
    obtain ⟨q, hq, rfl⟩ := List.mem_map.mp hp
    have := gapless_bounds h.gapless h.first_ h.last_ q.1 (List.mem_map.mpr ⟨q, hq, rfl⟩)
    simp only [decide_eq_true_eq]
    constructor <;> linarith [this.1, this.2]
  rw [e1, e2, e3]
  simp

open Classical in
theorem sessions_traces {spline : Spliner} {Gs : List (List ClockedFile)} {ss : List Session} (h : List.Forall₂ (RecordsSession spline) Gs ss) :
    ∀ (before : List (Rat × Int)) (stream : List Trace), (ss.IsChain fun x y => x.stop + 25 / 1000 < y.start) →
    (∀ p ∈ before, ∀ s ∈ ss.head?, p.1 + 25 / 1000 < s.start) →
    List.Forall₂ (TraceOf spline ((before ++ recordFiles Gs.flatten).map fun p => (p.1, some (p.2 : Rat))))
      ((Gs.map fileTimes).filter fun r => decide (Resampled spline ((before ++ recordFiles Gs.flatten).map fun p => (p.1, some (p.2 : Rat))) r)) stream →
    List.Forall₂ SessionTrace ss stream := by
  induction h with
  | nil =>
    intro before stream _ _ h
    cases h
    exact .nil
  | @cons G s Gs ss h0 hrest ih =>
    intro before stream hc hb ht
    have e : recordFiles (G :: Gs).flatten = recordFiles G ++ recordFiles Gs.flatten := by
      unfold recordFiles
      rw [List.flatten_cons, List.flatMap_append]
    have hafter : ∀ p ∈ recordFiles Gs.flatten, s.stop + 25 / 1000 < p.1 := by
      intro p hp
      cases hrest with
      | nil => simp [recordFiles] at hp
      | @cons G1 s1 Gs ss h1 h2 =>
        rw [List.isChain_cons_cons] at hc
        have := sessions_after (.cons h1 h2) hc.2 s1 (by simp) p.1 (List.mem_map.mpr ⟨p, hp, rfl⟩)
        linarith [hc.1]
    have hw := session_window h0 before (recordFiles Gs.flatten) (fun p hp => hb p hp s (by simp)) hafter
    rw [List.append_assoc, ← e] at hw
    have hhead : (fileTimes G).headD 0 = s.start := by
      rw [List.headD_eq_head?_getD, show (fileTimes G).head? = _ from h0.first_]; rfl
    have hlast : (fileTimes G).getLastD 0 = s.stop := by
      rw [List.getLastD_eq_getLast?, show (fileTimes G).getLast? = _ from h0.last_]; rfl
    have hres : Resampled spline ((before ++ recordFiles (G :: Gs).flatten).map fun p => (p.1, some (p.2 : Rat))) (fileTimes G) := by
      unfold Resampled
      rw [hw, hhead, hlast, show spline ((recordFiles G).map fun p => (p.1, some (p.2 : Rat))) = _ from h0.spline]
      refine ⟨?_, rfl⟩
      intro h
      have := h0.long
      rw [h] at this
      linarith
    rw [List.map_cons, List.filter_cons_of_pos (by simpa using hres)] at ht
    cases ht with
    | @cons _ tr _ trs hT hrest' =>
      refine .cons ?_ ?_
      · obtain ⟨f', e1, e2, _, e4, e5⟩ := hT
        rw [hw, show spline ((recordFiles G).map fun p => (p.1, some (p.2 : Rat))) = _ from h0.spline, Option.some.injEq] at e1
        subst e1
        rw [hhead] at e2 e5
        rw [hhead, hlast] at e4
        exact ⟨e2, e4, e5⟩
      · rw [e, ← List.append_assoc] at hrest'
        refine ih (before ++ recordFiles G) trs hc.tail ?_ hrest'
        intro p hp s' hs'
        cases ss with
        | nil => simp at hs'
        | cons s1 ss =>
          simp only [List.head?_cons, Option.mem_def, Option.some.injEq] at hs'
          subst hs'
          rw [List.isChain_cons_cons] at hc
          rcases List.mem_append.mp hp with hp | hp
          · have a1 := hb p hp s (by simp)
            have a2 := h0.long
            linarith [hc.1]
          · have := (gapless_bounds h0.gapless h0.first_ h0.last_ p.1 (List.mem_map.mpr ⟨p, hp, rfl⟩)).2
            linarith [hc.1]

/-- **C100, sessions.** If, besides, the files come from sessions during which the logger recorded without interruption, with more than 25 ms
between one session and the next, then there is exactly one trace per session; it starts within 5 ms of the first sample of the session, has
a sample for each full 10 ms, and holds the values, rounded, of the spline through the points of this session alone. -/
theorem C100_sessions (d : RawDisk) (dir : List Entry) (SN : List Nat) (nums : List Int) (log : Entry → ClockedFile)
    (first : Entry) (rest : List Entry) (hfind : findFiles dir SN nums = first :: rest)
    (htext : ∀ e ∈ first :: rest, d.content e = textOf (log e).events) (hsound : SoundSessions d.now ((first :: rest).map log))
    (v : String) (hv : v ∈ ["0.85C", "0.9", "0.91", "1.10"]) (hver : HasVersion v (log first).events)
    (hsn : ∀ e ∈ first :: rest, ∃ sn, d.readSN e = .ok sn) (n : Int) (hn : pyInt SN = some n) (specs : Specs) (hspecs : gemSpecs n = .ok specs)
    (hadc : d.adc first = 0 ∨ d.adc first = 1) (hfit : Reproduces d.fit) (hfit1 : ReproducesLines d.fit)
    (groups : List (List Entry)) (hgroups : groups.flatten = first :: rest) (ss : List Session)
    (hss : List.Forall₂ (fun es s => RecordsSession d.spline (es.map log) s) groups ss)
    (hgaps : ss.IsChain fun x y => x.stop + 25 / 1000 < y.start) :
    ∃ g, readGem d.env dir SN nums true = .ok g ∧ List.Forall₂ SessionTrace ss g.stream ∧ g.problems = [] ∧
      g.gps.map (fun f => (f.t, f.lat, f.lon)) = ((first :: rest).flatMap fun e => (log e).fixes).map (fun p => (p.1, some p.2.1, some p.2.2)) ∧
      g.metadata.map (fun m => m.2.1) = ((first :: rest).flatMap fun e => (log e).status).map (fun l => l.map some) := by
  have hss' : List.Forall₂ (RecordsSession d.spline) (groups.map fun es => es.map log) ss := by
    rw [List.forall₂_map_left_iff]; exact hss
  have hflat : (groups.map fun es => es.map log).flatten = (first :: rest).map log := by
    rw [← hgroups, List.map_flatten]
  obtain ⟨R, hR⟩ : ∃ R, R = (first :: rest).flatMap fun e => (log e).record := ⟨_, rfl⟩
  have hR' : recordFiles (groups.map fun es => es.map log).flatten = R := by
    rw [hflat, hR]
    unfold recordFiles
    rw [List.flatMap_map]
  have ht : timesOf (stamped R) = fileTimes (groups.map fun es => es.map log).flatten := by
    unfold timesOf fileTimes
    rw [recordOf_stamped, List.map_map, hR']
    rfl
  obtain ⟨G0, Gs, s0, ss0, eG, eS⟩ : ∃ G0 Gs s0 ss0, (groups.map fun es => es.map log) = G0 :: Gs ∧ ss = s0 :: ss0 := by
    cases hss' : groups with
    | nil => rw [hss'] at hgroups; simp at hgroups
    | cons a b =>
      rw [hss'] at hss
      cases hss with
      | cons _ _ => exact ⟨_, _, _, _, rfl, rfl⟩
  have hruns : runsOf (stamped R) = (groups.map fun es => es.map log).map fileTimes := by
    unfold runsOf
    rw [ht]
    refine sessions_runs _ _ hss' hgaps ?_
    intro s hs
    have hlong : ∀ s ∈ ss, 1 / 100 ≤ s.stop - s.start := by
      intro s hs
      obtain ⟨G, _, h⟩ := forall₂_right hss' s hs
      exact h.long
    have hfirst : (fileTimes (groups.map fun es => es.map log).flatten).headD 0 = s0.start := by
      rw [eG, eS] at hss'
      rw [eG]
      cases hss' with
      | cons h0 _ =>
        have := h0.first_
        change (fileTimes G0).head? = _ at this
        have e : fileTimes (G0 ++ Gs.flatten) = fileTimes G0 ++ fileTimes Gs.flatten := by
          unfold fileTimes recordFiles
          rw [List.flatMap_append, List.map_append]
        rw [List.flatten_cons, e, List.headD_eq_head?_getD, List.head?_append, this]
        rfl
    have hlo : s0.start ≤ s.start := by
      obtain ⟨G, hG, h⟩ := forall₂_right hss' s hs
      have hm : s.start ∈ fileTimes G := List.mem_of_mem_head? h.first_
      refine sessions_after hss' hgaps s0 (by rw [eS]; rfl) s.start ?_
      unfold fileTimes recordFiles at hm ⊢
      obtain ⟨p, hp, hp'⟩ := List.mem_map.mp hm
      obtain ⟨f, hf, hf'⟩ := List.mem_flatMap.mp hp
      exact List.mem_map.mpr ⟨p, List.mem_flatMap.mpr ⟨f, List.mem_flatten.mpr ⟨G, hG, hf⟩, hf'⟩, hp'⟩
    have hl := hlong s hs
    refine ⟨by rw [hfirst]; linarith, ?_⟩
    have hne : fileTimes (groups.map fun es => es.map log).flatten ≠ [] := by
      intro h
      obtain ⟨G, hG, h'⟩ := forall₂_right hss' s hs
      have hm : s.start ∈ fileTimes G := List.mem_of_mem_head? h'.first_
      have : s.start ∈ fileTimes (groups.map fun es => es.map log).flatten := by
        unfold fileTimes recordFiles at hm ⊢
        obtain ⟨p, hp, hp'⟩ := List.mem_map.mp hm
        obtain ⟨f, hf, hf'⟩ := List.mem_flatMap.mp hp
        exact List.mem_map.mpr ⟨p, List.mem_flatMap.mpr ⟨f, List.mem_flatten.mpr ⟨G, hG, hf⟩, hf'⟩, hp'⟩
      rw [h] at this
      simp at this
    have := sessions_last hss' hgaps _ (List.getLast?_eq_some_getLast hne) s hs
    rw [List.getLastD_eq_getLast?, List.getLast?_eq_some_getLast hne, Option.getD_some]
    linarith
  obtain ⟨g, h1, h2, _, _, h5, h6, h7⟩ := C100_read_back d dir SN nums log first rest hfind htext hsound v hv hver hsn n hn specs hspecs hadc hfit hfit1
    R hR (by
      intro r hr _
      rw [hruns] at hr
      obtain ⟨G, hG, rfl⟩ := List.mem_map.mp hr
      obtain ⟨s, hs, h⟩ := forall₂_right hss'.flip G hG
      rw [List.headD_eq_head?_getD, List.getLastD_eq_getLast?, show (fileTimes G).head? = _ from h.first_,
        show (fileTimes G).getLast? = _ from h.last_]
      exact h.long)
  refine ⟨g, h1, ?_, h2, h5, h6⟩
  refine sessions_traces hss' [] g.stream hgaps (by simp) ?_
  rw [List.nil_append, hR', ← hruns]
  exact h7

/-! ## Counts that coincide -/

theorem recordOf_timed (a b : Rat) (es : List Event) (header : List HeaderRow) (F : Rat → Rat)
    (hseg : ∀ x ∈ sampleTimes es, applySegments header (x + 893 / 100) = some (F x)) :
    recordOf (timedData (usedData a b es).data header) = (((sampleTimes es).map F).zip (pressuresOf es)).map fun p => (p.1, some (p.2 : Rat)) := by
  unfold usedData FileData.addDataTime fileDataOf timedData recordOf
  simp only [List.map_map]
  generalize pressuresOf es = P
  generalize sampleTimes es = S at hseg
  induction S generalizing P with
  | nil => rfl
  | cons x S ih =>
    cases P with
    | nil => rfl
    | cons y P =>
      simp only [List.map_cons, List.zip_cons_cons, List.filterMap_cons, Function.comp]
      rw [hseg x (by simp)]
      simp only [Option.map_some]
      congr 1
      exact ih P (fun z hz => hseg z (by simp [hz]))

/-- Changing the time of the last sample of a file. -/
theorem record_changed (f : ClockedFile) (F : Rat → Rat) (l : List Rat) (x : Rat) (hl : sampleTimes f.events = l ++ [x])
    (hF : ∀ z ∈ l, F z = f.utc (z + 893 / 100)) :
    ∃ v : Int, ((sampleTimes f.events).map F).zip (pressuresOf f.events) = f.record.dropLast ++ [(F x, v)] ∧
      f.record = f.record.dropLast ++ [(f.utc (x + 893 / 100), v)] := by
  have hlen : (pressuresOf f.events).length = l.length + 1 := by
    rw [pressures_length, hl]; simp
  obtain ⟨P, v, hP⟩ : ∃ P v, pressuresOf f.events = P ++ [v] := by
    rcases List.eq_nil_or_concat (pressuresOf f.events) with h | ⟨P, v, h⟩
    · rw [h] at hlen; simp at hlen
    · exact ⟨P, v, by rw [h]; simp⟩
  have hPl : P.length = l.length := by
    rw [hP] at hlen; simpa using hlen
  have e : ∀ G : Rat → Rat, ((sampleTimes f.events).map G).zip (pressuresOf f.events) = (l.map G).zip P ++ [(G x, v)] := by
    intro G
    rw [hl, hP, List.map_append, List.zip_append (by rw [List.length_map, hPl])]
    rfl
  have hrec : f.record = (l.map fun T => f.utc (T + 893 / 100)).zip P ++ [(f.utc (x + 893 / 100), v)] := e fun T => f.utc (T + 893 / 100)
  have hdrop : f.record.dropLast = (l.map fun T => f.utc (T + 893 / 100)).zip P := by rw [hrec]; simp
  refine ⟨v, ?_, ?_⟩
  · rw [e F, hdrop, List.map_congr_left hF]
  · rw [hdrop]; exact hrec

open Classical in
/-- What goes wrong without `NoCollision`: two sessions of one file each, the second starting more than 25 ms after the end of the first, by its first line, at
the count of the last sample of the first. If the spline cannot be constructed from points at equal times, as that of scipy, then `read_gem` reports no problem, but
the second session is missing from its result, and so is the last sample of the first. -/
theorem C100_violated_collision (d : RawDisk) (dir : List Entry) (SN : List Nat) (nums : List Int) (log : Entry → ClockedFile)
    (e₁ e₂ : Entry) (hfind : findFiles dir SN nums = [e₁, e₂])
    (htext : ∀ e ∈ [e₁, e₂], d.content e = textOf (log e).events) (hsound : SoundClocked d.now ([e₁, e₂].map log))
    (v : String) (hv : v ∈ ["0.85C", "0.9", "0.91", "1.10"]) (hver : HasVersion v (log e₁).events)
    (hsn : ∀ e ∈ [e₁, e₂], ∃ sn, d.readSN e = .ok sn) (n : Int) (hn : pyInt SN = some n) (specs : Specs) (hspecs : gemSpecs n = .ok specs)
    (hadc : d.adc e₁ = 0 ∨ d.adc e₁ = 1) (hfit : Reproduces d.fit) (hfit1 : ReproducesLines d.fit)
    (s₁ s₂ : Session) (h₁ : RecordsSession d.spline [log e₁] s₁) (h₂ : RecordsSession d.spline [log e₂] s₂)
    (hgap : s₁.stop + 25 / 1000 < s₂.start)
    (hsame : ∀ x ∈ (sampleTimes (log e₁).events).getLast?, ∀ y ∈ (sampleTimes (log e₂).events).head?, ∃ k : Int, y = x + 8192 * k)
    (hfirst : BeginsWithSample (log e₂).events)
    (hspline : ∀ points, ¬ (points.map Prod.fst).Pairwise (· < ·) → d.spline points = none)
    (t : Rat) (ht : ((log e₁).record.dropLast.map Prod.fst).getLast? = some t) (hlong : 1 / 100 ≤ t - s₁.start) (curve : Rat → Rat)
    (hcurve : d.spline ((log e₁).record.dropLast.map fun p => (p.1, some (p.2 : Rat))) = some curve) :
    ∃ g, readGem d.env dir SN nums true = .ok g ∧ g.problems = [] ∧ List.Forall₂ SessionTrace [⟨s₁.start, t, curve⟩] g.stream := by
  obtain ⟨gs, rows, hsames, hrows, hgs, hfollow, hread⟩ := read_clocked d dir SN nums log e₁ [e₂] hfind htext hsound v hv hver hsn n hn
    specs hspecs hadc hfit hfit1
  have hstep : ∀ (x : Rat) (o : Option Rat) (g : ClockedFile) (row : HeaderRow), g.Row row →
      segmentStep x o row = if (sampleTimes g.events).headD 0 + 893 / 100 ≤ x ∧ x ≤ endTime g.events then some (g.utc x) else o := by
    intro x o g row h
    unfold segmentStep
    rw [h.2.1, h.2.2, ← show timeOf row.info x = g.utc x from h.1 x]
    rfl
  cases hsames with
  | @cons _ a _ bs ha hbs =>
  cases hbs with
  | @cons _ b _ cs hb hcs =>
  cases hcs
  cases hrows with
  | @cons _ r _ rs hr hrs =>
  cases hrs with
  | @cons _ q _ qs hq hqs =>
  cases hqs
  obtain ⟨i, rfl⟩ := ha
  obtain ⟨j, rfl⟩ := hb
  have hra : ((log e₁).shifted i).record = (log e₁).record := shifted_record _ _
  have hrb : ((log e₂).shifted j).record = (log e₂).record := shifted_record _ _
  have hrate : 0 < ((log e₁).shifted i).rate := (hsound.rate (log e₁) (by simp)).1
  have hsame' : ∀ x ∈ (sampleTimes ((log e₁).shifted i).events).getLast?, ∀ y ∈ (sampleTimes ((log e₂).shifted j).events).head?,
      ∃ k : Int, y = x + 8192 * k := by
    intro x hx y hy
    rw [show ((log e₁).shifted i).events = (log e₁).events.map (Event.shift i) from rfl, shift_sampleTimes, List.getLast?_map] at hx
    rw [show ((log e₂).shifted j).events = (log e₂).events.map (Event.shift j) from rfl, shift_sampleTimes, List.head?_map] at hy
    simp only [Option.mem_def, Option.map_eq_some_iff] at hx hy
    obtain ⟨x', hx', rfl⟩ := hx
    obtain ⟨y', hy', rfl⟩ := hy
    obtain ⟨k, hk⟩ := hsame x' hx' y' hy'
    exact ⟨k + j - i, by rw [hk]; push_cast; ring⟩
  have hfirst' : BeginsWithSample ((log e₂).shifted j).events := (shifted_sampleFirst _ _).mpr hfirst
  generalize (log e₁).shifted i = a at *
  generalize (log e₂).shifted j = b at *
  have hsa := hgs a (by simp)
  have hsb := hgs b (by simp)
  obtain ⟨l, x, hl⟩ : ∃ l x, sampleTimes a.events = l ++ [x] := by
    rcases List.eq_nil_or_concat (sampleTimes a.events) with h | ⟨l, x, h⟩
    · exact absurd h hsa.samples
    · exact ⟨l, x, by rw [h]; simp⟩
  obtain ⟨y, ys, hy⟩ := List.exists_cons_of_ne_nil hsb.samples
  have hend : endTime a.events = x + 893 / 100 := by
    unfold endTime; rw [hl]; simp
  have hxy : y = x := by
    obtain ⟨k, hk⟩ := hsame' x (by rw [hl]; simp) y (by rw [hy]; rfl)
    obtain ⟨f1, f2⟩ := hfollow.2.1 y (by rw [hy]; rfl)
    have f2 := f2 hfirst'
    rw [hend] at f1 f2
    have k0 : (0 : Rat) ≤ k := by linarith
    have k1 : (k : Rat) < 1 := by linarith
    have : k = 0 := by
      have a1 : (0 : Int) ≤ k := by exact_mod_cast k0
      have a2 : k < 1 := by exact_mod_cast k1
      omega
    rw [hk, this]
    simp
  -- times of the record
  have htimes : ∀ f : ClockedFile, f.record.map Prod.fst = (sampleTimes f.events).map fun T => f.utc (T + 893 / 100) := by
    intro f
    unfold ClockedFile.record
    rw [List.map_fst_zip]
    rw [List.length_map, pressures_length]
  have hstart : s₂.start = b.utc (y + 893 / 100) := by
    have := h₂.first_
    rw [List.flatMap_singleton, ← hrb, htimes, hy] at this
    simpa using this.symm
  have hstrict : ∀ z ∈ l, z < x := by
    intro z hz
    by_contra hcon
    have hnone := hspline (((log e₁).record).map fun p => (p.1, some (p.2 : Rat))) ?_
    · have := h₁.spline
      rw [List.flatMap_singleton, hnone] at this
      cases this
    · intro hpw
      rw [List.map_map, show (Prod.fst ∘ fun p : Rat × Int => (p.1, some (p.2 : Rat))) = Prod.fst from rfl, ← hra, htimes, hl, List.map_append] at hpw
      have := (List.pairwise_append.mp hpw).2.2 _ (List.mem_map.mpr ⟨z, hz, rfl⟩) (a.utc (x + 893 / 100)) (by simp)
      unfold ClockedFile.utc at this
      have := mul_le_mul_of_nonneg_left (not_lt.mp hcon) hrate.le
      linarith
  -- the assigned times
  have hbhead : (sampleTimes b.events).headD 0 = y := by rw [hy]; rfl
  have hyend : y + 893 / 100 ≤ endTime b.events := (sound_order hsb (x := y) (by rw [hy]; rfl) (y := y) (by rw [hy]; simp)).2
  obtain ⟨F, hF⟩ : ∃ F : Rat → Rat, F = fun z => if z = x then s₂.start else a.utc (z + 893 / 100) := ⟨_, rfl⟩
  have hFl : ∀ z ∈ l, F z = a.utc (z + 893 / 100) := by
    intro z hz
    rw [hF]
    simp only
    rw [if_neg (hstrict z hz).ne]
  have hsega : ∀ z ∈ sampleTimes a.events, applySegments [r, q] (z + 893 / 100) = some (F z) := by
    intro z hz
    unfold applySegments
    rw [List.foldl_cons, List.foldl_cons, List.foldl_nil, hstep _ _ b q hq, hbhead]
    have hz' := hz
    rw [hl] at hz'
    rcases List.mem_append.mp hz' with h | h
    · have hlt := hstrict z h
      rw [if_neg (by rintro ⟨h1, _⟩; linarith), hFl z h, hstep _ _ a r hr]
      obtain ⟨w, ws, hw⟩ := List.exists_cons_of_ne_nil hsa.samples
      obtain ⟨o1, o2⟩ := sound_order hsa (x := w) (by rw [hw]; rfl) hz
      rw [if_pos ⟨by rw [hw, List.headD_cons]; linarith, o2⟩]
    · rw [List.mem_singleton] at h
      rw [if_pos ⟨by rw [h, hxy], by rw [h, ← hxy]; exact hyend⟩, hF]
      simp only
      rw [if_pos h, hstart, h, hxy]
  have hsegb : ∀ z ∈ sampleTimes b.events, applySegments [r, q] (z + 893 / 100) = some (b.utc (z + 893 / 100)) := by
    intro z hz
    unfold applySegments
    obtain ⟨o1, o2⟩ := sound_order hsb (x := y) (by rw [hy]; rfl) hz
    rw [List.foldl_cons, List.foldl_cons, List.foldl_nil, hstep _ _ b q hq, hbhead, if_pos ⟨by linarith, o2⟩]
  obtain ⟨w, c1, c2⟩ := record_changed a F l x hl hFl
  have hFx : F x = s₂.start := by rw [hF]; simp
  rw [hFx] at c1
  have hrec : recordOf (timedData ([a, b].flatMap fun g => g.used.data) [r, q])
      = (a.record.dropLast ++ [(s₂.start, w)] ++ b.record).map fun p => (p.1, some (p.2 : Rat)) := by
    rw [recordOf_flatMap, List.flatMap_cons, List.flatMap_singleton, record_used b _ hsegb, List.map_append, ← c1]
    congr 1
    exact recordOf_timed a.offset a.rate a.events _ F hsega
  -- the runs
  obtain ⟨A, hA⟩ : ∃ A, A = a.record.dropLast.map Prod.fst := ⟨_, rfl⟩
  obtain ⟨B, hB⟩ : ∃ B, B = b.record.map Prod.fst := ⟨_, rfl⟩
  have hAl : A.getLast? = some t := by rw [hA, hra]; exact ht
  have hAne : A ≠ [] := by intro h; rw [h] at hAl; simp at hAl
  have hAfull : (log e₁).record.map Prod.fst = A ++ [a.utc (x + 893 / 100)] := by
    rw [← hra, c2, hA]; simp
  have g1 := h₁.gapless
  have f1 := h₁.first_
  have l1 := h₁.last_
  rw [List.flatMap_singleton] at g1 f1 l1
  have hAh : A.head? = some s₁.start := by
    rw [hAfull, List.head?_append] at f1
    cases A with
    | nil => exact absurd rfl hAne
    | cons u us => simpa using f1
  have hts : t ≤ s₁.stop := by
    refine (gapless_bounds g1 f1 l1 t ?_).2
    rw [hAfull]
    exact List.mem_append_left _ (List.mem_of_getLast? hAl)
  have hAc : A.IsChain fun x y => x ≤ y ∧ y - x ≤ 25 / 1000 := by
    rw [hAfull] at g1
    exact (List.isChain_append.mp g1).1
  have hAb := gapless_bounds hAc hAh hAl
  have g2 := h₂.gapless
  have f2 := h₂.first_
  have l2 := h₂.last_
  rw [List.flatMap_singleton, ← hrb, ← hB] at g2 f2 l2
  have hBb := gapless_bounds g2 f2 l2
  obtain ⟨R, hR⟩ : ∃ R, R = a.record.dropLast ++ [(s₂.start, w)] ++ b.record := ⟨_, rfl⟩
  rw [← hR] at hrec
  have hRt : timesOf (stamped R) = A ++ s₂.start :: B := by
    unfold timesOf
    rw [recordOf_stamped, List.map_map, hR, hA, hB]
    simp [Function.comp_def]
  have hruns : runsOf (stamped R) = [A, s₂.start :: B] := by
    unfold runsOf
    rw [hRt]
    have e1 : (A ++ s₂.start :: B).headD 0 = s₁.start := by
      rw [List.headD_eq_head?_getD, List.head?_append, hAh]; rfl
    have e2 : (A ++ s₂.start :: B).getLastD 0 = s₂.stop := by
      rw [List.getLastD_eq_getLast?, List.getLast?_append, List.getLast?_cons, l2]; rfl
    rw [e1, e2]
    refine runs_join _ _ (s₂.start :: B) [s₂.start :: B] ?_ A hAne ?_ ?_
    · have := runs_join s₁.start s₂.stop [] [] rfl (s₂.start :: B) (by simp) ?_ (by simp)
      · rwa [List.append_nil] at this
      · rw [List.isChain_cons]
        refine ⟨?_, g2.imp ?_⟩
        · intro u hu
          rw [f2] at hu
          simp only [Option.mem_def, Option.some.injEq] at hu
          rintro ⟨h | h, _⟩ <;> linarith
        · rintro u w ⟨h1, h2⟩ ⟨h | h, _⟩ <;> linarith
    · refine hAc.imp ?_
      rintro u w ⟨h1, h2⟩ ⟨h | h, _⟩ <;> linarith
    · intro u hu w hw
      rw [hAl] at hu
      simp only [List.head?_cons, Option.mem_def, Option.some.injEq] at hu hw
      subst hu hw
      exact ⟨.inl (by linarith), by linarith, by linarith [h₂.long]⟩
  have hAD : A.headD 0 = s₁.start ∧ A.getLastD 0 = t := by
    rw [List.headD_eq_head?_getD, List.getLastD_eq_getLast?, hAh, hAl]; exact ⟨rfl, rfl⟩
  have hBD : (s₂.start :: B).getLastD 0 = s₂.stop := by
    rw [List.getLastD_eq_getLast?, List.getLast?_cons, l2]; rfl
  obtain ⟨g, k1, k2, _, _, _, _, k7⟩ := hread R (by rw [hRt]; simp) hrec (by
    intro r hr _
    rw [hruns] at hr
    simp only [List.mem_cons, List.not_mem_nil, or_false] at hr
    rcases hr with rfl | rfl
    · rw [hAD.1, hAD.2]; exact hlong
    · rw [hBD, List.headD_cons]; exact h₂.long)
  refine ⟨g, k1, k2, ?_⟩
  have hwA : windowOf (R.map fun p => (p.1, some (p.2 : Rat))) A = (log e₁).record.dropLast.map fun p => (p.1, some (p.2 : Rat)) := by
    unfold windowOf
    rw [hAD.1, hAD.2, hR, List.append_assoc, List.map_append, List.filter_append, ← hra]
    have e1 : (a.record.dropLast.map fun p => (p.1, some (p.2 : Rat))).filter
        (fun p => decide (s₁.start - 11 / 1000 ≤ p.1 ∧ p.1 ≤ t + 9 / 1000)) = a.record.dropLast.map fun p => (p.1, some (p.2 : Rat)) := by
      rw [List.filter_eq_self]
      intro p hp
      obtain ⟨q, hq, rfl⟩ := List.mem_map.mp hp
      have := hAb q.1 (by rw [hA]; exact List.mem_map.mpr ⟨q, hq, rfl⟩)
      simp only [decide_eq_true_eq]
      constructor <;> linarith [this.1, this.2]
    have e2 : (([(s₂.start, w)] ++ b.record).map fun p => (p.1, some (p.2 : Rat))).filter
        (fun p => decide (s₁.start - 11 / 1000 ≤ p.1 ∧ p.1 ≤ t + 9 / 1000)) = [] := by
      rw [List.filter_eq_nil_iff]
      intro p hp
      obtain ⟨q, hq, rfl⟩ := List.mem_map.mp hp
      have hq' : s₂.start ≤ q.1 := by
        rcases List.mem_append.mp hq with h | h
        · rw [List.mem_singleton.mp h]
        · exact (hBb q.1 (by rw [hB]; exact List.mem_map.mpr ⟨q, h, rfl⟩)).1
      simp only [decide_eq_true_eq, not_and, not_le]
      intro _
      linarith
    rw [e1, e2, List.append_nil]
  have hres : Resampled d.spline (R.map fun p => (p.1, some (p.2 : Rat))) A := by
    unfold Resampled
    rw [hwA, hAD.1, hAD.2, hcurve]
    refine ⟨?_, rfl⟩
    intro h
    rw [h] at hlong
    linarith
  have hnot : ¬ Resampled d.spline (R.map fun p => (p.1, some (p.2 : Rat))) (s₂.start :: B) := by
    rintro ⟨_, hsome⟩
    rw [hspline] at hsome
    · cases hsome
    · intro hpw
      obtain ⟨p, ps, hp⟩ : ∃ p ps, b.record = p :: ps := by
        cases hb : b.record with
        | nil => rw [hb] at hB; rw [hB] at f2; simp at f2
        | cons p ps => exact ⟨p, ps, rfl⟩
      have hp1 : p.1 = s₂.start := by
        rw [hB, hp] at f2
        simpa using f2
      have hsub : [(s₂.start, some (w : Rat)), (s₂.start, some (p.2 : Rat))].Sublist
          (windowOf (R.map fun p => (p.1, some (p.2 : Rat))) (s₂.start :: B)) := by
        have h0 : [(s₂.start, some (w : Rat)), (s₂.start, some (p.2 : Rat))].Sublist (R.map fun p => (p.1, some (p.2 : Rat))) := by
          rw [hR, hp, List.append_assoc, List.map_append]
          refine List.Sublist.trans ?_ (List.sublist_append_right _ _)
          rw [List.singleton_append, List.map_cons, List.map_cons, hp1]
          exact .cons_cons _ (.cons_cons _ (List.nil_sublist _))
        have h1 := h0.filter fun p => decide ((s₂.start :: B).headD 0 - 11 / 1000 ≤ p.1 ∧ p.1 ≤ (s₂.start :: B).getLastD 0 + 9 / 1000)
        rw [List.filter_eq_self.mpr] at h1
        · exact h1
        · intro c hc
          have hc1 : c.1 = s₂.start := by
            simp only [List.mem_cons, List.not_mem_nil, or_false] at hc
            rcases hc with rfl | rfl <;> rfl
          rw [hBD, hc1, List.headD_cons]
          simp only [decide_eq_true_eq]
          constructor <;> linarith [h₂.long]
      have := hpw.sublist (hsub.map Prod.fst)
      simp at this
  rw [hruns, List.filter_cons_of_pos (by simpa using hres), List.filter_cons_of_neg (by simpa using hnot), List.filter_nil] at k7
  generalize g.stream = st at k7
  cases k7 with
  | @cons _ tr _ trs hT hrest =>
    cases hrest
    obtain ⟨f', e1, e2, _, e4, e5⟩ := hT
    rw [hwA, hcurve, Option.some.injEq] at e1
    subst e1
    rw [hAD.1] at e2 e5
    rw [hAD.1, hAD.2] at e4
    exact .cons ⟨e2, e4, e5⟩ .nil

end Gemlog
