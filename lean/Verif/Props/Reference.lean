import Verif.Lemmas.Reference

/-!
# Property C89: the production reader against the reference reader
-/

namespace Gemlog

/-! ## Times -/

/-- The event, `s` counts later (helper). -/
def Event.later (s : Rat) (e : Event) : Event := ⟨e.T + s, e.line⟩

theorem timed_lines : ∀ (ls : List LogLine) (m : Rat), (timed m ls).map Event.line = ls := by
  intro ls
  induction ls with
  | nil => intro m; rfl
  | cons l ls ih => intro m; rw [timed_cons, List.map_cons, ih]

theorem later_lines (s : Rat) (es : List Event) : (es.map (Event.later s)).map Event.line = es.map Event.line := by
  rw [List.map_map]; rfl

theorem textOf_lines (es : List Event) : textOf es = logText (es.map Event.line) := by
  unfold textOf logText
  rw [List.map_map]; rfl

theorem timed_wrapped {c m : Rat} (h : 0 ≤ c ∧ c < 8192) (k : Int) :
    WrappedReading 8192 (unwrapMillis c m (2 ^ 12) (2 ^ 13) + (k : Rat) * 8192) c := by
  obtain ⟨⟨j, hj⟩, _⟩ := C07_unwrap_spec c m (2 ^ 12) (2 ^ 13) (by norm_num)
  refine ⟨h.1, h.2, j + k, ?_⟩
  rw [hj]
  push_cast
  norm_num
  ring

theorem timed_printed (k : Int) : ∀ (ls : List LogLine) (m : Rat) (prev : Option Rat),
    (∀ l ∈ ls, l.Valid ∧ l.Plain) → (∀ c ∈ ls.filterMap LogLine.count, 0 ≤ c ∧ c < 8192) →
    TimesPrinted prev ((timed m ls).map (Event.later ((k : Rat) * 8192))) := by
  intro ls
  induction ls with
  | nil => intro m prev _ _; trivial
  | cons l ls ih =>
    intro m prev hv hr
    rw [timed_cons, List.map_cons]
    have hv' : ∀ l ∈ ls, l.Valid ∧ l.Plain := fun x hx => hv x (by simp [hx])
    have hr' : ∀ c ∈ ls.filterMap LogLine.count, 0 ≤ c ∧ c < 8192 := by
      intro c hc
      apply hr c
      rw [List.filterMap_cons]
      cases l.count
      · exact hc
      · exact List.mem_cons_of_mem _ hc
    have hc : ∀ c, l.count = some c → WrappedReading 8192 (nextMillis m l + (k : Rat) * 8192) c := by
      intro c hc
      have := timed_wrapped (m := m) (hr c (by rw [List.filterMap_cons, hc]; simp)) k
      unfold nextMillis
      rw [hc]
      exact this
    cases l with
    | letters x y => exact absurd (hv (.letters x y) (by simp)).2 id
    | sample ms z => exact ⟨hc _ rfl, ih _ _ hv' hr'⟩
    | fix ms => exact ⟨hc _ rfl, ih _ _ hv' hr'⟩
    | status ms => exact ⟨hc _ rfl, ih _ _ hv' hr'⟩
    | other body => exact ih _ _ hv' hr'

theorem timed_times (s : Rat) : ∀ (ls : List LogLine) (m : Rat), (∀ l ∈ ls, l.Valid ∧ l.Plain) →
    (dataEvents ((timed m ls).map (Event.later s))).map Event.T
      = (slowUnwrapFrom m (ls.filterMap LogLine.count)).map fun x => x + s := by
  intro ls
  induction ls with
  | nil => intro m _; rfl
  | cons l ls ih =>
    intro m hv
    have hi := fun m => ih m (fun x hx => hv x (by simp [hx]))
    rw [timed_cons, List.map_cons, List.filterMap_cons]
    have hd : ∀ (e : Event) es, dataEvents (e :: es) = if e.isOther then dataEvents es else e :: dataEvents es := by
      intro e es
      unfold dataEvents
      by_cases he : e.isOther = true
      · rw [List.filter_cons_of_neg (by simp [he]), if_pos he]
      · rw [List.filter_cons_of_pos (by simpa using he), if_neg he]
    rw [hd]
    cases l with
    | letters x y => exact absurd (hv (.letters x y) (by simp)).2 id
    | sample ms z => simp [Event.isOther, Event.later, LogLine.count, nextMillis, slowUnwrapFrom, hi]
    | fix ms => simp [Event.isOther, Event.later, LogLine.count, nextMillis, slowUnwrapFrom, hi]
    | status ms => simp [Event.isOther, Event.later, LogLine.count, nextMillis, slowUnwrapFrom, hi]
    | other body => simp [Event.isOther, Event.later, LogLine.count, nextMillis, hi]

/-! ## Production -/

theorem process_events {offset : Rat} {es : List Event} {rows : List Row} (hr : List.Forall₂ RowFits (dataEvents es) rows)
    (hms : correctedMillis 8192 offset (rows.map Row.millis) = some ((dataEvents es).map Event.T))
    (hsamples : sampleTimes es ≠ []) (hstatus : ∃ e ∈ es, e.isStatus = true) (em rg : Bool)
    (hfix : rg = true → ∃ e ∈ es, e.isFix = true ∧ gpsInBounds e.grawD = true) :
    processData em (cythonTable rows) offset "0.9" rg = .ok
      ⟨(sampleTimes es).zip ((pressuresOf es).map fun z : Int => some (z : Rat)),
        ((es.filter Event.isStatus).map Event.T).zip ((es.filter Event.isStatus).map fun e => e.vals.map some),
        (((es.filter Event.isFix).map Event.grawD).filter gpsInBounds).filterMap withTime⟩ := by
  obtain ⟨d1, d2⟩ := rowsD hr
  obtain ⟨m1, m2⟩ := rowsM hr
  obtain ⟨g1, g2⟩ := rowsG hr
  have es1 : sampleTimes (dataEvents es) = sampleTimes es := by
    unfold sampleTimes
    rw [filter_dataEvents _ (fun e h => step_notOther h)]
  rw [es1] at d1
  rw [filterMap_step_data] at d2
  rw [filter_dataEvents _ (fun e h => status_notOther h)] at m1 m2
  rw [filter_dataEvents _ (fun e h => fix_notOther h)] at g2
  have hrows : (cythonTable rows).rows = rows.map tRow := rfl
  have hsaw2 : (cythonTable rows).rows.map TRow.saw = rows.map Row.millis := by
    rw [hrows, List.map_map]; rfl
  unfold processData
  rw [show rolloverOf "0.9" = some 8192 by simp [rolloverOf]; norm_num]
  simp only
  rw [hsaw2, hms]
  simp only
  rw [hrows, show (((dataEvents es).map Event.T).zip (rows.map tRow)) = zipRows (dataEvents es) rows from rfl]
  have hD : ((zipRows (dataEvents es) rows).filter fun p => p.2.kind == .D) ≠ [] := by
    intro h; rw [h] at d1; exact hsamples d1.symm
  have hM : ((zipRows (dataEvents es) rows).filter fun p => p.2.kind == .M) ≠ [] := by
    intro h
    rw [h] at m1
    obtain ⟨e, he, hk⟩ := hstatus
    have : e ∈ es.filter Event.isStatus := List.mem_filter.mpr ⟨he, hk⟩
    rw [List.map_eq_nil_iff.mp m1.symm] at this
    simp at this
  rw [if_neg (by rintro (h | h); exacts [hD h, hM h])]
  have hv1 : (if ("0.9" : String) ∈ ["0.8", "0.85"] then 2 else if (cythonTable rows).isBytes = true then 2 else 1) = 2 := by
    simp [cythonTable]
  have hv2 : numMCols "0.9" - 1 = 11 := by decide
  rw [hv1, hv2, d2, m2]
  simp only
  have hcs := cumsumNaN_some (es.filterMap Event.step) 0
  rw [Int.cast_zero] at hcs
  have hgps : gpsTable em ((zipRows (dataEvents es) rows).filter fun p => p.2.kind == .G)
        = some ((((es.filter Event.isFix).map Event.grawD).filter gpsInBounds).filterMap withTime) ∨
      (gpsTable em ((zipRows (dataEvents es) rows).filter fun p => p.2.kind == .G) = none ∧
        ((es.filter Event.isFix).map Event.grawD).filter gpsInBounds = []) := by
    unfold gpsTable
    split
    · rename_i h
      right
      rw [h, List.mapM_nil] at g2
      refine ⟨rfl, ?_⟩
      have : (es.filter Event.isFix).map Event.grawD = [] := by
        have := Option.some.inj g2
        exact this.symm
      rw [this]; rfl
    · rw [g2]
      dsimp only
      by_cases h : ((es.filter Event.isFix).map Event.grawD).filter gpsInBounds = [] ∧ em = true
      · rw [if_pos h]; exact .inr ⟨rfl, h.1⟩
      · rw [if_neg h]; exact .inl rfl
  rcases hgps with h | ⟨h, h0⟩
  · rw [h]
    simp only
    rw [d1, m1, if_pos (by simp), hcs]
    rfl
  · rw [h]
    simp only
    have hrg : rg = false := by
      cases rg with
      | false => rfl
      | true =>
        obtain ⟨e, he, hf, hb⟩ := hfix rfl
        have : e.grawD ∈ ((es.filter Event.isFix).map Event.grawD).filter gpsInBounds :=
          List.mem_filter.mpr ⟨List.mem_map.mpr ⟨e, List.mem_filter.mpr ⟨he, hf⟩, rfl⟩, hb⟩
        rw [h0] at this
        simp at this
    rw [hrg, h0, d1, m1, if_neg (by simp), if_pos (by simp), hcs]
    rfl

/-! ## Comparison -/

theorem refSums_cast : ∀ (l : List Int) (acc : Int), refSums (acc : Rat) (l.map fun z : Int => (z : Rat))
    = (runningSums acc l).map fun z : Int => (z : Rat) := by
  intro l
  induction l with
  | nil => intro acc; rfl
  | cons x l ih =>
    intro acc
    rw [List.map_cons, refSums, runningSums, List.map_cons, ← ih (acc + x)]
    push_cast
    rfl

theorem sampleRow_later (s : Rat) : ∀ es : List Event, (∀ e ∈ es, ∀ x y, e.line ≠ .letters x y) →
    sampleTimes (es.map (Event.later s)) = (es.filterMap Event.sampleRow).map (fun q => q.1 + s) ∧
    ((es.map (Event.later s)).filterMap Event.step).map (fun z : Int => (z : Rat)) = (es.filterMap Event.sampleRow).map Prod.snd := by
  intro es
  induction es with
  | nil => intro _; exact ⟨rfl, rfl⟩
  | cons e es ih =>
    intro h
    obtain ⟨i1, i2⟩ := ih (fun x hx => h x (by simp [hx]))
    have hl := h e (by simp)
    unfold sampleTimes at i1 ⊢
    rcases e with ⟨T, line⟩
    cases line with
    | letters x y => exact absurd rfl (hl x y)
    | sample ms z => exact ⟨congrArg (List.cons _) i1, congrArg (List.cons _) i2⟩
    | fix => exact ⟨i1, i2⟩
    | status => exact ⟨i1, i2⟩
    | other => exact ⟨i1, i2⟩

theorem statusRow_later (s : Rat) : ∀ es : List Event,
    (((es.map (Event.later s)).filter Event.isStatus).map Event.T).zip
        (((es.map (Event.later s)).filter Event.isStatus).map fun e => e.vals.map some)
      = (es.filterMap Event.statusRow).map fun q => (q.1 + s, q.2.map some) := by
  intro es
  induction es with
  | nil => rfl
  | cons e es ih =>
    rcases e with ⟨T, line⟩
    cases line <;>
      simp only [List.map_cons, List.filter_cons, Event.later, Event.isStatus, Bool.false_eq_true, if_false, if_true, List.filterMap_cons,
        Event.statusRow, List.zip_cons_cons, Event.vals] <;>
      first
        | exact ih
        | exact congrArg _ ih

/-- The fix, `s` counts later, with its time (helper). -/
def fixLater (s : Rat) (q : GRaw × Option Int) : Option Fix :=
  q.2.map fun t => ⟨{ q.1 with msPPS := q.1.msPPS + s }, (t : Rat)⟩

theorem fixRow_later (s : Rat) : ∀ es : List Event,
    ((((es.map (Event.later s)).filter Event.isFix).map Event.grawD).filter gpsInBounds).filterMap withTime
      = (es.filterMap Event.fixRow).filterMap (fixLater s) := by
  intro es
  induction es with
  | nil => rfl
  | cons e es ih =>
    rcases e with ⟨T, line⟩
    cases line with
    | fix ms lag yr mo day hr mn sec lat lon =>
      rw [List.map_cons, List.filter_cons_of_pos (by rfl), List.map_cons]
      have e1 : (Event.later s ⟨T, .fix ms lag yr mo day hr mn sec lat lon⟩).grawD
        = ⟨T + s, some lag.val, some yr, some mo, some day, some hr, some mn, some sec.val, some lat.val, some lon.val⟩ := rfl
      have e2 : Event.fixRow ⟨T, .fix ms lag yr mo day hr mn sec lat lon⟩ = if gpsInBounds ⟨T + s, some lag.val, some yr, some mo,
          some day, some hr, some mn, some sec.val, some lat.val, some lon.val⟩ = true then some (⟨T, some lag.val, some yr, some mo,
          some day, some hr, some mn, some sec.val, some lat.val, some lon.val⟩, makeGpsTime ⟨T + s, some lag.val, some yr, some mo,
          some day, some hr, some mn, some sec.val, some lat.val, some lon.val⟩) else none := rfl
      rw [e1, List.filterMap_cons, e2]
      by_cases hb : gpsInBounds ⟨T + s, some lag.val, some yr, some mo,
          some day, some hr, some mn, some sec.val, some lat.val, some lon.val⟩ = true
      · rw [if_pos hb, List.filter_cons_of_pos hb, List.filterMap_cons]
        simp only
        rw [List.filterMap_cons, ih]
        unfold withTime fixLater
        simp only
        cases makeGpsTime ⟨T + s, some lag.val, some yr, some mo,
          some day, some hr, some mn, some sec.val, some lat.val, some lon.val⟩ <;> rfl
      · rw [if_neg hb, List.filter_cons_of_neg hb]
        exact ih
    | sample => exact ih
    | letters => exact ih
    | status => exact ih
    | other => exact ih

theorem zip_map_fst_snd {β γ : Type} (l : List (Rat × Rat)) (f : Rat → β) (ys : List Rat) (g : Rat → γ) :
    (l.map fun q => f q.1).zip (ys.map g) = ((l.map Prod.fst).zip ys).map fun q => (f q.1, g q.2) := by
  rw [show (l.map fun q => f q.1) = (l.map Prod.fst).map f by rw [List.map_map]; rfl, List.zip_map]
  rfl

theorem wrapped_unique {T x y : Rat} (hx : WrappedReading 8192 T x) (hy : WrappedReading 8192 T y) : x = y := by
  obtain ⟨a1, a2, i, hi⟩ := hx
  obtain ⟨b1, b2, j, hj⟩ := hy
  exact eq_of_mod_range (r := 8192) (k := j - i) a1 a2 b1 b2 (by push_cast; linarith)

theorem dataEvents_cons (e : Event) (es : List Event) :
    dataEvents (e :: es) = if e.isOther then dataEvents es else e :: dataEvents es := by
  unfold dataEvents
  by_cases he : e.isOther = true
  · rw [List.filter_cons_of_neg (by simp [he]), if_pos he]
  · rw [List.filter_cons_of_pos (by simpa using he), if_neg he]

theorem rows_counts (k : Int) : ∀ (ls : List LogLine) (m : Rat) (rows : List Row), (∀ l ∈ ls, l.Valid ∧ l.Plain) →
    (∀ c ∈ ls.filterMap LogLine.count, 0 ≤ c ∧ c < 8192) →
    List.Forall₂ RowFits (dataEvents ((timed m ls).map (Event.later ((k : Rat) * 8192)))) rows →
    rows.map Row.millis = ls.filterMap LogLine.count := by
  intro ls
  induction ls with
  | nil => intro m rows _ _ h; cases h; rfl
  | cons l ls ih =>
    intro m rows hv hr h
    have hv' : ∀ l ∈ ls, l.Valid ∧ l.Plain := fun x hx => hv x (by simp [hx])
    have hr' : ∀ c ∈ ls.filterMap LogLine.count, 0 ≤ c ∧ c < 8192 := by
      intro c hc
      apply hr c
      rw [List.filterMap_cons]
      cases l.count
      · exact hc
      · exact List.mem_cons_of_mem _ hc
    rw [timed_cons, List.map_cons, dataEvents_cons] at h
    by_cases ho : ∃ body, l = .other body
    · obtain ⟨body, rfl⟩ := ho
      exact ih _ rows hv' hr' h
    · have hlet : ∀ x y, l ≠ .letters x y := by
        rintro x y rfl
        exact absurd (hv (.letters x y) (by simp)).2 id
      obtain ⟨c, hc⟩ : ∃ c, l.count = some c := by
        cases l with
        | other body => exact absurd ⟨body, rfl⟩ ho
        | letters x y => exact absurd rfl (hlet x y)
        | sample ms => exact ⟨ms.val, rfl⟩
        | fix ms => exact ⟨ms.val, rfl⟩
        | status ms => exact ⟨ms.val, rfl⟩
      have hno : (Event.later ((k : Rat) * 8192) ⟨nextMillis m l, l⟩).isOther = false := by
        cases l with
        | other body => exact absurd ⟨body, rfl⟩ ho
        | _ => rfl
      rw [hno, if_neg (by simp)] at h
      cases h with
      | @cons _ r _ rows hrow hrest =>
        have hw := timed_wrapped (m := m) (hr c (by rw [List.filterMap_cons, hc]; simp)) k
        have hT : (Event.later ((k : Rat) * 8192) ⟨nextMillis m l, l⟩).T = unwrapMillis c m (2 ^ 12) (2 ^ 13) + (k : Rat) * 8192 := by
          simp only [Event.later, nextMillis, hc]
        have := hrow.2.2
        rw [hT] at this
        rw [List.map_cons, List.filterMap_cons, hc, ih _ rows hv' hr' hrest, wrapped_unique this hw]

/-- Both readers on a plain file (helper). -/
theorem readers_timed {ls : List LogLine} (h : PlainFile ls) (hs : ∃ l ∈ ls, l.isSample = true) (buf0 : List Nat) (offset : Rat) :
    ∃ k : Int, (k : Rat) * 8192 = offset - pyMod offset 8192 ∧ ∃ rows,
      parseGem buf0 (logText ls) = rows ∧
      List.Forall₂ RowFits (dataEvents ((timed (pyMod offset (2 ^ 13)) ls).map (Event.later ((k : Rat) * 8192)))) rows ∧
      correctedMillis 8192 offset (rows.map Row.millis)
        = some ((dataEvents ((timed (pyMod offset (2 ^ 13)) ls).map (Event.later ((k : Rat) * 8192)))).map Event.T) := by
  have hne : ls.filterMap LogLine.count ≠ [] := by
    obtain ⟨l, hl, hl2⟩ := hs
    cases l with
    | sample ms z =>
      intro h0
      have : ms.val ∈ ls.filterMap LogLine.count := List.mem_filterMap.mpr ⟨_, hl, rfl⟩
      rw [h0] at this; simp at this
    | _ => simp [LogLine.isSample] at hl2
  obtain ⟨k, hk, hc⟩ := C09_fast_eq_slow offset _ hne h.range h.jump
  refine ⟨k, hk, ?_⟩
  have hp := timed_printed k ls (pyMod offset (2 ^ 13)) none h.valid h.range
  have hl : ∀ e ∈ (timed (pyMod offset (2 ^ 13)) ls).map (Event.later ((k : Rat) * 8192)), e.line ∈ ls := by
    intro e he
    have : e.line ∈ ((timed (pyMod offset (2 ^ 13)) ls).map (Event.later ((k : Rat) * 8192))).map Event.line :=
      List.mem_map.mpr ⟨e, he, rfl⟩
    rwa [later_lines, timed_lines] at this
  obtain ⟨rows, h1, h2⟩ := parse_events buf0 _ [] none (.inl rfl) (fun e he => (h.valid _ (hl e he)).1) hp (by simp)
  rw [List.nil_append, textOf_lines, later_lines, timed_lines, show parseGem buf0 [] = [] from rfl, List.nil_append] at h1
  refine ⟨rows, h1, h2, ?_⟩
  have hm : rows.map Row.millis = ls.filterMap LogLine.count := by
    exact rows_counts k ls _ rows h.valid h.range h2
  rw [hm, timed_times _ ls _ h.valid, show (8192 : Rat) = 2 ^ 13 by norm_num, hc]
  norm_num
  rfl

theorem count_data : ∀ (ls : List LogLine) (m s : Rat), (∀ l ∈ ls, l.Valid ∧ l.Plain) →
    (dataEvents ((timed m ls).map (Event.later s))).length
      = ls.countP LogLine.isSample + ls.countP LogLine.isStatus + ls.countP LogLine.isFix := by
  intro ls
  induction ls with
  | nil => intro m s _; rfl
  | cons l ls ih =>
    intro m s hv
    have := ih (nextMillis m l) s (fun x hx => hv x (by simp [hx]))
    rw [timed_cons, List.map_cons, dataEvents_cons]
    cases l with
    | letters x y => exact absurd (hv (.letters x y) (by simp)).2 id
    | _ => simp [Event.isOther, Event.later, LogLine.isSample, LogLine.isStatus, LogLine.isFix, List.countP_cons]; omega

theorem goodFix_row {l : LogLine} (h : l.GoodFix) (T : Rat) :
    l.isFix = true ∧ gpsInBounds (Event.grawD ⟨T, l⟩) = true ∧ ∃ f, withTime (Event.grawD ⟨T, l⟩) = some f := by
  obtain ⟨t, ht⟩ := h
  cases l with
  | fix ms lag yr mo day hr mn sec lat lon =>
    have ht' : (Event.mk T (.fix ms lag yr mo day hr mn sec lat lon)).FixAt t := ht
    obtain ⟨h1, h2⟩ := fixAt_kept (a := t) (b := 0) ht' (by simp)
    exact ⟨rfl, h1, _, h2⟩
  | _ => exact ht.elim

/-- **C89.** On every file that prints its lines in full, with counts that never rise by exactly half a rollover, and that holds a
sample, a status line and (if GPS is required) a sensible fix, both the production reader and the reference reader succeed, and
they agree: the same samples, the same status lines and the same fixes (those with a real time), where production adds to all
times the multiple of 8192 in `offset` that the reference reader leaves out, and to the times of samples the delay of 8.93 ms. -/
theorem C89_same_result (em : Bool) (pandas old : Except Exc Table) (buf0 buf1 : List Nat) (ls : List LogLine) (offset : Rat) (rg : Bool)
    (h : PlainFile ls) (hs : ∃ l ∈ ls, l.isSample = true) (hm : ∃ l ∈ ls, l.isStatus = true)
    (hg : rg = true → ∃ l ∈ ls, l.GoodFix) :
    ∃ ref fd, refRead (some (logText ls)) offset rg = .ok ref ∧
      readSingle em ⟨(readWithCython buf0 buf1 rg (some (logText ls))).map cythonTable, pandas, old⟩ offset rg "0.9" = .ok fd ∧
      fd.data = ref.data.map (fun q => (q.1 + (offset - pyMod offset 8192) + 893 / 100, some q.2)) ∧
      fd.metadata = ref.metadata.map (fun q => (q.1 + (offset - pyMod offset 8192), q.2.map some)) ∧
      fd.gps = ref.gps.filterMap (fun q => q.2.map fun t =>
        ⟨{ q.1 with msPPS := q.1.msPPS + (offset - pyMod offset 8192) }, (t : Rat)⟩) := by
  obtain ⟨k, hk, rows, hparse, hfits, hcm⟩ := readers_timed h hs buf0 offset
  obtain ⟨m, hfold⟩ := refFold ls ⟨pyMod offset (2 ^ 13), [], [], []⟩ h.valid (by simpa using h.samples) (by simpa using h.statuses)
    (by simpa using h.fixes)
  simp only [List.nil_append] at hfold
  generalize hE : timed (pyMod offset (2 ^ 13)) ls = E at *
  have hEl : E.map Event.line = ls := by rw [← hE]; exact timed_lines ls _
  have hmem : ∀ l ∈ ls, ∃ e ∈ E, e.line = l := by
    intro l hl
    rw [← hEl] at hl
    exact List.mem_map.mp hl
  have hnl : ∀ e ∈ E, ∀ x y, e.line ≠ .letters x y := by
    intro e he x y hxy
    have : e.line ∈ ls := by rw [← hEl]; exact List.mem_map.mpr ⟨e, he, rfl⟩
    have := (h.valid _ this).2
    rw [hxy] at this
    exact this
  obtain ⟨s1, s2⟩ := sampleRow_later ((k : Rat) * 8192) E hnl
  have hDne : E.filterMap Event.sampleRow ≠ [] := by
    obtain ⟨l, hl, hl2⟩ := hs
    obtain ⟨⟨T, line⟩, he, rfl⟩ := hmem l hl
    cases line with
    | sample ms z =>
      intro h0
      have : ((T, (z : Rat)) : Rat × Rat) ∈ E.filterMap Event.sampleRow := List.mem_filterMap.mpr ⟨_, he, rfl⟩
      rw [h0] at this; simp at this
    | _ => simp [LogLine.isSample] at hl2
  have hGne : rg = true → (E.filterMap Event.fixRow).filterMap (fixLater ((k : Rat) * 8192)) ≠ [] ∧ E.filterMap Event.fixRow ≠ [] ∧
      ∃ e ∈ E.map (Event.later ((k : Rat) * 8192)), e.isFix = true ∧ gpsInBounds e.grawD = true := by
    intro hr
    obtain ⟨l, hl, hl2⟩ := hg hr
    obtain ⟨⟨T, line⟩, he, rfl⟩ := hmem l hl
    obtain ⟨g1, g2, f, g3⟩ := goodFix_row hl2 (T + (k : Rat) * 8192)
    have he' : (⟨T + (k : Rat) * 8192, line⟩ : Event) ∈ E.map (Event.later ((k : Rat) * 8192)) := List.mem_map.mpr ⟨_, he, rfl⟩
    have hfx : Event.isFix ⟨T + (k : Rat) * 8192, line⟩ = true := by
      dsimp only at g1
      cases line <;> first | rfl | simp [LogLine.isFix] at g1
    have hin : f ∈ (E.filterMap Event.fixRow).filterMap (fixLater ((k : Rat) * 8192)) := by
      rw [← fixRow_later]
      refine List.mem_filterMap.mpr ⟨_, List.mem_filter.mpr ⟨List.mem_map.mpr ⟨_, List.mem_filter.mpr ⟨he', hfx⟩, rfl⟩, g2⟩, g3⟩
    refine ⟨fun h0 => ?_, fun h0 => ?_, _, he', hfx, g2⟩
    · rw [h0] at hin; simp at hin
    · rw [h0] at hin; simp at hin
  have hlen : rows.length ≤ 1560000 := by
    rw [← hfits.length_eq, ← hE, count_data ls _ _ h.valid]
    have := h.samples; have := h.statuses; have := h.fixes
    omega
  have hread : readWithCython buf0 buf1 rg (some (logText ls)) = .ok rows := by
    rw [(C06_complete_or_error buf0 buf1 rg (logText ls)).1 (by rw [hparse]; exact hlen), hparse, ← checkRows_eq]
    unfold checkRows
    rw [if_neg, if_neg]
    · rintro ⟨h1, h2⟩
      obtain ⟨_, _, e, he, hf, _⟩ := hGne h2
      have hd : e ∈ dataEvents (E.map (Event.later ((k : Rat) * 8192))) := by
        unfold dataEvents
        exact List.mem_filter.mpr ⟨he, by simp [fix_notOther hf]⟩
      obtain ⟨i, hi, rfl⟩ := List.mem_iff_getElem.mp hd
      have hfi := List.forall₂_iff_get.mp hfits
      have := (hfi.2 i hi (by rw [← hfi.1]; exact hi)).1
      have hk2 : Event.kind (dataEvents (E.map (Event.later ((k : Rat) * 8192))))[i] = some .G := by
        have := isG_iff (dataEvents (E.map (Event.later ((k : Rat) * 8192))))[i]
        rw [hf] at this
        simpa using this
      simp only [List.get_eq_getElem] at this
      rw [hk2] at this
      exact h1 _ (List.getElem_mem _) (Option.some.inj this).symm
    · rintro rfl
      have h0 := hfits.length_eq
      have hd : sampleTimes (E.map (Event.later ((k : Rat) * 8192))) = [] := by
        unfold sampleTimes
        rw [← filter_dataEvents _ (fun e h => step_notOther h), List.eq_nil_of_length_eq_zero h0]
        rfl
      rw [s1] at hd
      exact hDne (List.map_eq_nil_iff.mp hd)
  have hproc := process_events hfits hcm (by rw [s1]; intro h0; exact hDne (List.map_eq_nil_iff.mp h0))
    (by
      obtain ⟨l, hl, hl2⟩ := hm
      obtain ⟨⟨T, line⟩, he, rfl⟩ := hmem l hl
      refine ⟨_, List.mem_map.mpr ⟨_, he, rfl⟩, ?_⟩
      dsimp only at hl2
      cases line <;> first | rfl | simp [LogLine.isStatus] at hl2) em rg (fun hr => (hGne hr).2.2)
  rw [fixRow_later, statusRow_later] at hproc
  refine ⟨⟨((E.filterMap Event.sampleRow).map Prod.fst).zip (refSums 0 ((E.filterMap Event.sampleRow).map Prod.snd)),
    E.filterMap Event.statusRow, E.filterMap Event.fixRow⟩, FileData.addDataTime ⟨(sampleTimes (E.map (Event.later ((k : Rat) * 8192)))).zip
      ((pressuresOf (E.map (Event.later ((k : Rat) * 8192)))).map fun z : Int => some (z : Rat)),
      (E.filterMap Event.statusRow).map (fun q => (q.1 + (k : Rat) * 8192, q.2.map some)),
      (E.filterMap Event.fixRow).filterMap (fixLater ((k : Rat) * 8192))⟩ (893 / 100), ?_, ?_, ?_, ?_, ?_⟩
  rotate_left
  · unfold readSingle
    rw [if_pos (by simp), hread]
    unfold tryReaders
    simp only [Except.map, Except.bind]
    rw [hproc]
    simp only
    rw [if_neg (by rintro ⟨h1, h2⟩; exact (hGne h2).1 h1), show timeCorrection "0.9" = some (893 / 100) by simp [timeCorrection]]
  · rw [s1]
    unfold FileData.addDataTime
    simp only
    have hp : (pressuresOf (E.map (Event.later ((k : Rat) * 8192)))).map (fun z : Int => some (z : Rat))
        = (refSums 0 ((E.filterMap Event.sampleRow).map Prod.snd)).map some := by
      unfold pressuresOf
      rw [← s2]
      have := refSums_cast ((E.map (Event.later ((k : Rat) * 8192))).filterMap Event.step) 0
      rw [Int.cast_zero] at this
      rw [this, List.map_map]
      rfl
    rw [hp, zip_map_fst_snd _ (fun t => t + (k : Rat) * 8192), List.map_map, ← hk]
    rfl
  · rw [← hk]; rfl
  · rw [← hk]
    show (E.filterMap Event.fixRow).filterMap (fixLater ((k : Rat) * 8192)) = (E.filterMap Event.fixRow).filterMap _
    apply List.filterMap_congr
    rintro ⟨g, o⟩ _
    cases o <;> rfl
  · unfold refRead
    simp only
    rw [hfold]
    simp only
    unfold refFinish
    rw [if_neg hDne, if_neg (by rintro ⟨h1, h2⟩; exact (hGne h2).2.1 h1)]

/-- **C89 (failures).** A file that does not exist, one without any sample, fix or status line, and one with samples but without a fix line when
GPS is required, are refused by both readers with the same exception. -/
theorem C89_same_failure (em : Bool) (pandas old : Except Exc Table) (buf0 buf1 : List Nat) (offset : Rat) (rg : Bool) :
    (refRead none offset rg = .error .fileNotFound ∧
      readSingle em ⟨(readWithCython buf0 buf1 rg none).map cythonTable, pandas, old⟩ offset rg "0.9" = .error .fileNotFound) ∧
    ∀ ls, PlainFile ls →
      ((∀ l ∈ ls, l.count = none) → refRead (some (logText ls)) offset rg = .error .emptyRaw ∧
        readSingle em ⟨(readWithCython buf0 buf1 rg (some (logText ls))).map cythonTable, pandas, old⟩ offset rg "0.9"
          = .error .emptyRaw) ∧
      ((∃ l ∈ ls, l.isSample = true) → (∀ l ∈ ls, l.isFix = false) → rg = true →
        refRead (some (logText ls)) offset rg = .error .noGPS ∧
        readSingle em ⟨(readWithCython buf0 buf1 rg (some (logText ls))).map cythonTable, pandas, old⟩ offset rg "0.9"
          = .error .noGPS) := by
  refine ⟨⟨rfl, ?_⟩, ?_⟩
  · unfold readSingle
    rw [if_pos (by simp)]
    rfl
  intro ls h
  have hread : ∀ e : Exc, e.exitsEarly = true → readWithCython buf0 buf1 rg (some (logText ls)) = .error e →
      readSingle em ⟨(readWithCython buf0 buf1 rg (some (logText ls))).map cythonTable, pandas, old⟩ offset rg "0.9" = .error e := by
    intro e he hr
    unfold readSingle
    rw [if_pos (by simp), hr]
    unfold tryReaders
    simp only [Except.map, Except.bind]
    rw [if_pos he]
  obtain ⟨m, hfold⟩ := refFold ls ⟨pyMod offset (2 ^ 13), [], [], []⟩ h.valid (by simpa using h.samples) (by simpa using h.statuses)
    (by simpa using h.fixes)
  simp only [List.nil_append] at hfold
  have hmem : ∀ e ∈ timed (pyMod offset (2 ^ 13)) ls, e.line ∈ ls := by
    intro e he
    have : e.line ∈ (timed (pyMod offset (2 ^ 13)) ls).map Event.line := List.mem_map.mpr ⟨e, he, rfl⟩
    rwa [timed_lines] at this
  constructor
  · intro hn
    have hempty : (timed (pyMod offset (2 ^ 13)) ls).filterMap Event.sampleRow = [] := by
      rw [List.filterMap_eq_nil_iff]
      rintro ⟨T, line⟩ he
      have := hn _ (hmem _ he)
      cases line <;> first | rfl | simp [LogLine.count] at this
    have hrows : parseGem buf0 (logText ls) = [] := by
      have hp := timed_printed 0 ls (pyMod offset (2 ^ 13)) none h.valid h.range
      obtain ⟨rows, h1, h2⟩ := parse_events buf0 _ [] none (.inl rfl) (by
        intro e he
        obtain ⟨e', he', rfl⟩ := List.mem_map.mp he
        exact (h.valid _ (hmem e' he')).1) hp (by simp)
      rw [List.nil_append, textOf_lines, later_lines, timed_lines, show parseGem buf0 [] = [] from rfl, List.nil_append] at h1
      rw [h1]
      have hc := rows_counts 0 ls _ rows h.valid h.range h2
      rw [List.filterMap_eq_nil_iff.mpr hn] at hc
      exact List.map_eq_nil_iff.mp hc
    constructor
    · unfold refRead
      simp only
      rw [hfold]
      simp only
      unfold refFinish
      rw [if_pos hempty]
    · apply hread _ rfl
      rw [(C06_complete_or_error buf0 buf1 rg (logText ls)).1 (by rw [hrows]; simp), hrows]
      rfl
  · intro hs hf hr
    obtain ⟨k, hk, rows, hparse, hfits, hcm⟩ := readers_timed h hs buf0 offset
    have hlen : rows.length ≤ 1560000 := by
      rw [← hfits.length_eq, count_data ls _ _ h.valid]
      have := h.samples; have := h.statuses; have := h.fixes
      omega
    have hG : (timed (pyMod offset (2 ^ 13)) ls).filterMap Event.fixRow = [] := by
      rw [List.filterMap_eq_nil_iff]
      rintro ⟨T, line⟩ he
      have := hf _ (hmem _ he)
      cases line <;> first | rfl | simp [LogLine.isFix] at this
    have hD : (timed (pyMod offset (2 ^ 13)) ls).filterMap Event.sampleRow ≠ [] := by
      obtain ⟨l, hl, hl2⟩ := hs
      rw [← timed_lines ls (pyMod offset (2 ^ 13))] at hl
      obtain ⟨⟨T, line⟩, he, rfl⟩ := List.mem_map.mp hl
      cases line with
      | sample ms z =>
        intro h0
        have : ((T, (z : Rat)) : Rat × Rat) ∈ (timed (pyMod offset (2 ^ 13)) ls).filterMap Event.sampleRow :=
          List.mem_filterMap.mpr ⟨_, he, rfl⟩
        rw [h0] at this; simp at this
      | _ => simp [LogLine.isSample] at hl2
    constructor
    · unfold refRead
      simp only
      rw [hfold]
      simp only
      unfold refFinish
      rw [if_neg hD, if_pos ⟨hG, hr⟩]
    · apply hread _ rfl
      rw [(C06_complete_or_error buf0 buf1 rg (logText ls)).1 (by rw [hparse]; exact hlen), hparse, ← checkRows_eq]
      unfold checkRows
      rw [if_neg, if_pos]
      · refine ⟨?_, hr⟩
        intro r hrm hk'
        obtain ⟨i, hi, rfl⟩ := List.mem_iff_getElem.mp hrm
        have hfi := List.forall₂_iff_get.mp hfits
        have hi' : i < (dataEvents ((timed (pyMod offset (2 ^ 13)) ls).map (Event.later ((k : Rat) * 8192)))).length := by
          rw [hfi.1]; exact hi
        have hkk := (hfi.2 i hi' hi).1
        simp only [List.get_eq_getElem] at hkk
        rw [hk'] at hkk
        have hm2 := List.getElem_mem hi'
        generalize (dataEvents ((timed (pyMod offset (2 ^ 13)) ls).map (Event.later ((k : Rat) * 8192))))[i] = e at hkk hm2
        obtain ⟨hm3, _⟩ := List.mem_filter.mp hm2
        obtain ⟨e', he', rfl⟩ := List.mem_map.mp hm3
        have hlf := hf _ (hmem _ he')
        rcases e' with ⟨T, line⟩
        cases line <;> simp [LogLine.isFix, Event.kind, Event.later] at hlf hkk
      · rintro rfl
        have h0 := hfits.length_eq
        rw [count_data ls _ _ h.valid] at h0
        obtain ⟨l, hl, hl2⟩ := hs
        have : 0 < ls.countP LogLine.isSample := List.countP_pos_iff.mpr ⟨l, hl, hl2⟩
        rw [List.length_nil] at h0
        omega

/-! ## Examples and differences -/

/-- A short file: version line, status, fix, two samples across a roll-over. -/
def demoRefLines : List LogLine :=
  [.other (bytes "#GemCSV0.9"),
   .status (.ofNat 8170) (.ofNat 3) (.ofNat 20) (.ofNat 0) (.ofNat 0) 1 2 3 4 1 5 6,
   .fix (.ofNat 8171) (.ofNat 70) 2020 6 20 5 21 (.ofNat 22) (.ofNat 43) ⟨true, 116, [], by simp⟩,
   .sample (.ofNat 8185) (-3), .sample (.ofNat 3) 5]

theorem ofNat_val (n : Nat) : (Dec.ofNat n).val = n := by
  simp [Dec.ofNat, Dec.val, digitsVal]

/-- The hypotheses of `C89_same_result` are met. -/
example : PlainFile demoRefLines ∧ (∃ l ∈ demoRefLines, l.isSample = true) ∧ (∃ l ∈ demoRefLines, l.isStatus = true) := by
  refine ⟨⟨?_, ?_, ?_, by decide, by decide, by decide⟩, by decide, by decide⟩
  · intro l hl
    simp only [demoRefLines, List.mem_cons, List.not_mem_nil, or_false] at hl
    rcases hl with rfl | rfl | rfl | rfl | rfl <;> constructor <;> simp only [LogLine.Valid, LogLine.Plain] <;> decide +kernel
  · intro c hc
    simp [demoRefLines, LogLine.count, ofNat_val] at hc
    rcases hc with h | h | h | h <;> subst h <;> norm_num
  · have : demoRefLines.filterMap LogLine.count = [8170, 8171, 8185, 3] := by
      simp only [demoRefLines, List.filterMap_cons, List.filterMap_nil, LogLine.count, ofNat_val]
      norm_num
    rw [this]
    simp; norm_num

example : ∃ l ∈ demoRefLines, l.GoodFix := by
  refine ⟨_, List.mem_cons_of_mem _ (List.mem_cons_of_mem _ (List.mem_cons_self)), 1592630482, ?_⟩
  refine ⟨?_, ?_, ?_, ?_, 22, ?_, ?_, ?_⟩
  · simp [ofNat_val]; norm_num
  · simp [Dec.val, digitsVal]; norm_num
  · simp [ofNat_val]; norm_num
  · norm_num
  · simp [ofNat_val]
  · exact ⟨by norm_num, by norm_num, ⟨by norm_num, true, by simp [LeapYear], by decide⟩, by norm_num, by norm_num,
      by norm_num⟩
  · decide +kernel

example : (refRead (some (logText demoRefLines)) 16000 true).toOption
    = some ⟨[(8185, -3), (8195, 2)], [(8170, [3, 20, 0, 0, 1, 2, 3, 4, 1, 5, 6])],
      [(⟨8171, some 70, some 2020, some 6, some 20, some 5, some 21, some 22, some 43, some (-116)⟩, some 1592630482)]⟩ := by
  decide +kernel

/-- A file whose only fix claims 30 February. -/
def demoFebruary : List LogLine :=
  [.status (.ofNat 70) (.ofNat 3) (.ofNat 20) (.ofNat 0) (.ofNat 0) 1 2 3 4 1 5 6,
   .fix (.ofNat 71) (.ofNat 70) 2020 2 30 5 21 (.ofNat 22) (.ofNat 43) (.ofNat 116), .sample (.ofNat 85) (-3)]

/-- A file without a status line. -/
def demoNoStatus : List LogLine :=
  [.fix (.ofNat 71) (.ofNat 70) 2020 2 28 5 21 (.ofNat 22) (.ofNat 43) (.ofNat 116), .sample (.ofNat 85) (-3)]

/-- **C89 (where they differ).** A fix on 30 February: the reference reader returns it, without a time, and production
refuses the file. A file without a status line: the reference reader returns its samples, and production refuses it. -/
theorem C89_differ :
    ((refRead (some (logText demoFebruary)) 0 true).toOption
      = some ⟨[(85, -3)], [(70, [3, 20, 0, 0, 1, 2, 3, 4, 1, 5, 6])],
        [(⟨71, some 70, some 2020, some 2, some 30, some 5, some 21, some 22, some 43, some 116⟩, none)]⟩ ∧
     ∀ (pandas old : Except Exc Table) (em : Bool),
      readSingle em ⟨(readWithCython [] [] true (some (logText demoFebruary))).map cythonTable, pandas, old⟩ 0 true "0.9"
        = .error .corrupt) ∧
    ((refRead (some (logText demoNoStatus)) 0 true).toOption
      = some ⟨[(85, -3)], [], [(⟨71, some 70, some 2020, some 2, some 28, some 5, some 21, some 22, some 43, some 116⟩,
        some 1582867282)]⟩ ∧
     ∀ (old : Except Exc Table) (em : Bool),
      readSingle em ⟨(readWithCython [] [] true (some (logText demoNoStatus))).map cythonTable, .error .other, old⟩ 0 true "0.9"
        = .error .corrupt) := by
  have ok : ∀ {α : Type} (x : Except Exc α) (a : α), x.toOption = some a → x = .ok a := by
    intro α x a h
    cases x with
    | error e => simp [Except.toOption] at h
    | ok b => simp [Except.toOption] at h; rw [h]
  refine ⟨⟨by decide +kernel, ?_⟩, by decide +kernel, ?_⟩
  · intro pandas old em
    have h1 := ok (readWithCython [] [] true (some (logText demoFebruary)))
      [⟨.M, 70, [3, 20, 0, 0, 1, 2, 3, 4, 1, 5, 6]⟩, ⟨.G, 71, [70, 2020, 2, 30, 5, 21, 22, 43, 116, 0, 0]⟩,
        ⟨.D, 85, -3 :: List.replicate 10 0⟩] (by decide +kernel)
    have h2 := fun em => ok (processData em (cythonTable [⟨.M, 70, [3, 20, 0, 0, 1, 2, 3, 4, 1, 5, 6]⟩,
        ⟨.G, 71, [70, 2020, 2, 30, 5, 21, 22, 43, 116, 0, 0]⟩, ⟨.D, 85, -3 :: List.replicate 10 0⟩]) 0 "0.9" true)
      ⟨[(85, some (-3))], [(70, [3, 20, 0, 0, 1, 2, 3, 4, 1, 5, 6].map fun x : Rat => some x)], []⟩ (by cases em <;> decide +kernel)
    unfold readSingle
    rw [if_pos (by simp), h1]
    unfold tryReaders
    simp only [Except.map, Except.bind, h2]
    rfl
  · intro old em
    have h1 := ok (readWithCython [] [] true (some (logText demoNoStatus)))
      [⟨.G, 71, [70, 2020, 2, 28, 5, 21, 22, 43, 116, 0, 0]⟩, ⟨.D, 85, -3 :: List.replicate 10 0⟩] (by decide +kernel)
    have h2 : processData em (cythonTable [⟨.G, 71, [70, 2020, 2, 28, 5, 21, 22, 43, 116, 0, 0]⟩,
        ⟨.D, 85, -3 :: List.replicate 10 0⟩]) 0 "0.9" true = .error .other := rfl
    unfold readSingle
    rw [if_pos (by simp), h1]
    unfold tryReaders
    simp only [Except.map, Except.bind, h2]
    rfl

end Gemlog
