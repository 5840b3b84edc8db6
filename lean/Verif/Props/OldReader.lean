import Verif.Lemmas.OldReader
import Verif.Props.Reference

/-!
# Property C90: files of formats 0.8 and 0.85
-/

namespace Gemlog

/-- Rows with their times (helper). -/
def oldZip (es : List OldEvent) : List (Rat × TRow) := (oldData es).map fun e => (((⌊e.T⌋ : Int) : Rat), e.line.trow)

theorem oldData_cons (e : OldEvent) (es : List OldEvent) :
    oldData (e :: es) = if e.line.kind.isSome then e :: oldData es else oldData es := by
  unfold oldData
  rw [List.filter_cons]

theorem oldZip_D : ∀ es : List OldEvent, (∀ p ∈ (oldZip es).filter fun p => p.2.kind == .D, ((p.2.col 2).toNumeric).isSome) ∧
    ((oldZip es).filter fun p => p.2.kind == .D).map (fun p => (p.1, ((p.2.col 2).toNumeric).getD none))
      = (es.filterMap OldEvent.sample).map fun q => (((⌊q.1⌋ : Int) : Rat), some (q.2 : Rat)) := by
  intro es
  induction es with
  | nil => exact ⟨by simp [oldZip, oldData], rfl⟩
  | cons e es ih =>
    unfold oldZip at ih ⊢
    rw [oldData_cons]
    rcases e with ⟨T, line⟩
    cases line with
    | sample ms x =>
      simp only [OldLine.kind, Option.isSome_some, if_true, List.map_cons, List.filterMap_cons, OldEvent.sample]
      rw [List.filter_cons_of_pos (by rfl)]
      refine ⟨?_, ?_⟩
      · intro p hp
        rcases List.mem_cons.mp hp with rfl | hp
        · rfl
        · exact ih.1 p hp
      · rw [List.map_cons, ih.2]; rfl
    | fix => exact ih
    | status => exact ih
    | other => exact ih

theorem oldZip_M {version : String} (hv : version = "0.8" ∨ version = "0.85") : ∀ es : List OldEvent, (∀ e ∈ es, e.line.Valid version) →
    (∀ p ∈ (oldZip es).filter fun p => p.2.kind == .M,
      ((List.range (numMCols version - 1)).mapM fun j => (p.2.col (j + 2)).toNumeric).isSome) ∧
    ((oldZip es).filter fun p => p.2.kind == .M).map (fun p => (p.1,
        ((List.range (numMCols version - 1)).mapM fun j => (p.2.col (j + 2)).toNumeric).getD []))
      = (es.filterMap OldEvent.status).map fun q => (((⌊q.1⌋ : Int) : Rat), q.2.map some) := by
  intro es
  induction es with
  | nil => intro _; exact ⟨by simp [oldZip, oldData], rfl⟩
  | cons e es ih =>
    intro h
    have ih := ih (fun x hx => h x (by simp [hx]))
    have he := h e (by simp)
    unfold oldZip at ih ⊢
    rw [oldData_cons]
    rcases e with ⟨T, line⟩
    cases line with
    | status ms values =>
      simp only [OldLine.kind, Option.isSome_some, if_true, List.map_cons, List.filterMap_cons, OldEvent.status]
      rw [List.filter_cons_of_pos (by rfl)]
      have hl : values.length = numMCols version - 1 := by
        have : values.length = statusValues version := he
        rw [this]
        rcases hv with rfl | rfl <;> decide
      have key : ((List.range (numMCols version - 1)).mapM fun j => ((OldLine.status ms values).trow.col (j + 2)).toNumeric)
          = some ((values.map Field.val).map some) := by
        rw [mapM_some (g := fun j => some ((values.map Field.val).getD j 0))]
        · congr 1
          apply List.ext_getElem
          · simp [hl]
          · intro i h1 h2
            simp at h2
            simp [List.getD_eq_getElem _ _ (show i < (values.map Field.val).length by simpa using h2), h2]
        · intro j hj
          have hj : j < values.length := by rw [hl]; simpa using hj
          simp [TRow.col, OldLine.trow, OldLine.fields, hj, Cell.toNumeric]
      refine ⟨?_, ?_⟩
      · intro p hp
        rcases List.mem_cons.mp hp with rfl | hp
        · simp only; rw [key]; rfl
        · exact ih.1 p hp
      · rw [List.map_cons, ih.2]
        simp only
        rw [key]; rfl
    | fix => exact ih
    | sample => exact ih
    | other => exact ih

theorem oldZip_G : ∀ es : List OldEvent,
    ((oldZip es).filter fun p => p.2.kind == .G).mapM (fun p => gRow p.1 p.2)
      = some ((es.filterMap OldEvent.fix).map fun e => { e.grawD with msPPS := ((⌊e.T⌋ : Int) : Rat) }) := by
  intro es
  induction es with
  | nil => rfl
  | cons e es ih =>
    unfold oldZip at ih ⊢
    rw [oldData_cons]
    rcases e with ⟨T, line⟩
    cases line with
    | fix =>
      simp only [OldLine.kind, Option.isSome_some, if_true, List.map_cons, List.filterMap_cons, OldEvent.fix]
      rw [List.filter_cons_of_pos (by rfl), List.mapM_cons, ih]
      rfl
    | sample => exact ih
    | status => exact ih
    | other => exact ih

/-- The result holds the contents of a sensible fix: its time, the whole milliseconds of its count, lag and position. -/
def FixRead (e : Event) (f : Fix) : Prop :=
  match e.line with
  | .fix _ lag yr mo day hr mn sec lat lon => ∃ t : Int, e.FixAt t ∧ f = ⟨⟨((⌊e.T⌋ : Int) : Rat), some lag.val, some yr, some mo, some day,
      some hr, some mn, some sec.val, some lat.val, some lon.val⟩, t⟩
  | _ => False

theorem fixRead_iff {e : Event} (he : e.isFix = true) (m : Rat) :
    (∃ t, e.FixAt t) ↔ (gpsInBounds { e.grawD with msPPS := m } = true ∧ (withTime { e.grawD with msPPS := m }).isSome) := by
  rcases e with ⟨T, line⟩
  cases line with
  | fix ms lag yr mo day hr mn sec lat lon =>
    have hc := C11_kept_iff_plausible { (Event.mk T (.fix ms lag yr mo day hr mn sec lat lon)).grawD with msPPS := m }
      ⟨⟨lat.val, lon.val, lag.val, sec.val, rfl, rfl, rfl, rfl⟩, yr, mo, day, hr, mn, rfl, rfl, rfl, rfl, rfl⟩
    rw [hc]
    constructor
    · rintro ⟨t, h1, h2, h3, h4, s, h5, h6, h7⟩
      exact ⟨⟨_, rfl, h1⟩, ⟨_, rfl, h2⟩, ⟨_, rfl, h3⟩, yr, mo, day, hr, mn, s, rfl, rfl, rfl, rfl, rfl, by rw [← h5]; rfl, h4.1, h4.2, h6⟩
    · rintro ⟨⟨a, ha, h1⟩, ⟨b, hb, h2⟩, ⟨c, hcc, h3⟩, y, mo', d, h, mi, s, e1, e2, e3, e4, e5, e6, h4, h4', h6⟩
      simp only [Event.grawD, Event.graw, Option.getD_some, Option.some.injEq, Int.cast_inj] at ha hb hcc e1 e2 e3 e4 e5 e6
      subst e1 e2 e3 e4 e5 ha hb hcc
      obtain ⟨t, ht⟩ := Option.isSome_iff_exists.mp ((C12_time_iff_real _).mpr h6)
      exact ⟨t, h1, h2, h3, ⟨h4, h4'⟩, s, e6, h6, ht⟩
  | _ => simp [Event.isFix] at he

theorem fixRead_of {e : Event} {f : Fix} (he : e.isFix = true)
    (hf : withTime { e.grawD with msPPS := ((⌊e.T⌋ : Int) : Rat) } = some f) (hx : ∃ t, e.FixAt t) : FixRead e f := by
  obtain ⟨t, ht⟩ := hx
  rcases e with ⟨T, line⟩
  cases line with
  | fix ms lag yr mo day hr mn sec lat lon =>
    have h2 : (Event.mk ((⌊T⌋ : Int) : Rat) (.fix ms lag yr mo day hr mn sec lat lon)).FixAt t := ht
    obtain ⟨_, h3⟩ := fixAt_kept (a := t) (b := 0) h2 (by simp)
    refine ⟨t, ht, ?_⟩
    have h4 : withTime { (Event.mk T (.fix ms lag yr mo day hr mn sec lat lon)).grawD with msPPS := ((⌊T⌋ : Int) : Rat) }
      = some ((Event.mk ((⌊T⌋ : Int) : Rat) (.fix ms lag yr mo day hr mn sec lat lon)).fixRec t 0) := h3
    rw [h4] at hf
    rw [← Option.some.inj hf]
    unfold Event.fixRec
    simp only [zero_mul, add_zero]
    rfl
  | _ => simp [Event.isFix] at he

open Classical in
theorem fixes_read : ∀ F : List Event, (∀ e ∈ F, e.isFix = true) →
    List.Forall₂ FixRead (F.filter fun e => decide (∃ t, e.FixAt t))
      (((F.map fun e => ({ e.grawD with msPPS := ((⌊e.T⌋ : Int) : Rat) } : GRaw)).filter gpsInBounds).filterMap withTime) := by
  intro F
  induction F with
  | nil => intro _; exact .nil
  | cons e F ih =>
    intro h
    have ih := ih (fun x hx => h x (by simp [hx]))
    have he := h e (by simp)
    have hi := fixRead_iff he ((⌊e.T⌋ : Int) : Rat)
    rw [List.map_cons]
    by_cases hx : ∃ t, e.FixAt t
    · obtain ⟨h1, h2⟩ := hi.mp hx
      obtain ⟨f, hf⟩ := Option.isSome_iff_exists.mp h2
      rw [List.filter_cons_of_pos (by simpa using hx), List.filter_cons_of_pos h1, List.filterMap_cons, hf]
      exact .cons (fixRead_of he hf hx) ih
    · rw [List.filter_cons_of_neg (by simpa using hx)]
      by_cases h1 : gpsInBounds { e.grawD with msPPS := ((⌊e.T⌋ : Int) : Rat) } = true
      · rw [List.filter_cons_of_pos h1, List.filterMap_cons]
        cases hf : withTime { e.grawD with msPPS := ((⌊e.T⌋ : Int) : Rat) } with
        | none => exact ih
        | some f => exact absurd (hi.mpr ⟨h1, by rw [hf]; rfl⟩) hx
      · rw [List.filter_cons_of_neg h1]; exact ih

theorem fix_isFix (es : List OldEvent) : ∀ e ∈ es.filterMap OldEvent.fix, e.isFix = true := by
  intro e he
  obtain ⟨o, _, ho⟩ := List.mem_filterMap.mp he
  rcases o with ⟨T, line⟩
  cases line <;> simp [OldEvent.fix] at ho
  subst ho; rfl

theorem wrapped_floor {R : Int} {T c : Rat} (h : WrappedReading R T c) :
    WrappedReading R ((⌊T⌋ : Int) : Rat) ((⌊c⌋ : Int) : Rat) := by
  obtain ⟨h1, h2, k, rfl⟩ := h
  refine ⟨by exact_mod_cast Int.floor_nonneg.mpr h1, lt_of_le_of_lt (Int.floor_le c) h2, k, ?_⟩
  rw [show c + (k : Rat) * (R : Rat) = c + ((k * R : Int) : Rat) by push_cast; ring, Int.floor_add_intCast]
  push_cast; ring

theorem readOld_file {version : String} {start : Rat} {header : List (List Nat)} {es : List OldEvent} (h : OldFile version start header es)
    (rg : Bool) (hg : rg = true → es.filterMap OldEvent.fix ≠ []) :
    readOld (some (oldText header es)) rg = .ok ⟨false, (oldData es).map fun e => e.line.trow⟩ := by
  have hplain : ∀ l ∈ header ++ es.map (fun e => e.line.body), ∀ b ∈ l, b < 128 ∧ b ≠ 10 ∧ b ≠ 13 := by
    intro l hl b hb
    rcases List.mem_append.mp hl with h1 | h1
    · have := h.head.2 l h1 b hb; exact ⟨this.1, this.2.1, this.2.2.1⟩
    · obtain ⟨e, he, rfl⟩ := List.mem_map.mp h1
      exact old_plain (h.valid e he) b hb
  have hrows : pdRows 15 (oldText header es) = (es.map fun e => e.line.body).filterMap (bodyRow 15) :=
    pdRows_flat 15 header _ h.head.1 hplain
  have hor := old_rows h.valid
  have hD : oldData es ≠ [] := by
    intro h0
    apply h.samples
    apply List.filterMap_eq_nil_iff.mpr
    intro e he
    rcases e with ⟨T, line⟩
    cases line with
    | sample ms x =>
      have : (⟨T, .sample ms x⟩ : OldEvent) ∈ oldData es := List.mem_filter.mpr ⟨he, rfl⟩
      rw [h0] at this; simp at this
    | _ => rfl
  unfold readOld
  simp only
  rw [hrows]
  rw [if_neg (by
    intro h0
    rw [h0] at hor
    exact hD (List.map_eq_nil_iff.mp hor.symm))]
  rw [hor]
  have hall : ∀ e ∈ oldData es, oldBad (e.line.kind.getD .D, e.line.fields.map fun f => pdCell f.text) = false ∧
      oldTRow (e.line.kind.getD .D, e.line.fields.map fun f => pdCell f.text) = some e.line.trow := by
    intro e he
    obtain ⟨h1, h2⟩ := List.mem_filter.mp he
    obtain ⟨k, hk⟩ := Option.isSome_iff_exists.mp h2
    exact old_trow hk (fun c hc => (h.printed e h1 c hc).1)
  rw [if_neg]
  · have e1 : ((oldData es).map fun e => (e.line.kind.getD .D, e.line.fields.map fun f => pdCell f.text)).filterMap oldTRow
        = (oldData es).map fun e => e.line.trow := by
      rw [List.filterMap_map]
      generalize oldData es = D at hall
      induction D with
      | nil => rfl
      | cons e D ih =>
        rw [List.filterMap_cons, List.map_cons, ← ih (fun x hx => hall x (by simp [hx]))]
        simp only [Function.comp, (hall e (by simp)).2]
    rw [e1, if_neg]
    rintro ⟨h1, h2⟩
    apply hg h2
    apply List.filterMap_eq_nil_iff.mpr
    intro e he
    rcases e with ⟨T, line⟩
    cases line with
    | fix ms lag yr mo day hr mn sec lat lon =>
      have : (⟨T, .fix ms lag yr mo day hr mn sec lat lon⟩ : OldEvent) ∈ oldData es := List.mem_filter.mpr ⟨he, rfl⟩
      exact absurd rfl (h1 _ (List.mem_map.mpr ⟨_, this, rfl⟩))
    | _ => rfl
  · intro h0
    obtain ⟨r, hr, hb⟩ := List.any_eq_true.mp h0
    obtain ⟨e, he, rfl⟩ := List.mem_map.mp hr
    rw [(hall e he).1] at hb
    simp at hb

theorem old_millis {version : String} {start : Rat} {header : List (List Nat)} {es : List OldEvent} (h : OldFile version start header es) :
    correctedMillis (2 ^ 16) start (((oldData es).map fun e => e.line.trow).map TRow.saw)
      = some ((oldData es).map fun e => ((⌊e.T⌋ : Int) : Rat)) := by
  apply C08_true_clock_recovered _ _ (by norm_num)
  · rw [List.map_map, List.forall₂_map_left_iff, List.forall₂_map_right_iff]
    rw [List.forall₂_same]
    intro e he
    obtain ⟨h1, h2⟩ := List.mem_filter.mp he
    rw [← count_kind] at h2
    obtain ⟨c, hc⟩ := Option.isSome_iff_exists.mp h2
    have := wrapped_floor (R := 65536) (by exact_mod_cast h.printed e h1 c hc)
    simp only [Function.comp, OldLine.trow, hc, Option.getD_some]
    norm_num at this ⊢
    exact this
  · have := h.near
    rw [oldTimes_eq, List.isChain_map] at this
    rw [List.isChain_map]
    refine this.imp ?_
    rintro x y ⟨h1, h2⟩
    have h1' : ((⌊y.T⌋ - ⌊x.T⌋ : Int) : Rat) < ((32768 : Int) : Rat) := Int.cast_lt.mpr h1
    have h2' : ((-32768 : Int) : Rat) < ((⌊y.T⌋ - ⌊x.T⌋ : Int) : Rat) := Int.cast_lt.mpr h2
    push_cast at h1' h2'
    norm_num
    constructor <;> linarith
  · intro h0
    apply h.samples
    apply List.filterMap_eq_nil_iff.mpr
    intro e he
    rcases e with ⟨T, line⟩
    cases line with
    | sample ms x =>
      have : (⟨T, .sample ms x⟩ : OldEvent) ∈ oldData es := List.mem_filter.mpr ⟨he, rfl⟩
      rw [List.map_eq_nil_iff.mp h0] at this; simp at this
    | _ => rfl
  · intro t ht
    have := h.near_start
    rw [oldTimes_eq, List.head?_map] at this
    rw [List.head?_map] at ht
    cases hh : (oldData es).head? with
    | none => rw [hh] at ht; simp at ht
    | some e =>
      rw [hh] at this ht
      simp at ht
      have := this e.T (by simp)
      rw [← ht]
      norm_num
      constructor <;> linarith [this.1, this.2]

open Classical in
/-- **C90.** A file of format 0.8 or 0.85 without defects is read exactly: every sample with its pressure and the whole milliseconds of its true time
(plus the delay of 8.93 ms), every status line, and the fixes with sensible contents, in order and no others; `start` is the time at which
the previous file ended. -/
theorem C90_old_file (em : Bool) (cython pandas : Except Exc Table) (version : String) (start : Rat) (header : List (List Nat))
    (es : List OldEvent) (rg : Bool) (h : OldFile version start header es)
    (hg : rg = true → ∃ e ∈ es.filterMap OldEvent.fix, ∃ t, e.FixAt t) :
    ∃ fd, readSingle em ⟨cython, pandas, readOld (some (oldText header es)) rg⟩ start rg version = .ok fd ∧
      fd.data = (es.filterMap OldEvent.sample).map (fun q => (((⌊q.1⌋ : Int) : Rat) + 893 / 100, some (q.2 : Rat))) ∧
      fd.metadata = (es.filterMap OldEvent.status).map (fun q => (((⌊q.1⌋ : Int) : Rat), q.2.map some)) ∧
      List.Forall₂ FixRead ((es.filterMap OldEvent.fix).filter fun e => decide (∃ t, e.FixAt t)) fd.gps := by
  have hro := readOld_file h rg (fun hr => by
    obtain ⟨e, he, _⟩ := hg hr
    intro h0; rw [h0] at he; simp at he)
  obtain ⟨d1, d2⟩ := oldZip_D es
  obtain ⟨m1, m2⟩ := oldZip_M h.old es h.valid
  have g1 := oldZip_G es
  have hfr := fixes_read _ (fix_isFix es)
  have hroll : rolloverOf version = some (2 ^ 16) := by
    rcases h.old with rfl | rfl <;> simp [rolloverOf]
  have hz : ((oldData es).map fun e => ((⌊e.T⌋ : Int) : Rat)).zip ((oldData es).map fun e => e.line.trow) = oldZip es := by
    rw [List.zip_map']; rfl
  have hp := process_table (em := em) (rg := rg) (table := ⟨false, (oldData es).map fun e => e.line.trow⟩) (offset := start)
    (version := version) (rows := oldZip es) (dcol := 2)
    (adc := ((oldZip es).filter fun p => p.2.kind == .D).map fun p => ((p.2.col 2).toNumeric).getD none)
    (md := ((oldZip es).filter fun p => p.2.kind == .M).map fun p =>
      ((List.range (numMCols version - 1)).mapM fun j => (p.2.col (j + 2)).toNumeric).getD [])
    hroll (old_millis h) hz (by rcases h.old with rfl | rfl <;> simp)
    (by intro h0; rw [h0] at d2; exact h.samples (List.map_eq_nil_iff.mp d2.symm))
    (by intro h0; rw [h0] at m2; exact h.statuses (List.map_eq_nil_iff.mp m2.symm))
    (mapM_some (fun p hp => by
      obtain ⟨x, hx⟩ := Option.isSome_iff_exists.mp (d1 p hp)
      rw [hx]; rfl))
    (mapM_some (fun p hp => by
      obtain ⟨x, hx⟩ := Option.isSome_iff_exists.mp (m1 p hp)
      rw [hx]; rfl))
    g1 (by
      intro hr
      obtain ⟨e, he, hx⟩ := hg hr
      exact ⟨_, List.mem_map.mpr ⟨e, he, rfl⟩, ((fixRead_iff (fix_isFix es e he) _).mp hx).1⟩)
  rw [if_neg (by rcases h.old with rfl | rfl <;> simp), List.zip_map', List.zip_map', d2, m2] at hp
  refine ⟨FileData.addDataTime ?d (893 / 100), ?h1, ?h2, ?h3, ?h4⟩
  case h1 =>
    unfold readSingle
    rw [if_neg (by rcases h.old with rfl | rfl <;> simp), hro]
    unfold tryReaders
    simp only [Except.bind]
    rw [hp]
    simp only
    rw [if_neg, show timeCorrection version = some (893 / 100) by rcases h.old with rfl | rfl <;> simp [timeCorrection]]
    rintro ⟨h1, h2⟩
    obtain ⟨e, he, hx⟩ := hg h2
    rw [h1] at hfr
    have h3 := List.forall₂_nil_right_iff.mp hfr
    have : e ∈ (es.filterMap OldEvent.fix).filter fun e => decide (∃ t, e.FixAt t) :=
      List.mem_filter.mpr ⟨he, by simpa using hx⟩
    rw [h3] at this; simp at this
  case h2 =>
    unfold FileData.addDataTime
    simp only [List.map_map]
    rfl
  case h3 => rfl
  case h4 => exact hfr

/-! ## Losses and failures -/

theorem oldText_shift (header : List (List Nat)) (e : OldEvent) (es : List OldEvent) :
    oldText header (e :: es) = oldText (header ++ [e.line.body]) es := by
  unfold oldText
  simp

open Classical in
/-- **C90, violated.** The reader skips six lines whatever they hold: in a file whose header has five lines, the first line of data is lost, and the
file is read without any error as if that line were not there. -/
theorem C90_violated_short_header (em : Bool) (cython pandas : Except Exc Table) (version : String) (start : Rat) (header : List (List Nat))
    (first : OldEvent) (es : List OldEvent) (rg : Bool) (_ : header.length = 5)
    (h : OldFile version start (header ++ [first.line.body]) es) (hg : rg = true → ∃ e ∈ es.filterMap OldEvent.fix, ∃ t, e.FixAt t) :
    ∃ fd, readSingle em ⟨cython, pandas, readOld (some (oldText header (first :: es))) rg⟩ start rg version = .ok fd ∧
      fd.data = (es.filterMap OldEvent.sample).map (fun q => (((⌊q.1⌋ : Int) : Rat) + 893 / 100, some (q.2 : Rat))) ∧
      fd.metadata = (es.filterMap OldEvent.status).map (fun q => (((⌊q.1⌋ : Int) : Rat), q.2.map some)) ∧
      List.Forall₂ FixRead ((es.filterMap OldEvent.fix).filter fun e => decide (∃ t, e.FixAt t)) fd.gps := by
  rw [oldText_shift]
  exact C90_old_file em cython pandas version start _ es rg h hg

/-- **C90 (failures).** In formats 0.8 and 0.85: a file that does not exist is corrupt; one without a line after the first six is empty; one
without a fix line is refused if GPS is required; and one with a data line whose count is text (not a number, not missing) is corrupt as a whole. -/
theorem C90_failures (em : Bool) (cython pandas : Except Exc Table) (version : String) (hv : version = "0.8" ∨ version = "0.85") (start : Rat)
    (rg : Bool) :
    readSingle em ⟨cython, pandas, readOld none rg⟩ start rg version = .error .corrupt ∧
    (∀ lines : List (List Nat), lines.length ≤ 6 → (∀ l ∈ lines, PlainText l) →
      readSingle em ⟨cython, pandas, readOld (some (lines.map fun l => l ++ [10]).flatten) rg⟩ start rg version = .error .emptyRaw) ∧
    (∀ header es, OldFile version start header es → es.filterMap OldEvent.fix = [] → rg = true →
      readSingle em ⟨cython, pandas, readOld (some (oldText header es)) rg⟩ start rg version = .error .noGPS) ∧
    (∀ (header lines : List (List Nat)) (c : Nat) (count : List Nat) (more : List Field), header.length = 6 →
      (∀ l ∈ header ++ lines, PlainText l) → (c = 68 ∨ c = 71 ∨ c = 77) → (∀ b ∈ count, b ≠ 44) → more.length ≤ 12 →
      count ∉ naValues → pyFloat count = none →
      [c] ++ 44 :: count ++ (more.map fun f => 44 :: f.text).flatten ∈ lines →
      readSingle em ⟨cython, pandas, readOld (some ((header ++ lines).map fun l => l ++ [10]).flatten) rg⟩ start rg version
        = .error .corrupt) := by
  have hread : ∀ x : Except Exc Table, readSingle em ⟨cython, pandas, x⟩ start rg version = tryReaders em start rg version [x] := by
    intro x
    unfold readSingle
    rw [if_neg (by rcases hv with rfl | rfl <;> simp)]
  refine ⟨?_, ?_, ?_, ?_⟩
  · rw [hread]; rfl
  · intro lines hl hp
    have : readOld (some (lines.map fun l => l ++ [10]).flatten) rg = .error .emptyRaw := by
      unfold readOld
      simp only
      rw [if_pos]
      unfold pdRows
      rw [pdLines_flat _ (fun l hl b hb => ⟨(hp l hl b hb).1, (hp l hl b hb).2.1, (hp l hl b hb).2.2.1⟩)]
      have : ((lines ++ [[]]).drop 6) = [] ∨ ((lines ++ [[]]).drop 6) = [[]] := by
        rcases Nat.lt_or_eq_of_le hl with h | h
        · left; apply List.drop_eq_nil_of_le; simp; omega
        · right; rw [← h, List.drop_left]
      rcases this with h | h <;> rw [h] <;> rfl
    rw [hread, this]; rfl
  · intro header es h hf hr
    have : readOld (some (oldText header es)) rg = .error .noGPS := by
      have hro := readOld_file h false (by simp)
      unfold readOld at hro ⊢
      simp only at hro ⊢
      by_cases h1 : pdRows 15 (oldText header es) = []
      · rw [if_pos h1] at hro; cases hro
      rw [if_neg h1] at hro ⊢
      by_cases h2 : (List.filterMap oldRow (pdRows 15 (oldText header es))).any oldBad = true
      · rw [if_pos h2] at hro; cases hro
      rw [if_neg h2] at hro ⊢
      rw [if_neg (by simp)] at hro
      rw [if_pos]
      refine ⟨?_, hr⟩
      have : (List.filterMap oldTRow (List.filterMap oldRow (pdRows 15 (oldText header es)))) = (oldData es).map fun e => e.line.trow := by
        simpa using hro
      rw [this]
      intro r hr
      obtain ⟨e, he, rfl⟩ := List.mem_map.mp hr
      have hfe := List.filterMap_eq_nil_iff.mp hf e (List.mem_filter.mp he).1
      have h2 := (List.mem_filter.mp he).2
      rcases e with ⟨T, line⟩
      cases line <;> simp [OldEvent.fix, OldLine.kind, OldLine.trow] at hfe h2 ⊢
    rw [hread, this]; rfl
  · intro header lines c count more hh hp hc hcomma hm hna hnum hin
    have hsplit : splitComma ([c] ++ 44 :: count ++ (more.map fun f => 44 :: f.text).flatten) = [c] :: count :: more.map Field.text := by
      cases more with
      | nil =>
        simp only [List.map_nil, List.flatten_nil, List.append_nil]
        rw [splitComma_comma, splitComma_plain _ hcomma]
        intro b hb; simp at hb; omega
      | cons f fs =>
        have : ∀ (f : Field) (fs : List Field), joinFields (f :: fs) = f.text ++ (fs.map fun f => 44 :: f.text).flatten := by
          intro f fs
          induction fs generalizing f with
          | nil => simp [joinFields]
          | cons g gs ih => rw [joinFields, ih g]; simp; simp
        rw [show [c] ++ 44 :: count ++ ((f :: fs).map fun f => 44 :: f.text).flatten = [c] ++ 44 :: (count ++ 44 :: joinFields (f :: fs)) by
          rw [this]; simp, splitComma_comma, splitComma_comma _ _ hcomma]
        · have := split_join f fs [] (by simp)
          rw [List.nil_append] at this
          rw [this]; rfl
        · intro b hb; simp at hb; omega
    have hk : ∃ k, letterKind c = some k := by rcases hc with rfl | rfl | rfl <;> exact ⟨_, rfl⟩
    obtain ⟨k, hk⟩ := hk
    have hrow : bodyRow 15 ([c] ++ 44 :: count ++ (more.map fun f => 44 :: f.text).flatten) = some ([c] :: count :: more.map Field.text) := by
      unfold bodyRow
      have ht : pdTrim ([c] ++ 44 :: count ++ (more.map fun f => 44 :: f.text).flatten)
          = [c] ++ 44 :: count ++ (more.map fun f => 44 :: f.text).flatten := pdTrim_cons (by omega)
      rw [ht, hsplit, if_neg (by simp), if_pos (by simp; omega)]
    have hrows := pdRows_flat 15 header lines hh (fun l hl b hb => ⟨(hp l hl b hb).1, (hp l hl b hb).2.1, (hp l hl b hb).2.2.1⟩)
    have hmem : ([c] :: count :: more.map Field.text) ∈ lines.filterMap (bodyRow 15) := List.mem_filterMap.mpr ⟨_, hin, hrow⟩
    have : readOld (some ((header ++ lines).map fun l => l ++ [10]).flatten) rg = .error .other := by
      unfold readOld
      simp only
      rw [hrows, if_neg (by intro h0; rw [h0] at hmem; simp at hmem), if_pos]
      apply List.any_eq_true.mpr
      refine ⟨(k, pdCell count :: (more.map Field.text).map pdCell), List.mem_filterMap.mpr ⟨_, hmem, ?_⟩, ?_⟩
      · rw [oldRow, hk]; rfl
      · unfold oldBad pdCell
        rw [if_neg hna, hnum]
        rfl
    rw [hread, this]; rfl

theorem naValue_cell {s : List Nat} (h : s ∈ naValues) : pdCell s = .nan := by unfold pdCell; rw [if_pos h]

/-- **C90 (lines without count).** A data line whose count is missing (empty, `NA`, `nan`, ...) changes nothing: whatever the other lines are, as long as there
is one with at most fifteen fields, the file is read (or refused) as without it. -/
theorem C90_uncounted (em : Bool) (cython pandas : Except Exc Table) (version : String) (start : Rat)
    (rg : Bool) (header a b : List (List Nat)) (c : Nat) (count : List Nat) (more : List Field) (hh : header.length = 6)
    (hp : ∀ l ∈ header ++ (a ++ ([c] ++ 44 :: count ++ (more.map fun f => 44 :: f.text).flatten) :: b), PlainText l)
    (hc : c = 68 ∨ c = 71 ∨ c = 77) (hna : count ∈ naValues) (hm : more.length ≤ 12)
    (hother : ∃ l ∈ a ++ b, (∃ ch ∈ l, ch ≠ 32 ∧ ch ≠ 9) ∧ (splitComma (pdTrim l)).length ≤ 15) :
    readSingle em ⟨cython, pandas, readOld (some ((header ++ (a ++ ([c] ++ 44 :: count ++ (more.map fun f => 44 :: f.text).flatten) :: b)).map
        fun l => l ++ [10]).flatten) rg⟩ start rg version =
      readSingle em ⟨cython, pandas, readOld (some ((header ++ (a ++ b)).map fun l => l ++ [10]).flatten) rg⟩ start rg version := by
  have hcomma : ∀ b ∈ count, b ≠ 44 := by
    have : ∀ s ∈ naValues, ∀ b ∈ s, b ≠ 44 := by decide +kernel
    exact this count hna
  have hsplit : splitComma ([c] ++ 44 :: count ++ (more.map fun f => 44 :: f.text).flatten) = [c] :: count :: more.map Field.text := by
    cases more with
    | nil =>
      simp only [List.map_nil, List.flatten_nil, List.append_nil]
      rw [splitComma_comma, splitComma_plain _ hcomma]
      intro b hb; simp at hb; omega
    | cons f fs =>
      have : ∀ (f : Field) (fs : List Field), joinFields (f :: fs) = f.text ++ (fs.map fun f => 44 :: f.text).flatten := by
        intro f fs
        induction fs generalizing f with
        | nil => simp [joinFields]
        | cons g gs ih => rw [joinFields, ih g]; simp; simp
      rw [show [c] ++ 44 :: count ++ ((f :: fs).map fun f => 44 :: f.text).flatten = [c] ++ 44 :: (count ++ 44 :: joinFields (f :: fs)) by
        rw [this]; simp, splitComma_comma, splitComma_comma _ _ hcomma]
      · have := split_join f fs [] (by simp)
        rw [List.nil_append] at this
        rw [this]; rfl
      · intro b hb; simp at hb; omega
  obtain ⟨k, hk⟩ : ∃ k, letterKind c = some k := by rcases hc with rfl | rfl | rfl <;> exact ⟨_, rfl⟩
  have hrow : bodyRow 15 ([c] ++ 44 :: count ++ (more.map fun f => 44 :: f.text).flatten) = some ([c] :: count :: more.map Field.text) := by
    unfold bodyRow
    have ht : pdTrim ([c] ++ 44 :: count ++ (more.map fun f => 44 :: f.text).flatten)
        = [c] ++ 44 :: count ++ (more.map fun f => 44 :: f.text).flatten := pdTrim_cons (by omega)
    rw [ht, hsplit, if_neg (by simp), if_pos (by simp; omega)]
  have hp' : ∀ l ∈ header ++ (a ++ b), PlainText l := by
    intro l hl
    apply hp
    simp only [List.mem_append, List.mem_cons] at hl ⊢
    tauto
  have hrows := pdRows_flat 15 header _ hh (fun l hl b hb => ⟨(hp l hl b hb).1, (hp l hl b hb).2.1, (hp l hl b hb).2.2.1⟩)
  have hrows' := pdRows_flat 15 header _ hh (fun l hl b hb => ⟨(hp' l hl b hb).1, (hp' l hl b hb).2.1, (hp' l hl b hb).2.2.1⟩)
  have hne : (a ++ b).filterMap (bodyRow 15) ≠ [] := by
    obtain ⟨l, hl, ⟨ch, hch, hch'⟩, hl2⟩ := hother
    intro h0
    have := List.filterMap_eq_nil_iff.mp h0 l hl
    unfold bodyRow at this
    rw [if_neg, if_pos hl2] at this
    · cases this
    · intro ht
      unfold pdTrim at ht
      rw [List.dropWhile_eq_nil_iff] at ht
      have := ht ch hch
      simp at this
      omega
  have key : readOld (some ((header ++ (a ++ ([c] ++ 44 :: count ++ (more.map fun f => 44 :: f.text).flatten) :: b)).map
      fun l => l ++ [10]).flatten) rg = readOld (some ((header ++ (a ++ b)).map fun l => l ++ [10]).flatten) rg := by
    unfold readOld
    simp only
    rw [hrows, hrows']
    have hor : oldRow ([c] :: count :: more.map Field.text) = some (k, .nan :: (more.map Field.text).map pdCell) := by
      rw [oldRow, hk, Option.map_some, List.map_cons, naValue_cell hna]
    have e1 : (a ++ ([c] ++ 44 :: count ++ (more.map fun f => 44 :: f.text).flatten) :: b).filterMap (bodyRow 15) =
        a.filterMap (bodyRow 15) ++ ([c] :: count :: more.map Field.text) :: b.filterMap (bodyRow 15) := by
      rw [List.filterMap_append, List.filterMap_cons_some hrow]
    rw [e1, if_neg (by simp), if_neg hne]
    rw [List.filterMap_append (l := a.filterMap (bodyRow 15)), List.filterMap_cons_some hor, List.filterMap_append (l := a),
      List.filterMap_append (l := a.filterMap (bodyRow 15))]
    have e2 : ∀ (x y : List (Kind × List Cell)) (r : Kind × List Cell), oldBad r = false → oldTRow r = none →
        ((x ++ r :: y).any oldBad = (x ++ y).any oldBad ∧ (x ++ r :: y).filterMap oldTRow = (x ++ y).filterMap oldTRow) := by
      intro x y r h1 h2
      simp [List.any_append, h1, List.filterMap_append, List.filterMap_cons_none h2]
    obtain ⟨e3, e4⟩ := e2 ((a.filterMap (bodyRow 15)).filterMap oldRow) ((b.filterMap (bodyRow 15)).filterMap oldRow)
      (k, .nan :: (more.map Field.text).map pdCell) rfl rfl
    rw [e3, e4]
  rw [key]

/-- A sample without a count among other lines. -/
example : bytes "NA" ∈ naValues ∧ PlainText (bytes "D,NA,5") ∧
    [68] ++ 44 :: bytes "NA" ++ (([.int 5] : List Field).map fun f => 44 :: f.text).flatten = bytes "D,NA,5" ∧
    (splitComma (pdTrim (bytes "D,10,5"))).length ≤ 15 := by
  unfold PlainText
  decide +kernel

theorem pdLinesGo_crlf : ∀ (body cur rest : List Nat), (∀ b ∈ body, b ≠ 10 ∧ b ≠ 13) →
    pdLinesGo cur (body ++ 13 :: 10 :: rest) = (cur ++ body) :: pdLinesGo [] rest := by
  intro body
  induction body with
  | nil =>
    intro cur rest _
    rw [List.nil_append, List.append_nil, pdLinesGo]
  | cons b l ih =>
    intro cur rest h
    have hb := h b (by simp)
    rw [List.cons_append, pdLinesGo, if_neg (by tauto), ih _ _ (fun x hx => h x (by simp [hx]))]
    · simp
    · intro l' h1; omega

/-- **C90, C91 (line ends).** It makes no difference to these readers whether a line ends with a line feed or with a carriage return and a line feed: a file
in which some lines end one way and some the other is read, or refused, as the file with line feeds only. -/
theorem C90_line_ends (ls : List (List Nat × Bool)) (rg : Bool) (h : ∀ l ∈ ls, PlainText l.1) :
    readOld (some (ls.map fun l => l.1 ++ if l.2 then [13, 10] else [10]).flatten) rg =
      readOld (some (ls.map fun l => l.1 ++ [10]).flatten) rg ∧
    readPandas (some (ls.map fun l => l.1 ++ if l.2 then [13, 10] else [10]).flatten) rg =
      readPandas (some (ls.map fun l => l.1 ++ [10]).flatten) rg := by
  have hlines : pdLines (ls.map fun l => l.1 ++ if l.2 then [13, 10] else [10]).flatten = pdLines (ls.map fun l => l.1 ++ [10]).flatten := by
    have hl := pdLines_flat (ls.map Prod.fst) (by
      intro l hl b hb
      obtain ⟨q, hq, rfl⟩ := List.mem_map.mp hl
      exact ⟨(h q hq b hb).1, (h q hq b hb).2.1, (h q hq b hb).2.2.1⟩)
    rw [List.map_map] at hl
    rw [show (ls.map fun l => l.1 ++ [10]) = ls.map ((fun l => l ++ [10]) ∘ Prod.fst) from rfl, hl]
    unfold pdLines
    clear hl
    induction ls with
    | nil => rfl
    | cons l ls ih =>
      have h1 := h l (by simp)
      have hf : (l.1.filter fun b => decide (b < 128)) = l.1 := by
        rw [List.filter_eq_self]
        intro b hb
        simpa using (h1 b hb).1
      have h2 : ∀ b ∈ l.1, b ≠ 10 ∧ b ≠ 13 := fun b hb => ⟨(h1 b hb).2.1, (h1 b hb).2.2.1⟩
      have := ih (fun x hx => h x (by simp [hx]))
      rw [List.map_cons, List.flatten_cons, List.filter_append, List.filter_append, hf]
      cases hl2 : l.2
      · have e : (List.filter (fun b => decide (b < 128)) (if false = true then [13, 10] else [10])) = [10] := rfl
        rw [e, List.append_assoc, List.cons_append, List.nil_append, pdLinesGo_line _ _ _ h2, this]
        rfl
      · have e : (List.filter (fun b => decide (b < 128)) (if true = true then [13, 10] else [10])) = [13, 10] := rfl
        rw [e, List.append_assoc, List.cons_append, List.cons_append, List.nil_append, pdLinesGo_crlf _ _ _ h2, this]
        rfl
  have hrows : ∀ n, pdRows n (ls.map fun l => l.1 ++ if l.2 then [13, 10] else [10]).flatten = pdRows n (ls.map fun l => l.1 ++ [10]).flatten := by
    intro n
    unfold pdRows
    rw [hlines]
  constructor
  · unfold readOld
    simp only [hrows]
  · unfold readPandas
    simp only [hrows]

example : PlainText (bytes "D,10,5") ∧ PlainText (bytes "#GemCSV0.8") := by
  unfold PlainText
  decide +kernel

/-- **C90, violated.** Counts are cut to whole milliseconds: a fix printed with a fraction is placed before its true time. -/
theorem C90_violated_fraction (em : Bool) (cython pandas : Except Exc Table) (version : String) (start : Rat) (header : List (List Nat))
    (es : List OldEvent) (rg : Bool) (h : OldFile version start header es) (e : Event) (he : e ∈ es.filterMap OldEvent.fix)
    (hx : ∃ t, e.FixAt t) (hT : ∀ z : Int, e.T ≠ z) :
    ∃ fd, readSingle em ⟨cython, pandas, readOld (some (oldText header es)) rg⟩ start rg version = .ok fd ∧
      ∃ f ∈ fd.gps, FixRead e f ∧ f.msPPS < e.T := by
  classical
  obtain ⟨fd, h1, _, _, h4⟩ := C90_old_file em cython pandas version start header es rg h (fun _ => ⟨e, he, hx⟩)
  refine ⟨fd, h1, ?_⟩
  have hin : e ∈ (es.filterMap OldEvent.fix).filter fun e => decide (∃ t, e.FixAt t) := List.mem_filter.mpr ⟨he, by simpa using hx⟩
  obtain ⟨i, hi, rfl⟩ := List.mem_iff_getElem.mp hin
  have h5 := List.forall₂_iff_get.mp h4
  have hj := h5.1 ▸ hi
  have h6 := h5.2 i hi hj
  simp only [List.get_eq_getElem] at h6
  refine ⟨fd.gps[i], List.getElem_mem _, h6, ?_⟩
  generalize hG : ((es.filterMap OldEvent.fix).filter fun e => decide (∃ t, e.FixAt t))[i] = e at h6 hT ⊢
  generalize fd.gps[i] = f at h6 ⊢
  have hlt : ((⌊e.T⌋ : Int) : Rat) < e.T := lt_of_le_of_ne (Int.floor_le _) (fun h => hT _ h.symm)
  rcases e with ⟨T, line⟩
  cases line with
  | fix ms lag yr mo day hr mn sec lat lon =>
    obtain ⟨t, _, rfl⟩ := h6
    exact hlt
  | _ => exact h6.elim

/-! ## A file -/

def demoOldHeader : List (List Nat) :=
  [bytes "#GemCSV0.8", bytes "#D,msSamp,ADC", bytes "#G,msPPS,msLag,yr,mo,day,hr,min,sec,lat,lon", bytes "#M,ms,batt", bytes "S,014", []]

/-- Four lines across a rollover of the counter, the fix with a fraction, and a stray character. -/
def demoOldEvents : List OldEvent :=
  [⟨65530, .sample (.ofNat 65530) 1200⟩, ⟨65534, .status (.ofNat 65534) (List.replicate 9 (.int 7))⟩, ⟨0, .other (bytes "P")⟩,
   ⟨65540 + 3 / 4, .fix ⟨false, 4, bytes "75", by decide⟩ (.ofNat 70) 2016 7 6 3 19 (.ofNat 18) (.ofNat 43) ⟨true, 116, [], by simp⟩⟩,
   ⟨65545, .sample (.ofNat 9) 1203⟩]

theorem demoOldTimes : oldTimes demoOldEvents = [65530, 65534, 65540 + 3 / 4, 65545] := rfl

theorem floor_demo : ⌊(65540 + 3 / 4 : Rat)⌋ = 65540 := by
  rw [Int.floor_eq_iff]; norm_num

/-- The hypotheses of C90 are met. -/
theorem demoOldFile : OldFile "0.8" 65000 demoOldHeader demoOldEvents := by
  refine ⟨.inl rfl, ⟨rfl, ?_⟩, ?_, ?_, ?_, ?_, by decide, by decide⟩
  · intro l hl
    simp only [demoOldHeader, List.mem_cons, List.not_mem_nil, or_false] at hl
    rcases hl with rfl | rfl | rfl | rfl | rfl | rfl <;> unfold PlainText <;> decide +kernel
  · intro e he
    simp only [demoOldEvents, List.mem_cons, List.not_mem_nil, or_false] at he
    rcases he with rfl | rfl | rfl | rfl | rfl
    · trivial
    · rfl
    · refine ⟨by unfold PlainText; decide +kernel, ?_⟩
      rintro ⟨pre, c, rest, h1, h2, h3, h4⟩
      cases pre with
      | nil => simp [bytes] at h1; omega
      | cons b pre => simp [bytes] at h1
    · trivial
    · trivial
  · intro e he c hc
    simp only [demoOldEvents, List.mem_cons, List.not_mem_nil, or_false] at he
    rcases he with rfl | rfl | rfl | rfl | rfl <;> simp only [OldLine.count, Option.some.injEq, reduceCtorEq] at hc <;> subst hc
    · refine ⟨?_, ?_, 0, ?_⟩ <;> rw [ofNat_val] <;> norm_num
    · refine ⟨?_, ?_, 0, ?_⟩ <;> rw [ofNat_val] <;> norm_num
    · have : Dec.val ⟨false, 4, bytes "75", by decide⟩ = 4 + 3 / 4 := by decide +kernel
      refine ⟨?_, ?_, 1, ?_⟩ <;> rw [this] <;> norm_num
    · refine ⟨?_, ?_, 1, ?_⟩ <;> rw [ofNat_val] <;> norm_num
  · rw [demoOldTimes]
    simp only [List.isChain_cons_cons, List.IsChain.singleton, and_true, floor_demo]
    refine ⟨?_, ?_, ?_⟩ <;> norm_num
  · rw [demoOldTimes]
    intro x hx
    simp at hx
    subst hx
    norm_num

/-- Its fix is sensible, and has a fraction. -/
example : ∃ e ∈ demoOldEvents.filterMap OldEvent.fix, (∃ t, e.FixAt t) ∧ ∀ z : Int, e.T ≠ z := by
  refine ⟨_, List.mem_singleton.mpr rfl, ⟨1467775158, ?_⟩, ?_⟩
  · refine ⟨?_, ?_, ?_, ?_, 18, ?_, ?_, ?_⟩
    · simp [ofNat_val]; norm_num
    · simp [Dec.val, digitsVal]; norm_num
    · simp [ofNat_val]; norm_num
    · norm_num
    · simp [ofNat_val]
    · exact ⟨by norm_num, by norm_num, ⟨by norm_num, true, by simp [LeapYear], by decide⟩, by norm_num, by norm_num, by norm_num⟩
    · decide +kernel
  · intro z h
    have h1 : ((65540 : Int) : Rat) < z := by rw [← h]; norm_num
    have h2 : (z : Rat) < ((65541 : Int) : Rat) := by rw [← h]; norm_num
    have := Int.cast_lt.mp h1
    have := Int.cast_lt.mp h2
    omega

example : (readOld (some (oldText demoOldHeader demoOldEvents)) true).toOption
    = some ⟨false, [⟨.D, 65530, [.num 65530, .num 1200]⟩, ⟨.M, 65534, .num 65534 :: List.replicate 9 (.num 7)⟩,
      ⟨.G, 4, [.num (19 / 4), .num 70, .num 2016, .num 7, .num 6, .num 3, .num 19, .num 18, .num 43, .num (-116)]⟩,
      ⟨.D, 9, [.num 9, .num 1203]⟩]⟩ := by
  decide +kernel

/-- A damaged count. -/
example : bytes "65x3" ∉ naValues ∧ pyFloat (bytes "65x3") = none ∧
    (readOld (some ((demoOldHeader ++ [bytes "D,65x3,1200", bytes "G,5"]).map fun l => l ++ [10]).flatten) true).toOption = none := by
  decide +kernel

/-- The header of the violated case. -/
example : OldFile "0.8" 65000 (demoOldHeader.take 5 ++ [(OldEvent.mk 65520 (.sample (.ofNat 65520) 1190)).line.body]) demoOldEvents :=
  { demoOldFile with
    head := by
      refine ⟨rfl, ?_⟩
      intro l hl
      simp only [demoOldHeader, List.take, List.cons_append, List.nil_append, List.mem_cons, List.not_mem_nil, or_false] at hl
      rcases hl with rfl | rfl | rfl | rfl | rfl | rfl <;> unfold PlainText <;> decide +kernel }

end Gemlog
