import Verif.Props.OldReader
import Verif.Spec.Fallback

/-!
# Property C91: the reader that takes over when the compiled one fails
-/

namespace Gemlog

/-! ## Rows -/

/-- The event at the whole milliseconds of its time (helper). -/
def Event.whole (e : Event) : Event := ⟨((⌊e.T⌋ : Int) : Rat), e.line⟩

/-- The fields after the letter (helper). -/
def LogLine.printed : LogLine → List Field
  | .sample _ z => [.int z]
  | .letters .. => []
  | .fix ms lag yr mo day hr mn sec lat lon =>
    [.dec ms, .dec lag, .int yr, .int mo, .int day, .int hr, .int mn, .dec sec, .dec lat, .dec lon]
  | .status ms batt temp a2 a3 maxLag minFree maxUsed maxOver gpsFlag fs1 fsIdle =>
    [.dec ms, .dec batt, .dec temp, .dec a2, .dec a3, .int maxLag, .int minFree, .int maxUsed, .int maxOver, .int gpsFlag, .int fs1,
      .int fsIdle]
  | .other _ => []

/-- The row of the table (helper). -/
def Event.prow (e : Event) : TRow :=
  ⟨e.kind.getD .D, (⌊e.line.count.getD 0⌋ : Int), (e.line.printed.map Field.val).map .num⟩

/-- Rows with their times (helper). -/
def pZip (es : List Event) : List (Rat × TRow) := (dataEvents es).map fun e => (e.T, e.prow)

theorem pZip_kind {β : Type} (k : Kind) (f : Rat × TRow → Option β) (g : Event → β)
    (hf : ∀ e : Event, (∀ x y, e.line ≠ .letters x y) → e.kind = some k → f (e.T, e.prow) = some (g e)) :
    ∀ es : List Event, (∀ e ∈ es, ∀ x y, e.line ≠ .letters x y) →
    ((pZip es).filter fun p => p.2.kind == k).map Prod.fst = (es.filter fun e => e.kind == some k).map Event.T ∧
    ((pZip es).filter fun p => p.2.kind == k).mapM f = some ((es.filter fun e => e.kind == some k).map g) := by
  intro es
  induction es with
  | nil => intro _; exact ⟨rfl, rfl⟩
  | cons e es ih =>
    intro hl
    obtain ⟨i1, i2⟩ := ih (fun x hx => hl x (by simp [hx]))
    have hle := hl e (by simp)
    unfold pZip at i1 i2 ⊢
    rw [dataEvents_cons]
    by_cases ho : e.isOther = true
    · rw [if_pos ho]
      have : e.kind = none := by
        rcases e with ⟨T, line⟩
        cases line <;> simp [Event.isOther] at ho <;> rfl
      rw [List.filter_cons_of_neg (by simp [this])]
      exact ⟨i1, i2⟩
    · rw [if_neg ho, List.map_cons]
      obtain ⟨k', hk'⟩ : ∃ k', e.kind = some k' := by
        rcases e with ⟨T, line⟩
        cases line <;> simp [Event.isOther] at ho <;> exact ⟨_, rfl⟩
      have hp : e.prow.kind = k' := by unfold Event.prow; rw [hk']; rfl
      by_cases hkk : k' = k
      · subst hkk
        rw [List.filter_cons_of_pos (by simp [hp]), List.filter_cons_of_pos (by simp [hk'])]
        refine ⟨by rw [List.map_cons, List.map_cons, i1], ?_⟩
        rw [List.mapM_cons, hf e hle hk', i2]
        rfl
      · rw [List.filter_cons_of_neg (by simp [hp, hkk]), List.filter_cons_of_neg (by simp [hk', hkk])]
        exact ⟨i1, i2⟩

/-- What the last step makes of the table (helper). -/
theorem process_prows {offset : Rat} {es : List Event} (hl : ∀ e ∈ es, ∀ x y, e.line ≠ .letters x y)
    (hms : correctedMillis 8192 offset ((dataEvents es).map fun e => e.prow.saw) = some ((dataEvents es).map Event.T))
    (hsamples : sampleTimes es ≠ []) (hstatus : ∃ e ∈ es, e.isStatus = true) (em rg : Bool)
    (hfix : rg = true → ∃ e ∈ es, e.isFix = true ∧ gpsInBounds e.grawD = true) :
    processData em ⟨false, (dataEvents es).map Event.prow⟩ offset "0.9" rg = .ok
      ⟨(sampleTimes es).zip ((pressuresOf es).map fun z : Int => some (z : Rat)),
        ((es.filter Event.isStatus).map Event.T).zip ((es.filter Event.isStatus).map fun e => e.vals.map some),
        (((es.filter Event.isFix).map Event.grawD).filter gpsInBounds).filterMap withTime⟩ := by
  obtain ⟨d1, d2⟩ := pZip_kind .D (fun p => (p.2.col 1).toNumeric) (fun e => some ((e.step.getD 0 : Int) : Rat)) (by
    intro e hle hk
    rcases e with ⟨T, line⟩
    cases line with
    | letters x y => exact absurd rfl (hle x y)
    | sample ms z => rfl
    | _ => simp [Event.kind] at hk) es hl
  obtain ⟨m1, m2⟩ := pZip_kind .M (fun p => (List.range (numMCols "0.9" - 1)).mapM fun j => (p.2.col (j + 2)).toNumeric)
    (fun e => e.vals.map some) (by
    intro e hle hk
    rcases e with ⟨T, line⟩
    have hr : List.range (numMCols "0.9" - 1) = [0, 1, 2, 3, 4, 5, 6, 7, 8, 9, 10] := by decide
    cases line <;> simp [Event.kind] at hk
    simp [hr, TRow.col, Event.prow, LogLine.printed, Event.vals, Cell.toNumeric, List.mapM_cons, Field.val]) es hl
  obtain ⟨g1, g2⟩ := pZip_kind .G (fun p => gRow p.1 p.2) Event.grawD (by
    intro e hle hk
    rcases e with ⟨T, line⟩
    cases line <;> simp [Event.kind] at hk
    simp [TRow.col, Event.prow, LogLine.printed, gRow, Cell.toNumeric, Event.grawD, Event.graw, Field.val]) es hl
  simp only [isD_iff] at d1 d2
  simp only [isM_iff] at m1 m2
  simp only [isG_iff] at g2
  have e2 : (es.filter fun e => e.step.isSome).map (fun e => some ((e.step.getD 0 : Int) : Rat))
      = (es.filterMap Event.step).map fun z : Int => some (z : Rat) := by
    clear hms hsamples hstatus hfix d1 d2 m1 m2 g1 g2 hl
    induction es with
    | nil => rfl
    | cons e evs ih =>
      cases hs : e.step with
      | none => rw [List.filter_cons_of_neg (by simp [hs]), ih, List.filterMap_cons, hs]
      | some z => rw [List.filter_cons_of_pos (by simp [hs]), List.map_cons, ih, List.filterMap_cons, hs]; simp
  rw [e2] at d2
  have hz : ((dataEvents es).map Event.T).zip ((dataEvents es).map Event.prow) = pZip es := by
    rw [List.zip_map']; rfl
  have hp := process_table (em := em) (rg := rg) (table := ⟨false, (dataEvents es).map Event.prow⟩) (offset := offset)
    (version := "0.9") (R := 8192) (rows := pZip es) (dcol := 1) (by simp [rolloverOf]; norm_num)
    (by rw [List.map_map]; exact hms) hz (by simp)
    (by intro h0; rw [h0] at d1; exact hsamples d1.symm)
    (by
      intro h0
      rw [h0] at m1
      obtain ⟨e, he, hk⟩ := hstatus
      have : e ∈ es.filter Event.isStatus := List.mem_filter.mpr ⟨he, hk⟩
      rw [List.map_eq_nil_iff.mp m1.symm] at this
      simp at this)
    d2 m2 g2 (by
      intro hr
      obtain ⟨e, he, h1, h2⟩ := hfix hr
      exact ⟨_, List.mem_map.mpr ⟨e, List.mem_filter.mpr ⟨he, h1⟩, rfl⟩, h2⟩)
  have hcs := cumsumNaN_some (es.filterMap Event.step) 0
  rw [Int.cast_zero] at hcs
  rw [hp, if_pos (by simp), hcs, d1, m1]
  rfl

/-! ## Lines -/

theorem tabular_plain {l : LogLine} (h : l.Tabular) : l.Plain := by
  cases l with
  | letters => exact h
  | other body =>
    intro b hb
    have h1 := h.1 b hb
    have h2 := h.2.1 b hb
    exact ⟨by omega, h2.1, h2.2.2.1⟩
  | _ => trivial

/-- The text of a line without its end (helper). -/
def LogLine.bodyText (l : LogLine) : List Nat := l.text.dropLast

theorem bodyText_eq {l : LogLine} {b : List Nat} (h : l.text = b ++ [10]) : l.bodyText = b := by
  unfold LogLine.bodyText
  rw [h, List.dropLast_concat]

theorem bodyText_plain {l : LogLine} (h : l.Valid ∧ l.Plain) :
    l.text = l.bodyText ++ [10] ∧ (∀ b ∈ l.bodyText, b < 128 ∧ b ≠ 10 ∧ b ≠ 13) ∧ splitComma l.bodyText = l.fields := by
  obtain ⟨body, h1, h2, h3⟩ := text_plain l h
  have : l.bodyText = body := by unfold LogLine.bodyText; rw [h1]; simp
  rw [this]
  exact ⟨h1, h2, h3⟩

theorem bodyText_spec {l : LogLine} (h : l.Valid ∧ l.Tabular) :
    l.text = l.bodyText ++ [10] ∧ (∀ b ∈ l.bodyText, b < 128 ∧ b ≠ 10 ∧ b ≠ 13) ∧ splitComma l.bodyText = l.fields :=
  bodyText_plain ⟨h.1, tabular_plain h.2⟩

theorem noDigit_noNumber {c : Nat} (hc : 58 ≤ c) (l : List Nat) : pyFloat (c :: l) = none := by
  have hsp : isSpace c = false := by simp [isSpace]; omega
  have hd : isDigit c = false := by simp [isDigit]; omega
  unfold pyFloat
  have hs : ∃ l', strip (c :: l) = c :: l' := by
    unfold strip
    rw [List.dropWhile_cons_of_neg (by simp [hsp]), List.reverse_cons]
    have : ∀ r : List Nat, ∃ r', (r ++ [c]).dropWhile isSpace = r' ++ [c] := by
      intro r
      induction r with
      | nil => exact ⟨[], by simp [hsp]⟩
      | cons b r ih =>
        by_cases hb : isSpace b = true
        · rw [List.cons_append, List.dropWhile_cons_of_pos hb]; exact ih
        · rw [List.cons_append, List.dropWhile_cons_of_neg hb]; exact ⟨b :: r, rfl⟩
    obtain ⟨r', hr'⟩ := this l.reverse
    exact ⟨r'.reverse, by rw [hr']; simp⟩
  obtain ⟨l', hl'⟩ := hs
  rw [hl']
  have : scanLf (c :: l') = none := by
    unfold scanLf
    rw [List.dropWhile_cons_of_neg (by simp [hsp])]
    have hsg : scanSign (c :: l') = (false, c :: l') := scanSign_of_ge (by omega)
    rw [hsg]
    dsimp only
    rw [List.takeWhile_cons_of_neg (by simp [hd]), List.dropWhile_cons_of_neg (by simp [hd])]
    have hfr : scanFrac (c :: l') = ([], c :: l') := by
      unfold scanFrac
      split
      · rename_i h; simp at h; omega
      · rfl
    rw [hfr]
    simp
  rw [this]

theorem letter_noNumber {c : Nat} (hc : c = 68 ∨ c = 71 ∨ c = 77) (l : List Nat) : pdCell (c :: l) = .text := by
  unfold pdCell
  rw [if_neg, noDigit_noNumber (by omega)]
  have hna : ∀ s ∈ naValues, s.head? ≠ some 68 ∧ s.head? ≠ some 71 ∧ s.head? ≠ some 77 := by decide +kernel
  intro h
  have := hna _ h
  simp at this
  omega

theorem pyInt_nat (n : Nat) : pyInt (natStr n) = some (n : Int) := by
  have := pyInt_intStr (n : Int) [] (by simp)
  rw [List.append_nil] at this
  rw [← this]
  unfold intStr
  rw [if_neg (by omega)]
  rfl

theorem row_data {l : LogLine} (h : l.Valid ∧ l.Tabular) (ho : ∀ body, l ≠ .other body) (hc : ∀ c, l.count = some c → 0 ≤ c) (T : Rat) :
    bodyRow 13 l.bodyText = some l.fields ∧ pdCell (l.fields.headD []) = .text ∧ pdCell (l.fields.getD 1 []) ≠ .text ∧
      pdKind l.fields = (Event.mk T l).kind ∧ pdTRow false l.fields = some (some (Event.mk T l).prow) := by
  obtain ⟨_, _, hs⟩ := bodyText_spec h
  have htrim : ∀ c r, l.bodyText = c :: r → (c = 68 ∨ c = 71 ∨ c = 77) → l.fields.length ≤ 13 → bodyRow 13 l.bodyText = some l.fields := by
    intro c r hb hc hlen
    unfold bodyRow
    rw [show pdTrim l.bodyText = l.bodyText by rw [hb]; exact pdTrim_cons (by omega), hs, if_neg (by rw [hb]; simp), if_pos hlen]
  have htr : ∀ x : Dec, 0 ≤ x.val → pyTrunc x.val = ⌊x.val⌋ := by
    intro x hx; unfold pyTrunc; rw [if_pos hx]
  cases l with
  | letters => exact h.2.elim
  | other body => exact absurd rfl (ho body)
  | sample ms z =>
    obtain ⟨hn, hf⟩ := h.2
    have htext : ms.text = natStr ms.ip := by
      unfold Dec.text; rw [hn, hf]; simp
    have hval : ms.val = ((ms.ip : Int) : Rat) := by
      unfold Dec.val; rw [hn, hf]; simp [digitsVal]
    refine ⟨htrim 68 (joinFields [.dec ms, .int z]) (bodyText_eq (by simp [LogLine.text, lineD])) (by simp) (by simp [LogLine.fields]),
      letter_noNumber (by simp) _, ?_, ?_, ?_⟩
    · show pdCell (intStr z) ≠ .text
      have := pdCell_field (.int z)
      rw [Field.text] at this
      rw [this]; simp
    · rfl
    · unfold pdTRow
      rw [show pdKind (LogLine.sample ms z).fields = some .D from rfl]
      simp only
      have : pdCount false .D (LogLine.sample ms z).fields = some ms.val := by
        unfold pdCount
        rw [if_pos rfl]
        show (pyInt ms.text).map _ = _
        rw [htext, pyInt_nat, hval]
        rfl
      rw [this]
      simp only [Option.map_some, Event.prow, Event.kind, LogLine.printed, LogLine.count, Option.getD_some]
      congr 3
      · rw [hval, Int.floor_intCast]
      · have := pdCell_field (.int z)
        rw [Field.text] at this
        show [pdCell (intStr z)] = _
        rw [this]; rfl
  | fix ms lag yr mo day hr mn sec lat lon =>
    have h0 : 0 ≤ ms.val := hc _ rfl
    have hcell := pdCell_field (.dec ms)
    rw [Field.text, Field.val] at hcell
    refine ⟨htrim 71 (44 :: joinFields [.dec ms, .dec lag, .int yr, .int mo, .int day, .int hr, .int mn, .dec sec, .dec lat, .dec lon])
        (bodyText_eq (by simp [LogLine.text, lineG])) (by simp) (by simp [LogLine.fields]), letter_noNumber (by simp) _, ?_, ?_, ?_⟩
    · show pdCell ms.text ≠ .text
      rw [hcell]; simp
    · rfl
    · unfold pdTRow
      rw [show pdKind (LogLine.fix ms lag yr mo day hr mn sec lat lon).fields = some .G from rfl]
      simp only
      have : pdCount false .G (LogLine.fix ms lag yr mo day hr mn sec lat lon).fields = some ((⌊ms.val⌋ : Int) : Rat) := by
        unfold pdCount
        rw [if_neg (by decide), show (LogLine.fix ms lag yr mo day hr mn sec lat lon).fields.getD 1 [] = ms.text from rfl, hcell]
        simp [htr ms h0]
      rw [this]
      simp only [Option.map_some, Event.prow, Event.kind, LogLine.count, Option.getD_some]
      congr 3
      show ((LogLine.fix ms lag yr mo day hr mn sec lat lon).printed.map Field.text).map pdCell = _
      rw [List.map_map, List.map_map]
      apply List.map_congr_left
      intro f _
      exact pdCell_field f
  | status ms batt temp a2 a3 maxLag minFree maxUsed maxOver gpsFlag fs1 fsIdle =>
    have h0 : 0 ≤ ms.val := hc _ rfl
    have hcell := pdCell_field (.dec ms)
    rw [Field.text, Field.val] at hcell
    refine ⟨htrim 77 (44 :: joinFields [.dec ms, .dec batt, .dec temp, .dec a2, .dec a3, .int maxLag, .int minFree, .int maxUsed, .int maxOver,
        .int gpsFlag, .int fs1, .int fsIdle])
        (bodyText_eq (by simp [LogLine.text, lineM])) (by simp) (by simp [LogLine.fields]), letter_noNumber (by simp) _, ?_, ?_, ?_⟩
    · show pdCell ms.text ≠ .text
      rw [hcell]; simp
    · rfl
    · unfold pdTRow
      rw [show pdKind (LogLine.status ms batt temp a2 a3 maxLag minFree maxUsed maxOver gpsFlag fs1 fsIdle).fields = some .M from rfl]
      simp only
      have : pdCount false .M (LogLine.status ms batt temp a2 a3 maxLag minFree maxUsed maxOver gpsFlag fs1 fsIdle).fields
          = some ((⌊ms.val⌋ : Int) : Rat) := by
        unfold pdCount
        rw [if_neg (by decide), show (LogLine.status ms batt temp a2 a3 maxLag minFree maxUsed maxOver gpsFlag fs1 fsIdle).fields.getD 1 []
          = ms.text from rfl, hcell]
        simp [htr ms h0]
      rw [this]
      simp only [Option.map_some, Event.prow, Event.kind, LogLine.count, Option.getD_some]
      congr 3
      show ((LogLine.status ms batt temp a2 a3 maxLag minFree maxUsed maxOver gpsFlag fs1 fsIdle).printed.map Field.text).map pdCell = _
      rw [List.map_map, List.map_map]
      apply List.map_congr_left
      intro f _
      exact pdCell_field f

theorem row_other {body : List Nat} (h : (LogLine.other body).Valid ∧ (LogLine.other body).Tabular) {row : List (List Nat)}
    (hr : bodyRow 13 (LogLine.other body).bodyText = some row) (tc : Bool) :
    pdCell (row.headD []) ≠ .nan ∧ pdCell (row.getD 1 []) ≠ .text ∧ pdKind row = none ∧ pdTRow tc row = some none := by
  obtain ⟨h1, h2, h3⟩ := bodyText_spec h
  have hb : (LogLine.other body).bodyText = body := by simp [LogLine.bodyText, LogLine.text]
  rw [hb] at hr
  rcases h.2.2.2 with rfl | ⟨t1, t2, t3⟩
  · simp [bodyRow, pdTrim] at hr
  cases body with
  | nil => simp [bodyRow, pdTrim] at hr
  | cons c r =>
    have hc := t1 c (by simp)
    unfold bodyRow at hr
    rw [pdTrim_cons hc, if_neg (by simp)] at hr
    split_ifs at hr with hlen
    obtain rfl := Option.some.inj hr
    obtain ⟨f, fs, e1, e2⟩ := splitCommaGo_first (c :: r) []
    rw [List.nil_append] at e1
    have e1' : splitComma (c :: r) = f :: fs := e1
    rw [e1'] at t2 t3 ⊢
    have hk : pdKind (f :: fs) = none := by
      unfold pdKind
      rw [List.headD_cons]
      cases f with
      | nil => rfl
      | cons d f =>
        have hdc : d = c := by
          rcases e2 with e2 | ⟨_, e2⟩
          · exact (List.cons.inj e2).1.symm
          · exact (List.cons.inj e2).1.symm
        subst hdc
        have hv := h.1.2.2 d (by simp)
        simp only [List.head?_cons, Option.bind_some]
        unfold letterKind
        rw [if_neg hv.1, if_neg hv.2.2.1, if_neg hv.2.1]
    refine ⟨?_, ?_, hk, ?_⟩
    · rw [List.headD_cons] at t2 ⊢
      unfold pdCell
      rw [if_neg t2]
      cases pyFloat f <;> simp
    · cases fs with
      | nil =>
        show pdCell [] ≠ .text
        decide +kernel
      | cons g fs =>
        show pdCell g ≠ .text
        unfold pdCell
        rcases t3 g rfl with hg | ⟨x, hx⟩
        · rw [if_pos hg]; simp
        · by_cases hg : g ∈ naValues
          · rw [if_pos hg]; simp
          · rw [if_neg hg, hx]; simp
    · unfold pdTRow
      rw [hk]

/-! ## The file -/

theorem count_wrapped : ∀ (es : List Event) (prev : Option Rat), TimesPrinted prev es → ∀ e ∈ es, ∀ c, e.line.count = some c →
    WrappedReading 8192 e.T c := by
  intro es
  induction es with
  | nil => intro prev _ e he; simp at he
  | cons x es ih =>
    intro prev h e he c hc
    rcases x with ⟨T, line⟩
    rcases List.mem_cons.mp he with rfl | hm
    · cases line <;> simp [LogLine.count] at hc <;> subst hc <;> exact h.1
    · cases line with
      | sample => exact ih _ h.2 e hm c hc
      | letters => exact ih _ h.2 e hm c hc
      | fix => exact ih _ h.2 e hm c hc
      | status => exact ih _ h.2 e hm c hc
      | other => exact ih _ h e hm c hc

theorem other_printed : ∀ (hs es : List Event), (∀ e ∈ hs, e.isOther = true) → TimesPrinted none es → TimesPrinted none (hs ++ es) := by
  intro hs
  induction hs with
  | nil => intro es _ h; exact h
  | cons e hs ih =>
    intro es h1 h2
    have he := h1 e (by simp)
    rcases e with ⟨T, line⟩
    cases line <;> simp [Event.isOther] at he
    exact ih es (fun x hx => h1 x (by simp [hx])) h2

theorem other_data (hs es : List Event) (h : ∀ e ∈ hs, e.isOther = true) : dataEvents (hs ++ es) = dataEvents es := by
  unfold dataEvents
  rw [List.filter_append, List.filter_eq_nil_iff.mpr (by intro e he; simp [h e he]), List.nil_append]

theorem whole_data (es : List Event) : dataEvents (es.map Event.whole) = (dataEvents es).map Event.whole := by
  unfold dataEvents
  rw [List.filter_map]
  rfl

theorem TabularFile.noLetters {start : Rat} {header es : List Event} (h : TabularFile start header es) :
    ∀ e ∈ es, ∀ x y, e.line ≠ .letters x y := by
  intro e he x y hl
  have := (h.lines e he).2
  rw [hl] at this
  exact this

theorem TabularFile.nonempty {start : Rat} {header es : List Event} (h : TabularFile start header es) : dataEvents es ≠ [] := by
  obtain ⟨e, he, hs⟩ := h.status
  intro h0
  have : e ∈ dataEvents es := List.mem_filter.mpr ⟨he, by rcases e with ⟨T, line⟩; cases line <;> simp [Event.isStatus, Event.isOther] at hs ⊢⟩
  rw [h0] at this; simp at this

/-- The table the second reader makes (helper). -/
theorem readPandas_file {start : Rat} {header es : List Event} (h : TabularFile start header es) (rg : Bool)
    (hg : rg = true → ∃ e ∈ es, e.isFix = true) :
    readPandas (some (textOf (header ++ es))) rg = .ok ⟨false, (dataEvents es).map Event.prow⟩ := by
  have htext : textOf (header ++ es) = ((header.map (fun e => e.line.bodyText) ++ es.map (fun e => e.line.bodyText)).map fun l => l ++ [10]).flatten := by
    unfold textOf
    rw [← List.map_append, List.map_map]
    congr 1
    apply List.map_congr_left
    intro e he
    rcases List.mem_append.mp he with he | he
    · exact (bodyText_plain (h.head.2 e he).2).1
    · exact (bodyText_spec (h.lines e he)).1
  have hplain : ∀ l ∈ header.map (fun e => e.line.bodyText) ++ es.map (fun e => e.line.bodyText), ∀ b ∈ l, b < 128 ∧ b ≠ 10 ∧ b ≠ 13 := by
    intro l hl
    rcases List.mem_append.mp hl with hl | hl <;> obtain ⟨e, he, rfl⟩ := List.mem_map.mp hl
    · exact (bodyText_plain (h.head.2 e he).2).2.1
    · exact (bodyText_spec (h.lines e he)).2.1
  have hrows := pdRows_flat 13 _ _ (by rw [List.length_map]; exact h.head.1) hplain
  rw [← htext] at hrows
  have hpos : ∀ e ∈ es, ∀ c, e.line.count = some c → 0 ≤ c := fun e he c hc => (count_wrapped es none h.printed e he c hc).1
  have hdata : ∀ e ∈ es, e.isOther = false → bodyRow 13 e.line.bodyText = some e.line.fields ∧ pdCell (e.line.fields.headD []) = .text ∧
      pdCell (e.line.fields.getD 1 []) ≠ .text ∧ pdKind e.line.fields = e.kind ∧ pdTRow false e.line.fields = some (some e.prow) := by
    intro e he ho
    exact row_data (h.lines e he) (by intro body hb; rw [Event.isOther, hb] at ho; simp at ho) (hpos e he) e.T
  have hother : ∀ e ∈ es, e.isOther = true → ∀ row, bodyRow 13 e.line.bodyText = some row →
      pdCell (row.headD []) ≠ .nan ∧ pdCell (row.getD 1 []) ≠ .text ∧ pdKind row = none ∧ pdTRow false row = some none := by
    intro e he ho row hr
    have hl := h.lines e he
    rcases e with ⟨T, line⟩
    cases line <;> simp [Event.isOther] at ho
    exact row_other hl hr false
  have hmem : ∀ row ∈ (es.map fun e => e.line.bodyText).filterMap (bodyRow 13), pdCell (row.headD []) ≠ .nan ∧ pdCell (row.getD 1 []) ≠ .text := by
    intro row hr
    obtain ⟨l, hl, hb⟩ := List.mem_filterMap.mp hr
    obtain ⟨e, he, rfl⟩ := List.mem_map.mp hl
    cases ho : e.isOther with
    | true => exact ⟨(hother e he ho row hb).1, (hother e he ho row hb).2.1⟩
    | false =>
      obtain ⟨d1, d2, d3, _⟩ := hdata e he ho
      rw [d1] at hb
      obtain rfl := Option.some.inj hb
      exact ⟨by rw [d2]; simp, d3⟩
  have hin : ∀ e ∈ es, e.isOther = false → e.line.fields ∈ (es.map fun e => e.line.bodyText).filterMap (bodyRow 13) := by
    intro e he ho
    exact List.mem_filterMap.mpr ⟨_, List.mem_map.mpr ⟨e, he, rfl⟩, (hdata e he ho).1⟩
  obtain ⟨e0, he0⟩ := List.exists_mem_of_ne_nil _ h.nonempty
  obtain ⟨he1, he2⟩ := List.mem_filter.mp he0
  have he2' : e0.isOther = false := by simpa using he2
  have hT : ∃ tr, ((es.map fun e => e.line.bodyText).filterMap (bodyRow 13)).mapM (pdTRow false) = some tr ∧
      tr.filterMap id = (dataEvents es).map Event.prow := by
    clear hin hmem hg hrows hplain htext he0 he1 he2 he2' hpos h
    induction es with
    | nil => exact ⟨[], rfl, rfl⟩
    | cons e es ih =>
      obtain ⟨tr, i1, i2⟩ := ih (fun x hx => hdata x (by simp [hx])) (fun x hx => hother x (by simp [hx]))
      rw [List.map_cons, List.filterMap_cons, dataEvents_cons]
      cases ho : e.isOther with
      | true =>
        simp only [if_true]
        cases hb : bodyRow 13 e.line.bodyText with
        | none => exact ⟨tr, i1, i2⟩
        | some row =>
          refine ⟨none :: tr, ?_, i2⟩
          rw [List.mapM_cons, (hother e (by simp) ho row hb).2.2.2, i1]
          rfl
      | false =>
        obtain ⟨d1, _, _, _, d5⟩ := hdata e (by simp) ho
        rw [d1]
        refine ⟨some e.prow :: tr, ?_, ?_⟩
        · simp only
          rw [List.mapM_cons, d5, i1]
          rfl
        · rw [List.filterMap_cons, if_neg (by simp), List.map_cons, ← i2]
          rfl
  obtain ⟨tr, ht1, ht2⟩ := hT
  unfold readPandas
  simp only
  rw [hrows, if_neg (List.ne_nil_of_mem (hin e0 he1 he2')), if_neg, if_neg]
  · rw [show (((es.map fun e => e.line.bodyText).filterMap (bodyRow 13)).any fun r => pdCell (r.getD 1 []) == .text) = false from ?_, ht1]
    · simp only [ht2]
    · rw [List.any_eq_false]
      intro r hr
      simpa using (hmem r hr).2
  · rintro ⟨h1, h2⟩
    obtain ⟨e, he, hf⟩ := hg h2
    have ho : e.isOther = false := by rcases e with ⟨T, line⟩; cases line <;> simp [Event.isFix, Event.isOther] at hf ⊢
    apply h1 _ (hin e he ho)
    rw [(hdata e he ho).2.2.2.1]
    rcases e with ⟨T, line⟩; cases line <;> simp [Event.isFix, Event.kind] at hf ⊢
  · simp only [pdFirstText, Bool.not_eq_false, Bool.and_eq_true, List.all_eq_true, List.any_eq_true]
    refine ⟨?_, e0.line.fields, hin e0 he1 he2', ?_⟩
    · intro r hr
      simpa using (hmem r hr).1
    · rw [(hdata e0 he1 he2').2.1]; rfl

theorem pandas_millis {start : Rat} {header es : List Event} (h : TabularFile start header es) :
    correctedMillis 8192 start ((dataEvents (es.map Event.whole)).map fun e => e.prow.saw) = some ((dataEvents (es.map Event.whole)).map Event.T) := by
  rw [whole_data, List.map_map, List.map_map]
  apply C08_true_clock_recovered _ _ (by norm_num)
  · rw [List.forall₂_map_left_iff, List.forall₂_map_right_iff, List.forall₂_same]
    intro e he
    obtain ⟨h1, h2⟩ := List.mem_filter.mp he
    have hl := h.noLetters e h1
    obtain ⟨c, hc⟩ : ∃ c, e.line.count = some c := by
      rcases e with ⟨T, line⟩
      cases line with
      | letters x y => exact absurd rfl (hl x y)
      | other => simp [Event.isOther] at h2
      | _ => exact ⟨_, rfl⟩
    have := wrapped_floor (R := 8192) (by exact_mod_cast count_wrapped es none h.printed e h1 c hc)
    simp only [Function.comp, Event.prow, Event.whole, hc, Option.getD_some]
    exact_mod_cast this
  · have := h.near
    rw [List.isChain_map] at this ⊢
    refine this.imp ?_
    rintro x y ⟨h1, h2⟩
    simp only [Function.comp, Event.whole]
    have a1 := Int.floor_le x.T
    have a2 := Int.lt_floor_add_one x.T
    have b1 := Int.floor_le y.T
    have b2 := Int.lt_floor_add_one y.T
    constructor <;> linarith
  · intro h0
    exact h.nonempty (List.map_eq_nil_iff.mp h0)
  · intro t ht
    have := h.near_start
    rw [List.head?_map] at this ht
    cases hh : (dataEvents es).head? with
    | none => rw [hh] at ht; simp at ht
    | some e =>
      have hh' : (es.filter fun e => !e.isOther).head? = some e := hh
      rw [hh'] at this
      rw [hh] at ht
      simp at ht
      have := this e.T (by simp)
      rw [← ht]
      simp only [Event.whole]
      have a1 := Int.floor_le e.T
      have a2 := Int.lt_floor_add_one e.T
      constructor <;> linarith [this.1, this.2]

theorem whole_samples {start : Rat} {header es : List Event} (h : TabularFile start header es) :
    sampleTimes (es.map Event.whole) = sampleTimes es ∧ pressuresOf (es.map Event.whole) = pressuresOf es := by
  have hstep : ∀ e : Event, e.whole.step = e.step := fun e => rfl
  refine ⟨?_, ?_⟩
  · unfold sampleTimes
    rw [List.filter_map, List.map_map]
    apply List.map_congr_left
    intro e he
    obtain ⟨h1, h2⟩ := List.mem_filter.mp he
    have hl := h.noLetters e h1
    have ht := (h.lines e h1).2
    have hw := count_wrapped es none h.printed e h1
    rcases e with ⟨T, line⟩
    cases line with
    | letters x y => exact absurd rfl (hl x y)
    | sample ms z =>
      obtain ⟨_, _, k, hk⟩ := hw _ rfl
      obtain ⟨hn, hf⟩ := ht
      have hval : ms.val = ((ms.ip : Int) : Rat) := by
        unfold Dec.val; rw [hn, hf]; simp [digitsVal]
      simp only [Function.comp, Event.whole]
      simp only at hk
      rw [hk, hval, show ((ms.ip : Int) : Rat) + (k : Rat) * 8192 = ((ms.ip + k * 8192 : Int) : Rat) by push_cast; ring, Int.floor_intCast]
    | _ => simp [Event.step, Event.whole] at h2
  · unfold pressuresOf
    rw [List.filterMap_map]
    rfl

theorem whole_status (es : List Event) :
    (((es.map Event.whole).filter Event.isStatus).map Event.T).zip (((es.map Event.whole).filter Event.isStatus).map fun e => e.vals.map some)
      = (((es.filter Event.isStatus).map Event.T).zip ((es.filter Event.isStatus).map fun e => e.vals.map some)).map
          fun p => (((⌊p.1⌋ : Int) : Rat), p.2) := by
  rw [List.zip_map', List.zip_map', List.filter_map, List.map_map, List.map_map]
  rfl

/-- A fix at the whole milliseconds of its count. -/
def Fix.whole (f : Fix) : Fix := { f with msPPS := (⌊f.msPPS⌋ : Int) }

theorem whole_fixes (es : List Event) :
    ((((es.map Event.whole).filter Event.isFix).map Event.grawD).filter gpsInBounds).filterMap withTime
      = ((((es.filter Event.isFix).map Event.grawD).filter gpsInBounds).filterMap withTime).map Fix.whole := by
  induction es with
  | nil => rfl
  | cons e es ih =>
    rcases e with ⟨T, line⟩
    cases line with
    | fix ms lag yr mo day hr mn sec lat lon =>
      rw [List.map_cons, List.filter_cons_of_pos (by rfl), List.filter_cons_of_pos (by rfl), List.map_cons, List.map_cons]
      have hb : gpsInBounds (Event.whole ⟨T, .fix ms lag yr mo day hr mn sec lat lon⟩).grawD
          = gpsInBounds (Event.mk T (.fix ms lag yr mo day hr mn sec lat lon)).grawD := rfl
      by_cases hg : gpsInBounds (Event.mk T (.fix ms lag yr mo day hr mn sec lat lon)).grawD = true
      · rw [List.filter_cons_of_pos (by rw [hb]; exact hg), List.filter_cons_of_pos hg, List.filterMap_cons, List.filterMap_cons]
        have hm : makeGpsTime (Event.whole ⟨T, .fix ms lag yr mo day hr mn sec lat lon⟩).grawD
            = makeGpsTime (Event.mk T (.fix ms lag yr mo day hr mn sec lat lon)).grawD := rfl
        have hw : withTime (Event.whole ⟨T, .fix ms lag yr mo day hr mn sec lat lon⟩).grawD
            = (withTime (Event.mk T (.fix ms lag yr mo day hr mn sec lat lon)).grawD).map Fix.whole := by
          unfold withTime
          rw [hm, Option.map_map]
          rfl
        rw [hw, ih]
        cases withTime (Event.mk T (.fix ms lag yr mo day hr mn sec lat lon)).grawD <;> rfl
      · rw [List.filter_cons_of_neg (by rw [hb]; exact hg), List.filter_cons_of_neg hg]
        exact ih
    | _ => exact ih

/-- The same with fixes and status lines at whole milliseconds. -/
def FileData.wholeTimes (fd : FileData) : FileData :=
  ⟨fd.data, fd.metadata.map fun p => (((⌊p.1⌋ : Int) : Rat), p.2), fd.gps.map Fix.whole⟩

theorem tryReaders_first {em rg : Bool} {offset : Rat} {table : Table} {fd : FileData} {rs : List (Except Exc Table)}
    (hp : processData em table offset "0.9" rg = .ok fd) (hg : rg = true → fd.gps ≠ []) :
    tryReaders em offset rg "0.9" (.ok table :: rs) = .ok (fd.addDataTime (893 / 100)) := by
  unfold tryReaders
  simp only [Except.bind]
  rw [hp]
  simp only
  rw [if_neg (fun h => hg h.2 h.1), show timeCorrection "0.9" = some (893 / 100) by simp [timeCorrection]]

/-- The contents of the file (helper). -/
def tabularData (es : List Event) : FileData :=
  ⟨(sampleTimes es).zip ((pressuresOf es).map fun z : Int => some (z : Rat)),
    ((es.filter Event.isStatus).map Event.T).zip ((es.filter Event.isStatus).map fun e => e.vals.map some),
    (((es.filter Event.isFix).map Event.grawD).filter gpsInBounds).filterMap withTime⟩

theorem both_readers (em : Bool) (buf0 buf1 : List Nat) (pandas old : Except Exc Table) (start : Rat) (header es : List Event) (rg : Bool)
    (h : TabularFile start header es) (hg : rg = true → ∃ e ∈ es, ∃ t, e.FixAt t) (x : Exc) (h1 : x.exitsEarly = false)
    (h2 : x.isException = true) :
    readSingle em ⟨(readWithCython buf0 buf1 rg (some (textOf (header ++ es)))).map cythonTable, pandas, old⟩ start rg "0.9"
        = .ok ((tabularData es).addDataTime (893 / 100)) ∧
      readSingle em ⟨.error x, readPandas (some (textOf (header ++ es))) rg, old⟩ start rg "0.9"
        = .ok ((tabularData es).addDataTime (893 / 100)).wholeTimes := by
  have hother : ∀ e ∈ header, e.isOther = true := fun e he => (h.head.2 e he).1
  obtain ⟨rows, hp1, hp2⟩ := parse_events buf0 (header ++ es) [] none (.inl rfl)
    (by
      intro e he
      rcases List.mem_append.mp he with he | he
      · exact (h.head.2 e he).2.1
      · exact (h.lines e he).1) (other_printed _ _ hother h.printed) (by simp)
  have hp0 : parseGem buf0 [] = [] := rfl
  rw [List.nil_append, hp0, List.nil_append] at hp1
  rw [other_data _ _ hother] at hp2
  have hfix : rg = true → ∃ e ∈ es, e.isFix = true ∧ gpsInBounds e.grawD = true ∧ ∃ f, withTime e.grawD = some f := by
    intro hr
    obtain ⟨e, he, t, ht⟩ := hg hr
    have := goodFix_row (l := e.line) ⟨t, ht⟩ e.T
    exact ⟨e, he, this⟩
  have hgps : rg = true → (((es.filter Event.isFix).map Event.grawD).filter gpsInBounds).filterMap withTime ≠ [] := by
    intro hr h0
    obtain ⟨e, he, k1, k2, f, k3⟩ := hfix hr
    have := List.filterMap_eq_nil_iff.mp h0 e.grawD (List.mem_filter.mpr ⟨List.mem_map.mpr ⟨e, List.mem_filter.mpr ⟨he, k1⟩, rfl⟩, k2⟩)
    rw [k3] at this
    cases this
  have hms : correctedMillis 8192 start (rows.map Row.millis) = some ((dataEvents es).map Event.T) := by
    apply C08_true_clock_recovered _ _ (by norm_num)
    · rw [List.forall₂_map_left_iff, List.forall₂_map_right_iff]
      exact hp2.imp fun _ _ hx => hx.2.2
    · have := h.near
      rw [List.isChain_map] at this ⊢
      refine this.imp ?_
      rintro a b ⟨g1, g2⟩
      constructor <;> linarith
    · intro h0
      exact h.nonempty (List.map_eq_nil_iff.mp h0)
    · intro t ht
      have := h.near_start t ht
      constructor <;> linarith [this.1, this.2]
  have hlen : rows.length ≤ 1560000 := by
    rw [← hp2.length_eq]
    exact le_trans (List.length_filter_le _ _) h.length
  have hcy : readWithCython buf0 buf1 rg (some (textOf (header ++ es))) = .ok rows := by
    rw [(C06_complete_or_error buf0 buf1 rg _).1 (by rw [hp1]; exact hlen), hp1]
    unfold rowsOutcome
    cases rows with
    | nil =>
      have := hp2.length_eq
      exact absurd (List.eq_nil_of_length_eq_zero this) h.nonempty
    | cons r rs =>
      simp only
      rw [if_neg]
      intro hc
      rw [Bool.and_eq_true, List.isEmpty_iff] at hc
      obtain ⟨e, he, k1, _⟩ := hfix hc.1
      have hm : e ∈ dataEvents es := List.mem_filter.mpr ⟨he, by rcases e with ⟨T, line⟩; cases line <;> simp [Event.isFix, Event.isOther] at k1 ⊢⟩
      obtain ⟨i, hi, rfl⟩ := List.mem_iff_getElem.mp hm
      have hf := (List.forall₂_iff_get.mp hp2)
      have hj := hf.1 ▸ hi
      have hk := (hf.2 i hi hj).1
      simp only [List.get_eq_getElem] at hk
      have hkG : (dataEvents es)[i].kind = some .G := by
        generalize (dataEvents es)[i] = e at k1
        rcases e with ⟨T, line⟩; cases line <;> simp [Event.isFix, Event.kind] at k1 ⊢
      rw [hkG] at hk
      have : (r :: rs)[i] ∈ (r :: rs).filter fun r => r.kind == .G :=
        List.mem_filter.mpr ⟨List.getElem_mem _, by rw [← Option.some.inj hk]; rfl⟩
      rw [hc.2] at this; simp at this
  have hpc := process_events hp2 hms h.samples h.status em rg (fun hr => by
    obtain ⟨e, he, k1, k2, _⟩ := hfix hr
    exact ⟨e, he, k1, k2⟩)
  obtain ⟨w1, w2⟩ := whole_samples h
  have hpp := process_prows (offset := start) (es := es.map Event.whole)
    (by
      intro e he
      obtain ⟨e', he', rfl⟩ := List.mem_map.mp he
      exact h.noLetters e' he')
    (pandas_millis h) (by rw [w1]; exact h.samples)
    (by
      obtain ⟨e, he, hs⟩ := h.status
      exact ⟨_, List.mem_map.mpr ⟨e, he, rfl⟩, hs⟩) em rg
    (by
      intro hr
      obtain ⟨e, he, k1, k2, _⟩ := hfix hr
      refine ⟨_, List.mem_map.mpr ⟨e, he, rfl⟩, k1, ?_⟩
      rcases e with ⟨T, line⟩
      cases line <;> simp [Event.isFix] at k1
      exact k2)
  rw [w1, w2, whole_status, whole_fixes] at hpp
  have hrow : (dataEvents (es.map Event.whole)).map Event.prow = (dataEvents es).map Event.prow := by
    rw [whole_data, List.map_map]; rfl
  rw [hrow] at hpp
  refine ⟨?first, ?second⟩
  case first =>
    unfold readSingle
    rw [if_pos (by simp), hcy]
    exact tryReaders_first hpc hgps
  case second =>
    unfold readSingle
    rw [if_pos (by simp), readPandas_file h rg (fun hr => by
      obtain ⟨e, he, k1, _⟩ := hfix hr
      exact ⟨e, he, k1⟩)]
    rw [tryReaders]
    simp only [Except.bind, h1, h2, if_true, Bool.false_eq_true, if_false]
    rw [tryReaders_first hpp (fun hr h0 => hgps hr (List.map_eq_nil_iff.mp h0))]
    rfl

/-- **C91.** If the compiled reader fails on a file (with an error other than an empty file, a missing file, no GPS or an interrupt), the
second reader takes over; on a file without defects or two-letter lines it finds exactly what the compiled reader finds in the file when it
works: the same samples at the same times, the same status lines and the same fixes, the last two at whole milliseconds. -/
theorem C91_fallback (em : Bool) (buf0 buf1 : List Nat) (pandas old : Except Exc Table) (start : Rat) (header es : List Event) (rg : Bool)
    (h : TabularFile start header es) (hg : rg = true → ∃ e ∈ es, ∃ t, e.FixAt t) (x : Exc) (h1 : x.exitsEarly = false)
    (h2 : x.isException = true) :
    ∃ fd, readSingle em ⟨(readWithCython buf0 buf1 rg (some (textOf (header ++ es)))).map cythonTable, pandas, old⟩ start rg "0.9" = .ok fd ∧
      readSingle em ⟨.error x, readPandas (some (textOf (header ++ es))) rg, old⟩ start rg "0.9" = .ok fd.wholeTimes := by
  obtain ⟨k1, k2⟩ := both_readers em buf0 buf1 pandas old start header es rg h hg x h1 h2
  exact ⟨_, k1, k2⟩

/-- **C91 (missing file).** A file that does not exist is corrupt also for the second reader: whatever reason the first reader had to fail, the file counts as
corrupt, in all the formats with two readers. -/
theorem C91_missing (em : Bool) (old : Except Exc Table) (start : Rat) (rg : Bool) (version : String)
    (hv : version ∈ ["1.10", "0.91", "0.9", "0.85C"]) (x : Exc) (h1 : x.exitsEarly = false) (h2 : x.isException = true) :
    readSingle em ⟨.error x, readPandas none rg, old⟩ start rg version = .error .corrupt := by
  unfold readSingle
  rw [if_pos hv]
  unfold tryReaders
  simp only [Except.bind, h1, h2]
  rfl

example : Exc.corrupt.exitsEarly = false ∧ Exc.corrupt.isException = true ∧ Exc.other.exitsEarly = false ∧ Exc.other.isException = true := by decide

/-! ## Losses -/

/-- **C91, violated.** The second reader cuts the counts of fixes to whole milliseconds: a fix printed with a fraction (as loggers do) is placed before
the time at which the compiled reader places it. -/
theorem C91_violated_fraction (em : Bool) (buf0 buf1 : List Nat) (pandas old : Except Exc Table) (start : Rat) (header es : List Event) (rg : Bool)
    (h : TabularFile start header es) (x : Exc) (h1 : x.exitsEarly = false) (h2 : x.isException = true)
    (e : Event) (he : e ∈ es) (hx : ∃ t, e.FixAt t) (hT : ∀ z : Int, e.T ≠ z) :
    ∃ fd fd', readSingle em ⟨(readWithCython buf0 buf1 rg (some (textOf (header ++ es)))).map cythonTable, pandas, old⟩ start rg "0.9" = .ok fd ∧
      readSingle em ⟨.error x, readPandas (some (textOf (header ++ es))) rg, old⟩ start rg "0.9" = .ok fd' ∧
      ∃ (i : Nat) (f f' : Fix), fd.gps[i]? = some f ∧ fd'.gps[i]? = some f' ∧ f'.t = f.t ∧ f.msPPS = e.T ∧ f'.msPPS < e.T := by
  obtain ⟨g1, g2⟩ := both_readers em buf0 buf1 pandas old start header es rg h (fun _ => ⟨e, he, hx⟩) x h1 h2
  refine ⟨_, _, g1, g2, ?_⟩
  obtain ⟨t, ht⟩ := hx
  obtain ⟨k1, k2, f, k3⟩ := goodFix_row (l := e.line) ⟨t, ht⟩ e.T
  have hmem : f ∈ (tabularData es).gps :=
    List.mem_filterMap.mpr ⟨e.grawD, List.mem_filter.mpr ⟨List.mem_map.mpr ⟨e, List.mem_filter.mpr ⟨he, k1⟩, rfl⟩, k2⟩, k3⟩
  have hfT : f.msPPS = e.T := by
    obtain ⟨m, _, rfl⟩ := Option.map_eq_some_iff.mp k3
    rcases e with ⟨T, line⟩
    cases line with
    | fix => rfl
    | _ => exact ht.elim
  obtain ⟨i, hi, hf⟩ := List.mem_iff_getElem.mp hmem
  have hi' : (tabularData es).gps[i]? = some f := by rw [List.getElem?_eq_getElem hi, hf]
  refine ⟨i, f, f.whole, hi', ?_, rfl, hfT, ?_⟩
  · simp only [FileData.wholeTimes, FileData.addDataTime, List.getElem?_map, hi', Option.map_some]
  · show ((⌊f.msPPS⌋ : Int) : Rat) < e.T
    rw [hfT]
    exact lt_of_le_of_ne (Int.floor_le _) (fun h => hT _ h.symm)

/-- The line is a sample written as two letters. -/
def Event.isLetters (e : Event) : Bool := match e.line with | .letters .. => true | _ => false

theorem letters_row {x y : Nat} (hx : 97 ≤ x ∧ x ≤ 122) (hy : 97 ≤ y ∧ y ≤ 122) :
    bodyRow 13 [x, y] = some [[x, y]] ∧ pdCell [x, y] = .text ∧ pdKind [[x, y]] = none := by
  have hs : splitComma [x, y] = [[x, y]] := splitComma_plain _ (by intro b hb; simp at hb; omega)
  refine ⟨?_, ?_, ?_⟩
  · unfold bodyRow
    rw [pdTrim_cons (by omega), hs, if_neg (by simp), if_pos (by simp)]
  · unfold pdCell
    rw [if_neg, noDigit_noNumber (by omega)]
    have hna : ∀ s ∈ naValues, s.length = 2 → s = [78, 65] := by decide +kernel
    intro h
    have := hna _ h rfl
    simp at this
    omega
  · show letterKind x = none
    unfold letterKind
    rw [if_neg (by omega), if_neg (by omega), if_neg (by omega)]

/-- The rows `A` are the rows `B` and rows of other kinds, with text first (helper). -/
inductive ExtraRows : List (List (List Nat)) → List (List (List Nat)) → Prop
  | nil : ExtraRows [] []
  | same {A B : List (List (List Nat))} (r : List (List Nat)) : ExtraRows A B → ExtraRows (r :: A) (r :: B)
  | extra {A B : List (List (List Nat))} {r : List (List Nat)} (h1 : pdCell (r.headD []) = .text) (h2 : pdCell (r.getD 1 []) ≠ .text)
      (h3 : pdKind r = none) : ExtraRows A B → ExtraRows (r :: A) B

theorem extraRows_same {A B : List (List (List Nat))} (h : ExtraRows A B) :
    (A = [] → B = []) ∧ (pdFirstText B = true → pdFirstText A = true) ∧
    ((∀ r ∈ A, pdKind r ≠ some .G) → ∀ r ∈ B, pdKind r ≠ some .G) ∧
    (A.any fun r => pdCell (r.getD 1 []) == .text) = (B.any fun r => pdCell (r.getD 1 []) == .text) ∧
    ∀ tc tb, B.mapM (pdTRow tc) = some tb → ∃ ta, A.mapM (pdTRow tc) = some ta ∧ ta.filterMap id = tb.filterMap id := by
  have hfirst : ∀ A B : List (List (List Nat)), ExtraRows A B →
      ((∀ r ∈ B, pdCell (r.headD []) ≠ .nan) → ∀ r ∈ A, pdCell (r.headD []) ≠ .nan) ∧ ∀ r ∈ B, r ∈ A := by
    intro A B h
    induction h with
    | nil => exact ⟨fun h => h, fun r hr => hr⟩
    | same r _ ih =>
      refine ⟨?_, ?_⟩
      · intro h q hq
        rcases List.mem_cons.mp hq with rfl | hq
        · exact h _ (by simp)
        · exact ih.1 (fun x hx => h x (by simp [hx])) q hq
      · intro q hq
        rcases List.mem_cons.mp hq with rfl | hq
        · simp
        · simp [ih.2 q hq]
    | extra h1 _ _ _ ih =>
      refine ⟨?_, fun q hq => by simp [ih.2 q hq]⟩
      intro h q hq
      rcases List.mem_cons.mp hq with rfl | hq
      · rw [h1]; simp
      · exact ih.1 h q hq
  obtain ⟨f1, f2⟩ := hfirst A B h
  refine ⟨?_, ?_, fun hA r hr => hA r (f2 r hr), ?_, ?_⟩
  · rintro rfl
    exact List.eq_nil_iff_forall_not_mem.mpr fun r hr => by simpa using f2 r hr
  · simp only [pdFirstText, Bool.and_eq_true, List.all_eq_true, List.any_eq_true, bne_iff_ne]
    rintro ⟨k1, r, k2, k3⟩
    exact ⟨f1 k1, r, f2 r k2, k3⟩
  · clear f1 f2 hfirst
    induction h with
    | nil => rfl
    | same r _ ih => rw [List.any_cons, List.any_cons, ih]
    | extra _ h2 _ _ ih => rw [List.any_cons, ih, beq_eq_false_iff_ne.mpr h2, Bool.false_or]
  · clear f1 f2 hfirst
    induction h with
    | nil => intro tc tb h; exact ⟨tb, h, rfl⟩
    | same r _ ih =>
      intro tc tb h
      rw [List.mapM_cons] at h
      cases h1 : pdTRow tc r with
      | none => rw [h1] at h; cases h
      | some q =>
        rename_i A B _
        cases h2 : B.mapM (pdTRow tc) with
        | none => rw [h1, h2] at h; cases h
        | some t =>
          rw [h1, h2] at h
          obtain rfl := Option.some.inj h
          obtain ⟨ta, k1, k2⟩ := ih tc t h2
          refine ⟨q :: ta, by rw [List.mapM_cons, h1, k1]; rfl, ?_⟩
          rw [List.filterMap_cons, List.filterMap_cons, k2]
    | extra _ _ h3 _ ih =>
      intro tc tb h
      obtain ⟨ta, k1, k2⟩ := ih tc tb h
      rename_i A B r _ _ _
      have : pdTRow tc r = some none := by unfold pdTRow; rw [h3]
      exact ⟨none :: ta, by rw [List.mapM_cons, this, k1]; rfl, k2⟩

/-- **C91, violated.** In format 1.10 most samples are written as two letters. The second reader leaves all of them out without any error: it reads
such a file exactly as it reads the file without those lines, so the samples are lost and the pressures after them are wrong. -/
theorem C91_violated_letters (em : Bool) (buf0 buf1 : List Nat) (pandas old : Except Exc Table) (start : Rat) (header es : List Event) (rg : Bool)
    (h : TabularFile start header (es.filter fun e => !e.isLetters)) (hl : ∀ e ∈ es, e.isLetters = true → e.line.Valid)
    (hg : rg = true → ∃ e ∈ es, ∃ t, e.FixAt t) (x : Exc) (h1 : x.exitsEarly = false) (h2 : x.isException = true) :
    ∃ fd, readSingle em ⟨(readWithCython buf0 buf1 rg (some (textOf (header ++ es.filter fun e => !e.isLetters)))).map cythonTable, pandas, old⟩
        start rg "0.9" = .ok fd ∧
      readSingle em ⟨.error x, readPandas (some (textOf (header ++ es))) rg, old⟩ start rg "0.9" = .ok fd.wholeTimes := by
  have hg' : rg = true → ∃ e ∈ es.filter fun e => !e.isLetters, ∃ t, e.FixAt t := by
    intro hr
    obtain ⟨e, he, t, ht⟩ := hg hr
    refine ⟨e, List.mem_filter.mpr ⟨he, ?_⟩, t, ht⟩
    rcases e with ⟨T, line⟩
    cases line <;> first | exact ht.elim | rfl
  obtain ⟨fd, g1, g2⟩ := C91_fallback em buf0 buf1 pandas old start header _ rg h hg' x h1 h2
  refine ⟨fd, g1, ?_⟩
  rw [← g2]
  congr 2
  -- the texts, line by line
  have hsplit : ∀ l : List Event, (∀ e ∈ l, (e.line.Valid ∧ e.line.Plain) ∨ (e.isLetters = true ∧ e.line.Valid)) →
      (∀ e ∈ l, e.line.text = e.line.bodyText ++ [10] ∧ ∀ b ∈ e.line.bodyText, b < 128 ∧ b ≠ 10 ∧ b ≠ 13) := by
    intro l hv e he
    rcases hv e he with k | ⟨k1, k2⟩
    · exact ⟨(bodyText_plain k).1, (bodyText_plain k).2.1⟩
    · rcases e with ⟨T, line⟩
      cases line <;> simp [Event.isLetters] at k1
      rename_i a b
      obtain ⟨k3, k4⟩ := k2
      have : (LogLine.letters a b).bodyText = [a, b] := bodyText_eq (by simp [LogLine.text])
      refine ⟨by rw [this]; rfl, ?_⟩
      intro c hc
      simp only [this] at hc
      simp at hc
      omega
  have hrows : ∀ l : List Event, (∀ e ∈ l, (e.line.Valid ∧ e.line.Plain) ∨ (e.isLetters = true ∧ e.line.Valid)) →
      pdRows 13 (textOf (header ++ l)) = (l.map fun e => e.line.bodyText).filterMap (bodyRow 13) := by
    intro l hv
    have hA := hsplit (header ++ l) (by
      intro e he
      rcases List.mem_append.mp he with he | he
      · exact .inl (h.head.2 e he).2
      · exact hv e he)
    rw [← pdRows_flat 13 (header.map fun e => e.line.bodyText) (l.map fun e => e.line.bodyText) (by rw [List.length_map]; exact h.head.1)
      (by
        rw [← List.map_append]
        intro b hb
        obtain ⟨e, he, rfl⟩ := List.mem_map.mp hb
        exact (hA e he).2)]
    congr 1
    unfold textOf
    rw [← List.map_append, List.map_map]
    congr 1
    apply List.map_congr_left
    intro e he
    exact (hA e he).1
  have hv1 : ∀ e ∈ es.filter fun e => !e.isLetters, (e.line.Valid ∧ e.line.Plain) ∨ (e.isLetters = true ∧ e.line.Valid) :=
    fun e he => .inl ⟨(h.lines e he).1, tabular_plain (h.lines e he).2⟩
  have hv2 : ∀ e ∈ es, (e.line.Valid ∧ e.line.Plain) ∨ (e.isLetters = true ∧ e.line.Valid) := by
    intro e he
    cases hk : e.isLetters with
    | true => exact .inr ⟨rfl, hl e he hk⟩
    | false =>
      rcases hv1 e (List.mem_filter.mpr ⟨he, by simp [hk]⟩) with k | ⟨k, _⟩
      · exact .inl k
      · rw [hk] at k; cases k
  have hok := readPandas_file h rg (fun hr => by
    obtain ⟨e, he, t, ht⟩ := hg' hr
    refine ⟨e, he, ?_⟩
    rcases e with ⟨T, line⟩
    cases line <;> first | exact ht.elim | rfl)
  have hB := hrows _ hv1
  have hA := hrows _ hv2
  have hext : ∀ l : List Event, (∀ e ∈ l, e.isLetters = true → e.line.Valid) →
      ExtraRows ((l.map fun e => e.line.bodyText).filterMap (bodyRow 13))
        (((l.filter fun e => !e.isLetters).map fun e => e.line.bodyText).filterMap (bodyRow 13)) := by
    intro l
    induction l with
    | nil => intro _; exact .nil
    | cons e l ih =>
      intro hv
      have ih := ih (fun x hx => hv x (by simp [hx]))
      rw [List.map_cons, List.filterMap_cons]
      cases hk : e.isLetters with
      | true =>
        rw [List.filter_cons_of_neg (by simp [hk])]
        have hve := hv e (by simp) hk
        rcases e with ⟨T, line⟩
        cases line <;> simp [Event.isLetters] at hk
        rename_i a b
        obtain ⟨k3, k4⟩ := hve
        obtain ⟨r1, r2, r3⟩ := letters_row k3 k4
        have : (LogLine.letters a b).bodyText = [a, b] := bodyText_eq (by simp [LogLine.text])
        simp only [this, r1]
        exact .extra r2 (show pdCell [] ≠ .text by decide +kernel) r3 ih
      | false =>
        rw [List.filter_cons_of_pos (by simp [hk]), List.map_cons, List.filterMap_cons]
        cases bodyRow 13 e.line.bodyText with
        | none => exact ih
        | some r => exact .same r ih
  obtain ⟨e1, e2, e3, e4, e5⟩ := extraRows_same (hext es hl)
  rw [hok]
  unfold readPandas at hok ⊢
  simp only at hok ⊢
  rw [hB] at hok
  rw [hA]
  generalize (es.map fun e => e.line.bodyText).filterMap (bodyRow 13) = A at e1 e2 e3 e4 e5 ⊢
  generalize ((es.filter fun e => !e.isLetters).map fun e => e.line.bodyText).filterMap (bodyRow 13) = B at e1 e2 e3 e4 e5 hok
  by_cases c1 : B = []
  · rw [if_pos c1] at hok; cases hok
  rw [if_neg c1] at hok
  rw [if_neg (fun h => c1 (e1 h))]
  by_cases c2 : pdFirstText B = false
  · rw [if_pos c2] at hok; cases hok
  rw [if_neg c2] at hok
  rw [if_neg (by rw [e2 (by simpa using c2)]; simp)]
  by_cases c3 : (∀ r ∈ B, pdKind r ≠ some .G) ∧ rg = true
  · rw [if_pos c3] at hok; cases hok
  rw [if_neg c3] at hok
  rw [if_neg (fun h => c3 ⟨e3 h.1, h.2⟩)]
  rw [e4]
  cases hm : B.mapM (pdTRow (B.any fun r => pdCell (r.getD 1 []) == .text)) with
  | none => rw [hm] at hok; cases hok
  | some tb =>
    obtain ⟨ta, k1, k2⟩ := e5 _ _ hm
    rw [hm] at hok
    rw [k1]
    simp only at hok ⊢
    rw [k2]
    exact hok

/-! ## A file -/

def demoTabHeader : List Event :=
  ["#GemCSV0.91", "#DmsSamp,ADC", "#G,msPPS,msLag,yr,mo,day,hr,min,sec,lat,lon", "#M,ms,batt(V)", "S,014", ""].map fun s => ⟨0, .other (bytes s)⟩

/-- A status line, a fix with a fraction, samples across a rollover, a stray line and two samples as letters. -/
def demoTabEvents : List Event :=
  [⟨8170, .status (.ofNat 8170) (.ofNat 3) (.ofNat 20) (.ofNat 0) (.ofNat 0) 1 2 3 4 1 5 6⟩,
   ⟨8171 + 1 / 2, .fix ⟨false, 8171, bytes "5", by decide⟩ (.ofNat 70) 2020 6 20 5 21 (.ofNat 22) (.ofNat 43) ⟨true, 116, [], by simp⟩⟩,
   ⟨8185, .sample (.ofNat 8185) (-3)⟩, ⟨0, .other (bytes "#note,7")⟩, ⟨8195, .letters 109 112⟩, ⟨8205, .letters 109 110⟩,
   ⟨8215, .sample (.ofNat 23) 2⟩]

theorem demoTabFile : TabularFile 8000 demoTabHeader (demoTabEvents.filter fun e => !e.isLetters) := by
  have hes : (demoTabEvents.filter fun e => !e.isLetters) = [demoTabEvents[0], demoTabEvents[1], demoTabEvents[2], demoTabEvents[3],
    demoTabEvents[6]] := rfl
  have htimes : (((demoTabEvents.filter fun e => !e.isLetters).filter fun e => !e.isOther).map Event.T) = [8170, 8171 + 1 / 2, 8185, 8215] := rfl
  refine ⟨⟨rfl, ?_⟩, ?_, ?_, ?_, ?_, ?_, ⟨demoTabEvents[0], by rw [hes]; simp, rfl⟩, ?_⟩
  · intro e he
    simp only [demoTabHeader, List.map_cons, List.map_nil, List.mem_cons, List.not_mem_nil, or_false] at he
    rcases he with rfl | rfl | rfl | rfl | rfl | rfl <;> refine ⟨rfl, ?_⟩ <;> constructor <;> simp only [LogLine.Valid, LogLine.Plain] <;>
      decide +kernel
  · intro e he
    rw [hes] at he
    simp only [List.mem_cons, List.not_mem_nil, or_false] at he
    rcases he with rfl | rfl | rfl | rfl | rfl
    · exact ⟨by simp only [demoTabEvents, List.getElem_cons_zero, LogLine.Valid]; decide +kernel, trivial⟩
    · exact ⟨by simp only [demoTabEvents, List.getElem_cons_succ, List.getElem_cons_zero, LogLine.Valid]; decide +kernel, trivial⟩
    · exact ⟨by simp only [demoTabEvents, List.getElem_cons_succ, List.getElem_cons_zero, LogLine.Valid]; decide +kernel, rfl, rfl⟩
    · refine ⟨by simp only [demoTabEvents, List.getElem_cons_succ, List.getElem_cons_zero, LogLine.Valid]; decide +kernel, ?_, ?_, .inr ⟨?_, ?_, ?_⟩⟩
      · decide +kernel
      · unfold PlainText; decide +kernel
      · decide +kernel
      · decide +kernel
      · intro g hg
        have : (splitComma (bytes "#note,7"))[1]? = some (bytes "7") := by decide +kernel
        rw [this] at hg
        obtain rfl := Option.some.inj hg
        exact .inr ⟨7, by decide +kernel⟩
    · exact ⟨by simp only [demoTabEvents, List.getElem_cons_succ, List.getElem_cons_zero, LogLine.Valid]; decide +kernel, rfl, rfl⟩
  · rw [hes]
    have : Dec.val ⟨false, 8171, bytes "5", by decide⟩ = 8171 + 1 / 2 := by decide +kernel
    refine ⟨⟨?_, ?_, 0, ?_⟩, ⟨?_, ?_, 0, ?_⟩, ⟨?_, ?_, 0, ?_⟩, ⟨?_, ?_, 1, ?_⟩, trivial⟩
    all_goals first | rw [ofNat_val] | rw [this]
    all_goals try simp only [demoTabEvents, List.getElem_cons_succ, List.getElem_cons_zero]
    all_goals norm_num
  · rw [htimes]
    simp only [List.isChain_cons_cons, List.IsChain.singleton, and_true]
    norm_num
  · rw [htimes]
    intro x hx
    simp at hx
    subst hx
    norm_num
  · rw [show sampleTimes (demoTabEvents.filter fun e => !e.isLetters) = [8185, 8215] from rfl]
    simp
  · rw [hes]; simp

example : ∃ e ∈ demoTabEvents, (∃ t, e.FixAt t) ∧ ∀ z : Int, e.T ≠ z := by
  refine ⟨demoTabEvents[1], by simp, ⟨1592630482, ?_⟩, ?_⟩
  · refine ⟨?_, ?_, ?_, ?_, 22, ?_, ?_, ?_⟩
    · simp [ofNat_val]; norm_num
    · simp [Dec.val, digitsVal]; norm_num
    · simp [ofNat_val]; norm_num
    · norm_num
    · simp [ofNat_val]
    · exact ⟨by norm_num, by norm_num, ⟨by norm_num, true, by simp [LeapYear], by decide⟩, by norm_num, by norm_num, by norm_num⟩
    · decide +kernel
  · intro z h
    have h : (8171 + 1 / 2 : Rat) = z := h
    have h1 : ((8171 : Int) : Rat) < z := by rw [← h]; norm_num
    have h2 : (z : Rat) < ((8172 : Int) : Rat) := by rw [← h]; norm_num
    have := Int.cast_lt.mp h1
    have := Int.cast_lt.mp h2
    omega

/-- The letters are left out. -/
example : ((readPandas (some (textOf (demoTabHeader ++ demoTabEvents))) true).toOption.map fun t => t.rows.map TRow.saw) = some [8170, 8171, 8185, 23] := by
  decide +kernel

end Gemlog
