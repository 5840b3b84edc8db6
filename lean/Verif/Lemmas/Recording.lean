import Verif.Spec.Recording
import Verif.Lemmas.CatRead
import Verif.Props.Process
import Verif.Props.ReadSingle
import Mathlib.Tactic.Tauto

/-! # Helper facts: reading the files of a recording -/

namespace Gemlog

/-- Kind and values of the row of an event (helper). -/
def Event.kind (e : Event) : Option Kind :=
  match e.line with
  | .sample .. => some .D
  | .letters .. => some .D
  | .fix .. => some .G
  | .status .. => some .M
  | .other _ => none

def Event.vals (e : Event) : List Rat :=
  match e.line with
  | .sample _ step => (step : Rat) :: List.replicate 10 0
  | .letters _ y => ((y : Rat) - 109) :: List.replicate 10 0
  | .fix _ lag yr mo day hr mn sec lat lon => [lag.val, yr, mo, day, hr, mn, sec.val, lat.val, lon.val, 0, 0]
  | .status _ batt temp a2 a3 maxLag minFree maxUsed maxOver gpsFlag fs1 fsIdle =>
    [batt.val, temp.val, a2.val, a3.val, maxLag, minFree, maxUsed, maxOver, gpsFlag, fs1, fsIdle]
  | .other _ => []

/-- The row read for an event (helper). -/
def RowFits (e : Event) (r : Row) : Prop :=
  e.kind = some r.kind ∧ r.vals = e.vals ∧ WrappedReading 8192 e.T r.millis

/-- The events with a row (helper). -/
def dataEvents (es : List Event) : List Event := es.filter fun e => !e.isOther

theorem endsLine_append_nl (pre body : List Nat) : EndsLine (pre ++ (body ++ [10])) := by
  right
  rw [← List.append_assoc, List.getLast?_concat]

theorem lastSampleTime_concat (rows : List Row) (r : Row) :
    lastSampleTime (rows ++ [r]) = if r.kind = .D then r.millis else lastSampleTime rows := by
  rw [← lastSampleD_eq, lastSampleD_append, ← lastSampleD_eq]
  rfl

theorem parse_other (buf pre body : List Nat) (hpre : EndsLine pre) (h1 : ∀ b ∈ body, b ≠ 10) (h2 : body.length ≤ 254)
    (h3 : ∀ b ∈ body.head?, b ≠ 68 ∧ b ≠ 71 ∧ b ≠ 77 ∧ ¬(97 ≤ b ∧ b ≤ 122)) :
    parseGem buf (pre ++ (body ++ [10])) = parseGem buf pre := by
  obtain ⟨st, b, _, hp⟩ := parse_append_line buf pre body hpre h1 h2
  rw [hp]
  have hk := stepLine_kind st b (body ++ [10]) (by simp)
  have : lineKind (body ++ [10]) = none := by
    cases body with
    | nil => simp [lineKind]
    | cons x body =>
      have := h3 x (by simp)
      simp only [List.cons_append, lineKind]
      rw [if_neg (by tauto), if_neg (by tauto), if_neg (by tauto)]
  rw [this] at hk
  cases hs : (stepLine st (loadBuf b (body ++ [10]))).1 with
  | none => simp
  | some r => rw [hs] at hk; simp at hk

theorem text_nl (l : LogLine) : ∃ body, l.text = body ++ [10] := by
  cases l with
  | sample ms step => exact ⟨_, rfl⟩
  | letters x y => exact ⟨[x, y], rfl⟩
  | fix => exact ⟨_, rfl⟩
  | status => exact ⟨_, rfl⟩
  | other body => exact ⟨body, rfl⟩

theorem parse_events (buf : List Nat) : ∀ (es : List Event) (pre : List Nat) (prev : Option Rat), EndsLine pre →
    (∀ e ∈ es, e.line.Valid) → TimesPrinted prev es →
    (∀ q ∈ prev, WrappedReading 8192 q (lastSampleTime (parseGem buf pre))) →
    ∃ rows, parseGem buf (pre ++ textOf es) = parseGem buf pre ++ rows ∧ List.Forall₂ RowFits (dataEvents es) rows := by
  intro es
  induction es with
  | nil => intro pre prev _ _ _ _; exact ⟨[], by simp [textOf], .nil⟩
  | cons e es ih =>
    intro pre prev hpre hv ht hprev
    have hve := hv e (by simp)
    have hves : ∀ e ∈ es, e.line.Valid := fun x hx => hv x (by simp [hx])
    have htext : pre ++ textOf (e :: es) = (pre ++ e.line.text) ++ textOf es := by simp [textOf]
    have hend : EndsLine (pre ++ e.line.text) := by
      obtain ⟨body, hb⟩ := text_nl e.line
      rw [hb]; exact endsLine_append_nl pre body
    rw [htext]
    have step : ∀ (r : Row) (prev' : Option Rat), parseGem buf (pre ++ e.line.text) = parseGem buf pre ++ [r] → e.isOther = false →
        RowFits e r → TimesPrinted prev' es → (∀ q ∈ prev', WrappedReading 8192 q (lastSampleTime (parseGem buf pre ++ [r]))) →
        ∃ rows, parseGem buf ((pre ++ e.line.text) ++ textOf es) = parseGem buf pre ++ rows ∧
          List.Forall₂ RowFits (dataEvents (e :: es)) rows := by
      intro r prev' h1 h2 h3 h4 h5
      obtain ⟨rows, g1, g2⟩ := ih (pre ++ e.line.text) prev' hend hves h4 (by rw [h1]; exact h5)
      refine ⟨r :: rows, by rw [g1, h1]; simp, ?_⟩
      unfold dataEvents
      rw [List.filter_cons_of_pos (by simp [h2])]
      exact .cons h3 g2
    rcases e with ⟨T, line⟩
    cases line with
    | sample ms s =>
      obtain ⟨t1, t2⟩ := ht
      refine step _ (some T) (C03_line_D buf pre hpre ms s hve) rfl ⟨rfl, rfl, t1⟩ t2 ?_
      intro q hq
      simp only [Option.mem_def, Option.some.injEq] at hq
      rw [← hq, lastSampleTime_concat]
      exact t1
    | letters x y =>
      obtain ⟨⟨q, rfl, hT⟩, t2⟩ := ht
      obtain ⟨t, p1, p2, p3, k, p4⟩ := C02_two_letter_line buf pre hpre x y hve.1 hve.2
      obtain ⟨q1, q2, j, q3⟩ := hprev q rfl
      have hw : WrappedReading 8192 T t := by
        refine ⟨p2, p3, k + j, ?_⟩
        push_cast
        simp only at hT
        linarith
      refine step _ (some T) p1 rfl ⟨rfl, rfl, hw⟩ t2 ?_
      intro q' hq
      simp only [Option.mem_def, Option.some.injEq] at hq
      rw [← hq, lastSampleTime_concat]
      exact hw
    | fix ms lag yr mo day hr mn sec lat lon =>
      obtain ⟨t1, t2⟩ := ht
      refine step _ prev (C03_line_G buf pre hpre ms lag yr mo day hr mn sec lat lon hve) rfl ⟨rfl, rfl, t1⟩ t2 ?_
      intro q hq
      rw [lastSampleTime_concat]
      exact hprev q hq
    | status ms batt temp a2 a3 maxLag minFree maxUsed maxOver gpsFlag fs1 fsIdle =>
      obtain ⟨t1, t2⟩ := ht
      refine step _ prev (C03_line_M buf pre hpre ms batt temp a2 a3 maxLag minFree maxUsed maxOver gpsFlag fs1 fsIdle hve) rfl
        ⟨rfl, rfl, t1⟩ t2 ?_
      intro q hq
      rw [lastSampleTime_concat]
      exact hprev q hq
    | other body =>
      have hp := parse_other buf pre body hpre hve.1 hve.2.1 hve.2.2
      obtain ⟨rows, g1, g2⟩ := ih (pre ++ (body ++ [10])) prev hend hves ht (by rw [hp]; exact hprev)
      refine ⟨rows, by rw [LogLine.text, g1, hp], ?_⟩
      unfold dataEvents
      rw [List.filter_cons_of_neg (by simp [Event.isOther])]
      exact g2

/-! ## From rows to samples, status and fixes -/

/-- The fields of a fix (helper). -/
def Event.graw (e : Event) : Option GRaw :=
  match e.line with
  | .fix _ lag yr mo day hr mn sec lat lon =>
    some ⟨e.T, some lag.val, some yr, some mo, some day, some hr, some mn, some sec.val, some lat.val, some lon.val⟩
  | _ => none

/-- The row of the table for a row of the parser (helper). -/
def tRow (r : Row) : TRow := ⟨r.kind, r.millis, .nan :: r.vals.map .num⟩

/-- Rows with their times (helper). -/
def zipRows (evs : List Event) (rows : List Row) : List (Rat × TRow) := (evs.map Event.T).zip (rows.map tRow)

theorem rows_of_kind {β : Type} (k : Kind) (f : Rat × TRow → Option β) (g : Event → β)
    (hf : ∀ e r, RowFits e r → e.kind = some k → f (e.T, tRow r) = some (g e)) {evs : List Event} {rows : List Row}
    (h : List.Forall₂ RowFits evs rows) :
    ((zipRows evs rows).filter fun p => p.2.kind == k).map Prod.fst = (evs.filter fun e => e.kind == some k).map Event.T ∧
    ((zipRows evs rows).filter fun p => p.2.kind == k).mapM f = some ((evs.filter fun e => e.kind == some k).map g) := by
  induction h with
  | nil => exact ⟨rfl, rfl⟩
  | @cons e r evs rows he _ ih =>
    obtain ⟨i1, i2⟩ := ih
    have hz : zipRows (e :: evs) (r :: rows) = (e.T, tRow r) :: zipRows evs rows := rfl
    have hk : (tRow r).kind = r.kind := rfl
    rw [hz]
    by_cases hkk : r.kind = k
    · have hek : e.kind = some k := by rw [he.1, hkk]
      rw [List.filter_cons_of_pos (by simp [hk, hkk]), List.filter_cons_of_pos (by simp [hek])]
      refine ⟨by simp [i1], ?_⟩
      rw [List.mapM_cons, hf e r he hek, i2]
      rfl
    · rw [List.filter_cons_of_neg (by simp [hk, hkk]), List.filter_cons_of_neg (by simp [he.1, hkk])]
      exact ⟨i1, i2⟩

theorem isD_iff (e : Event) : (e.kind == some .D) = e.step.isSome := by
  rcases e with ⟨T, line⟩
  cases line <;> rfl

theorem isM_iff (e : Event) : (e.kind == some .M) = e.isStatus := by
  rcases e with ⟨T, line⟩
  cases line <;> rfl

theorem isG_iff (e : Event) : (e.kind == some .G) = e.isFix := by
  rcases e with ⟨T, line⟩
  cases line <;> rfl

/-- The fields of a fix, or a dummy (helper). -/
def Event.grawD (e : Event) : GRaw := e.graw.getD ⟨0, none, none, none, none, none, none, none, none, none⟩

theorem rowsD {evs : List Event} {rows : List Row} (h : List.Forall₂ RowFits evs rows) :
    ((zipRows evs rows).filter fun p => p.2.kind == .D).map Prod.fst = sampleTimes evs ∧
    ((zipRows evs rows).filter fun p => p.2.kind == .D).mapM (fun p => (p.2.col 2).toNumeric)
      = some ((evs.filterMap Event.step).map fun z : Int => some (z : Rat)) := by
  have := rows_of_kind .D (fun p => (p.2.col 2).toNumeric) (fun e => some ((e.step.getD 0 : Int) : Rat)) (by
    intro e r hr hk
    obtain ⟨h1, h2, _⟩ := hr
    rcases e with ⟨T, line⟩
    cases line <;> simp [Event.kind] at hk <;> simp [tRow, TRow.col, h2, Event.vals, Event.step, Cell.toNumeric]) h
  simp only [isD_iff] at this
  refine ⟨this.1, this.2.trans ?_⟩
  congr 1
  clear this h
  induction evs with
  | nil => rfl
  | cons e evs ih =>
    cases hs : e.step with
    | none => rw [List.filter_cons_of_neg (by simp [hs]), ih, List.filterMap_cons, hs]
    | some z => rw [List.filter_cons_of_pos (by simp [hs]), List.map_cons, ih, List.filterMap_cons, hs]; simp

theorem rowsM {evs : List Event} {rows : List Row} (h : List.Forall₂ RowFits evs rows) :
    ((zipRows evs rows).filter fun p => p.2.kind == .M).map Prod.fst = (evs.filter Event.isStatus).map Event.T ∧
    ((zipRows evs rows).filter fun p => p.2.kind == .M).mapM (fun p => (List.range 11).mapM
        fun j => (p.2.col (j + 2)).toNumeric)
      = some ((evs.filter Event.isStatus).map fun e => e.vals.map some) := by
  have := rows_of_kind .M (fun p => (List.range 11).mapM fun j => (p.2.col (j + 2)).toNumeric) (fun e => e.vals.map some) (by
    intro e r hr hk
    obtain ⟨h1, h2, _⟩ := hr
    rcases e with ⟨T, line⟩
    have hr : List.range 11 = [0, 1, 2, 3, 4, 5, 6, 7, 8, 9, 10] := by decide
    cases line <;> simp [Event.kind] at hk <;> simp [hr, tRow, TRow.col, h2, Event.vals, Cell.toNumeric, List.mapM_cons]) h
  simp only [isM_iff] at this
  exact this

theorem rowsG {evs : List Event} {rows : List Row} (h : List.Forall₂ RowFits evs rows) :
    ((zipRows evs rows).filter fun p => p.2.kind == .G).map Prod.fst = fixTimes evs ∧
    ((zipRows evs rows).filter fun p => p.2.kind == .G).mapM (fun p => gRow p.1 p.2)
      = some ((evs.filter Event.isFix).map Event.grawD) := by
  have := rows_of_kind .G (fun p => gRow p.1 p.2) Event.grawD (by
    intro e r hr hk
    obtain ⟨h1, h2, _⟩ := hr
    rcases e with ⟨T, line⟩
    cases line <;> simp [Event.kind] at hk <;>
      simp [tRow, TRow.col, h2, Event.vals, gRow, Cell.toNumeric, Event.grawD, Event.graw]) h
  simp only [isG_iff] at this
  exact this

/-! ## Clean files -/

/-- The fix of an event by the clock (helper). -/
def Event.fixRec (a b : Rat) (e : Event) : Fix := ⟨e.grawD, a + b * e.T⟩

theorem fixAt_kept {a b : Rat} {e : Event} {t : Int} (h : e.FixAt t) (ht : (t : Rat) = a + b * e.T) :
    gpsInBounds e.grawD = true ∧ withTime e.grawD = some (e.fixRec a b) := by
  rcases e with ⟨T, line⟩
  cases line with
  | sample => exact h.elim
  | letters => exact h.elim
  | status => exact h.elim
  | other => exact h.elim
  | fix ms lag yr mo day hr mn sec lat lon =>
    obtain ⟨h1, h2, h3, h4, s, h5, h6, h7⟩ := h
    have hg : (Event.mk T (.fix ms lag yr mo day hr mn sec lat lon)).grawD = ⟨T, some lag.val, some yr, some mo, some day, some hr,
      some mn, some sec.val, some lat.val, some lon.val⟩ := rfl
    have hk := (C11_kept_iff_plausible (Event.mk T (.fix ms lag yr mo day hr mn sec lat lon)).grawD
      ⟨⟨lat.val, lon.val, lag.val, sec.val, rfl, rfl, rfl, rfl⟩, yr, mo, day, hr, mn, rfl, rfl, rfl, rfl, rfl⟩).mpr
      ⟨⟨_, rfl, h1⟩, ⟨_, rfl, h2⟩, ⟨_, rfl, h3⟩, yr, mo, day, hr, mn, s, rfl, rfl, rfl, rfl, rfl, by rw [← h5]; rfl, h4.1, h4.2, h6⟩
    refine ⟨hk.1, ?_⟩
    unfold withTime makeGpsTime
    rw [hg]
    simp only [pyTrunc_int, h5]
    unfold Instant.time at h7
    rw [h7]
    simp only [Option.map_some, Option.some.injEq]
    unfold Event.fixRec
    rw [hg, ← ht, h5]

theorem filter_dataEvents (p : Event → Bool) (hp : ∀ e, p e = true → e.isOther = false) (es : List Event) :
    (dataEvents es).filter p = es.filter p := by
  unfold dataEvents
  rw [List.filter_filter]
  apply List.filter_congr
  intro e _
  cases h : p e with
  | false => simp
  | true => simp [hp e h]

theorem step_notOther {e : Event} (h : e.step.isSome = true) : e.isOther = false := by
  rcases e with ⟨T, line⟩
  cases line <;> simp [Event.step] at h <;> rfl

theorem status_notOther {e : Event} (h : e.isStatus = true) : e.isOther = false := by
  rcases e with ⟨T, line⟩
  cases line <;> simp [Event.isStatus] at h; rfl

theorem fix_notOther {e : Event} (h : e.isFix = true) : e.isOther = false := by
  rcases e with ⟨T, line⟩
  cases line <;> simp [Event.isFix] at h; rfl

theorem filterMap_step_data (es : List Event) : (dataEvents es).filterMap Event.step = es.filterMap Event.step := by
  unfold dataEvents
  rw [List.filterMap_filter]
  apply List.filterMap_congr
  intro e _
  rcases e with ⟨T, line⟩
  cases line <;> rfl

theorem cumsumNaN_some : ∀ (l : List Int) (acc : Int), cumsumNaN (acc : Rat) (l.map fun z : Int => some (z : Rat))
    = (runningSums acc l).map fun z : Int => some (z : Rat) := by
  intro l
  induction l with
  | nil => intro acc; rfl
  | cons x l ih =>
    intro acc
    rw [List.map_cons, cumsumNaN, runningSums, List.map_cons, ← ih (acc + x)]
    push_cast
    rfl

/-- What a clean file holds (helper): samples, status lines and fixes. -/
def fileDataOf (a b : Rat) (es : List Event) : FileData :=
  ⟨(sampleTimes es).zip ((pressuresOf es).map fun z : Int => some (z : Rat)),
    ((es.filter Event.isStatus).map Event.T).zip ((es.filter Event.isStatus).map fun e => e.vals.map some),
    (es.filter Event.isFix).map (Event.fixRec a b)⟩

theorem process_cleanFile {a b start : Rat} {es : List Event} (hc : SoundFile a b es) (hst : NearStart start es) {rows : List Row}
    (hr : List.Forall₂ RowFits (dataEvents es) rows) (em rg : Bool) :
    processData em (cythonTable rows) start "0.9" rg = .ok (fileDataOf a b es) := by
  obtain ⟨d1, d2⟩ := rowsD hr
  obtain ⟨m1, m2⟩ := rowsM hr
  obtain ⟨g1, g2⟩ := rowsG hr
  have es1 : sampleTimes (dataEvents es) = sampleTimes es := by
    unfold sampleTimes
    rw [filter_dataEvents _ (fun e h => step_notOther h)]
  have ef1 : fixTimes (dataEvents es) = fixTimes es := by
    unfold fixTimes
    rw [filter_dataEvents _ (fun e h => fix_notOther h)]
  rw [es1] at d1
  rw [filterMap_step_data] at d2
  rw [filter_dataEvents _ (fun e h => status_notOther h)] at m1 m2
  rw [ef1] at g1
  rw [filter_dataEvents _ (fun e h => fix_notOther h)] at g2
  have hsaw : List.Forall₂ (WrappedReading 8192) ((dataEvents es).map Event.T) (rows.map Row.millis) := by
    rw [List.forall₂_map_left_iff, List.forall₂_map_right_iff]
    exact hr.imp fun e r h => h.2.2
  have hne : (dataEvents es).map Event.T ≠ [] := by
    intro h
    apply hc.samples
    rw [← es1]
    rw [List.map_eq_nil_iff] at h
    rw [h]; rfl
  have hms := C08_true_clock_recovered 8192 start (by norm_num) _ _ hsaw
    (hc.near.imp (by intro x y h; constructor <;> linarith [h.1, h.2])) hne
    (by intro t ht; have := hst t ht; constructor <;> linarith [this.1, this.2])
  have hrows : (cythonTable rows).rows = rows.map tRow := rfl
  have hsaw2 : (cythonTable rows).rows.map TRow.saw = rows.map Row.millis := by
    rw [hrows, List.map_map]; rfl
  unfold processData
  rw [show rolloverOf "0.9" = some 8192 by simp [rolloverOf]; norm_num]
  simp only
  rw [hsaw2, hms]
  simp only
  rw [hrows, show (((dataEvents es).map Event.T).zip (rows.map tRow)) = zipRows (dataEvents es) rows from rfl]
  have hD : ((zipRows (dataEvents es) rows).filter fun p => p.2.kind == .D) ≠ [] := by
    intro h; rw [h] at d1; exact hc.samples d1.symm
  have hM : ((zipRows (dataEvents es) rows).filter fun p => p.2.kind == .M) ≠ [] := by
    intro h
    rw [h] at m1
    obtain ⟨e, he, hk⟩ := hc.status
    have : e ∈ es.filter Event.isStatus := List.mem_filter.mpr ⟨he, hk⟩
    rw [List.map_eq_nil_iff.mp m1.symm] at this
    simp at this
  rw [if_neg (by rintro (h | h); exacts [hD h, hM h])]
  have hv1 : (if ("0.9" : String) ∈ ["0.8", "0.85"] then 2 else if (cythonTable rows).isBytes = true then 2 else 1) = 2 := by
    simp [cythonTable]
  have hv2 : numMCols "0.9" - 1 = 11 := by decide
  rw [hv1, hv2, d2, m2]
  simp only
  have hgps : gpsTable em ((zipRows (dataEvents es) rows).filter fun p => p.2.kind == .G)
      = some ((es.filter Event.isFix).map (Event.fixRec a b)) := by
    unfold gpsTable
    have hlen := hc.enough
    rw [← g1] at hlen
    split
    · rename_i h
      rw [h] at hlen
      simp at hlen
    · rw [g2]
      simp only
      have hall : ∀ e ∈ es.filter Event.isFix, gpsInBounds e.grawD = true ∧ withTime e.grawD = some (e.fixRec a b) := by
        intro e he
        obtain ⟨h1, h2⟩ := List.mem_filter.mp he
        obtain ⟨t, h3, h4⟩ := hc.fixes e h1 h2
        exact fixAt_kept h3 h4
      have hf1 : ((es.filter Event.isFix).map Event.grawD).filter gpsInBounds = (es.filter Event.isFix).map Event.grawD := by
        apply List.filter_eq_self.mpr
        intro g hg
        obtain ⟨e, he, rfl⟩ := List.mem_map.mp hg
        exact (hall e he).1
      rw [hf1]
      have hnil : (es.filter Event.isFix).map Event.grawD ≠ [] := by
        intro h
        have h' := List.map_eq_nil_iff.mp h
        have := hc.enough
        unfold fixTimes at this
        rw [h'] at this
        simp at this
      rw [if_neg (fun h => hnil h.1)]
      congr 1
      rw [List.filterMap_map]
      generalize es.filter Event.isFix = F at hall
      induction F with
      | nil => rfl
      | cons e F ih =>
        rw [List.filterMap_cons, List.map_cons, ← ih (fun x hx => hall x (by simp [hx]))]
        simp only [Function.comp, (hall e (by simp)).2]
  rw [hgps]
  simp only
  rw [d1, m1]
  have hcs := cumsumNaN_some (es.filterMap Event.step) 0
  rw [Int.cast_zero] at hcs
  rw [if_pos (by simp), hcs]
  rfl

end Gemlog
