import Verif.Model.MetaLog
import Verif.Props.StatusTimes
import Verif.Props.Huddle

/-!
# C122: from the status lines of the raw files to the results of the huddle test
-/

namespace Gemlog

/-! ## Specification -/

/-- A status line: its time in UTC (if known) and its values: battery, temperature, A2, A3, write time, free fifo, used fifo, overruns, GPS flag, and the two values of
the stack. -/
abbrev StatusLine := Option Rat × List Rat

/-- The status lines of a conversion: for each block, with the clock of its span, those of its files (`timedLines`). -/
def statusLines (log : Entry → List Event) (blocks : List (List Entry × BlockSpan)) : List StatusLine :=
  blocks.flatMap fun q => (timedLines log q.2.offset q.2.rate q.1).map fun p => (p.2.2, p.2.1)

/-- The readings in one place of the lines. -/
def placeReadings (lines : List StatusLine) (k : Nat) : List Rat := lines.filterMap fun l => l.2[k]?

/-- The number of readings that are the same as the next. -/
def repeats (v : List Rat) : Nat := (v.zip v.tail).countP fun p => decide (p.1 = p.2)

/-- The times of the lines written with the GPS off. -/
def gpsOff (lines : List StatusLine) : List (Option Rat) := (lines.filter fun l => decide (l.2[8]? = some 0)).map Prod.fst

/-- When the tests are to report an error. -/
def LoggedError (lines : List StatusLine) : HTest → Prop
  | .battMin => ∃ x ∈ placeReadings lines 0, x < 17 / 10
  | .battMax => ∃ x ∈ placeReadings lines 0, 15 < x
  | .tempMin => ∃ x ∈ placeReadings lines 1, x < -20
  | .tempMax => ∃ x ∈ placeReadings lines 1, 60 < x
  | .flatA2 => 99 * (lines.length - 1) < 100 * repeats (placeReadings lines 2)
  | .rangeA2 => ∃ x ∈ placeReadings lines 2, x < 0 ∨ 31 / 10 < x
  | .flatA3 => 99 * (lines.length - 1) < 100 * repeats (placeReadings lines 3)
  | .rangeA3 => ∃ x ∈ placeReadings lines 3, x < 0 ∨ 31 / 10 < x
  | _ => False

/-- When they are to report a warning, unless they report an error. -/
def LoggedWarning (lines : List StatusLine) : HTest → Prop
  | .battMin => ∃ x ∈ placeReadings lines 0, x < 22 / 10
  | .battMax => ∃ x ∈ placeReadings lines 0, 145 / 10 < x
  | .tempMin => ∃ x ∈ placeReadings lines 1, x < -15
  | .tempMax => ∃ x ∈ placeReadings lines 1, 55 < x
  | .flatA2 => 95 * (lines.length - 1) < 100 * repeats (placeReadings lines 2)
  | .flatA3 => 95 * (lines.length - 1) < 100 * repeats (placeReadings lines 3)
  | .overruns => ∃ x ∈ placeReadings lines 7, x ≠ 0
  | .unusedStack => ∃ x ∈ placeReadings lines 9 ++ placeReadings lines 10, x ≤ 30
  | .gpsRunTime => ∃ (i : Nat) (a b : Rat), 10 ≤ i ∧ (gpsOff lines)[i]? = some (some a) ∧ (gpsOff lines)[i + 1]? = some (some b) ∧ 180 < b - a
  | _ => False

/-- When they are to report a note. -/
def LoggedNote (lines : List StatusLine) : HTest → Prop
  | .unusualFifo => lines.length < 100 * (placeReadings lines 6).countP fun x => decide (5 < x)
  | .excessiveFifo => ∃ x ∈ placeReadings lines 6, 50 < x
  | _ => False

/-! ## Proof -/

theorem statusRow_length {e : Event} {p : Rat × List Rat} (h : e.statusRow = some p) : p.2.length = 11 := by
  unfold Event.statusRow at h
  split at h
  · simp only [Option.some.injEq] at h; rw [← h]; rfl
  · cases h

theorem statusLines_length {log : Entry → List Event} {blocks : List (List Entry × BlockSpan)} : ∀ l ∈ statusLines log blocks, l.2.length = 11 := by
  intro l hl
  unfold statusLines at hl
  obtain ⟨q, _, hl⟩ := List.mem_flatMap.mp hl
  obtain ⟨p, hp, rfl⟩ := List.mem_map.mp hl
  unfold timedLines at hp
  obtain ⟨r, hr, rfl⟩ := List.mem_map.mp hp
  obtain ⟨e, _, hr⟩ := List.mem_flatMap.mp hr
  obtain ⟨ev, _, hev⟩ := List.mem_filterMap.mp hr
  exact statusRow_length hev

/-- The metadata rows with the times and values of some lines. -/
def rowsOf (lines : List StatusLine) : List HuddleRow := lines.map fun l => huddleRowOf (0, l.2.map some, l.1)

theorem rows_full {lines : List StatusLine} (h11 : ∀ l ∈ lines, l.2.length = 11) {k : Nat} (hk : k < 11) (col : HuddleRow → Option Rat)
    (hcol : ∀ (t : Option Rat) (l : List Rat), col (huddleRowOf (0, l.map some, t)) = l[k]?) :
    (rowsOf lines).map col = (placeReadings lines k).map some := by
  unfold rowsOf placeReadings
  rw [List.map_map]
  induction lines with
  | nil => simp
  | cons l lines ih =>
    have hl : l.2[k]? = some (l.2[k]'(by rw [h11 l (by simp)]; exact hk)) := List.getElem?_eq_getElem _
    rw [List.map_cons, ih fun x hx => h11 x (by simp [hx]), List.filterMap_cons, Function.comp_apply, hcol, hl]
    simp

theorem metaCell_some (t : Option Rat) (l : List Rat) (k : Nat) : metaCell (0, l.map some, t) k = l[k]? := by
  unfold metaCell
  simp only [List.getD_eq_getElem?_getD, List.getElem?_map]
  cases l[k]? <;> rfl

theorem hasReading_iff {rows : List HuddleRow} {col : HuddleRow → Option Rat} {v : List Rat} (h : rows.map col = v.map some) (x : Rat) :
    HasReading rows col x ↔ x ∈ v := by
  unfold HasReading
  have : (∃ r ∈ rows, col r = some x) ↔ some x ∈ rows.map col := by rw [List.mem_map]
  rw [this, h, List.mem_map]
  simp

theorem flatSteps_iff {rows : List HuddleRow} {col : HuddleRow → Option Rat} {v : List Rat} (h : rows.map col = v.map some) :
    flatSteps rows col = repeats v := by
  have hlen : rows.length = v.length := by simpa using congrArg List.length h
  have hget : ∀ i : Nat, rows[i]?.bind col = v[i]? := by
    intro i
    have := congrArg (fun l : List (Option Rat) => l[i]?) h
    simp only [List.getElem?_map] at this
    cases h1 : rows[i]? with
    | none => rw [h1] at this; cases h2 : v[i]? with
      | none => rfl
      | some y => rw [h2] at this; simp at this
    | some r => rw [h1] at this; cases h2 : v[i]? with
      | none => rw [h2] at this; simp at this
      | some y => rw [h2] at this; simpa using this
  have key : ∀ w : List Rat, (List.range (w.length - 1)).countP (fun i => decide (w[i]? ≠ none ∧ w[i]? = w[i + 1]?)) = repeats w := by
    intro w
    unfold repeats
    induction w with
    | nil => rfl
    | cons a w ih =>
      cases w with
      | nil => rfl
      | cons b w =>
        simp only [List.length_cons, Nat.add_sub_cancel, List.tail_cons] at ih ⊢
        rw [List.range_succ_eq_map, List.countP_cons, List.countP_map, List.zip_cons_cons, List.countP_cons, ← ih]
        congr 1
        simp
  unfold flatSteps
  rw [hlen, ← key v]
  congr 1
  funext i
  rw [hget, hget]

theorem outOfRange_iff {rows : List HuddleRow} {col : HuddleRow → Option Rat} {v : List Rat} (h : rows.map col = v.map some) :
    OutOfRange rows col ↔ ∃ x ∈ v, x < 0 ∨ 31 / 10 < x := by
  unfold OutOfRange
  constructor
  · rintro ⟨r, hr, hx⟩
    have : col r ∈ rows.map col := List.mem_map_of_mem hr
    rw [h, List.mem_map] at this
    obtain ⟨x, hxv, e⟩ := this
    exact ⟨x, hxv, hx x e.symm⟩
  · rintro ⟨x, hxv, hx⟩
    have : some x ∈ rows.map col := by rw [h]; exact List.mem_map_of_mem hxv
    obtain ⟨r, hr, e⟩ := List.mem_map.mp this
    exact ⟨r, hr, fun y hy => by rw [e] at hy; cases hy; exact hx⟩

theorem gpsOff_rows (lines : List StatusLine) :
    ((rowsOf lines).filter fun q => decide (q.gpsOnFlag = some 0)).map HuddleRow.t = gpsOff lines := by
  unfold rowsOf gpsOff
  rw [List.filter_map, List.map_map]
  have e : ∀ l : StatusLine, ((fun q : HuddleRow => decide (q.gpsOnFlag = some 0)) ∘ fun l : StatusLine => huddleRowOf (0, l.2.map some, l.1)) l =
      decide (l.2[8]? = some 0) := by
    intro l
    show decide (metaCell (0, l.2.map some, l.1) 8 = some 0) = _
    rw [metaCell_some]
  rw [List.filter_congr fun l _ => e l]
  rfl

/-- The cases of the huddle test in terms of the lines. -/
theorem cases_iff {lines : List StatusLine} (h11 : ∀ l ∈ lines, l.2.length = 11) (test : HTest) :
    (ErrorCase (rowsOf lines) test ↔ LoggedError lines test) ∧ (WarningCase (rowsOf lines) test ↔ LoggedWarning lines test) ∧
      (NoteCase (rowsOf lines) test ↔ LoggedNote lines test) := by
  have hgps : WarningCase (rowsOf lines) .gpsRunTime ↔ LoggedWarning lines .gpsRunTime := by
    simp only [WarningCase, LoggedWarning, ← gpsOff_rows, List.getElem?_map, Option.map_eq_some_iff]
    constructor
    · rintro ⟨i, r, s, a, b, h1, h2, h3, h4, h5, h6⟩
      exact ⟨i, a, b, h1, ⟨r, h2, h4⟩, ⟨s, h3, h5⟩, h6⟩
    · rintro ⟨i, a, b, h1, ⟨r, h2, h4⟩, ⟨s, h3, h5⟩, h6⟩
      exact ⟨i, r, s, a, b, h1, h2, h3, h4, h5, h6⟩
  have hlen : (rowsOf lines).length = lines.length := by unfold rowsOf; simp
  generalize hrows : rowsOf lines = rows at *
  have c : ∀ (col : HuddleRow → Option Rat) (k : Nat), k < 11 → (∀ (t : Option Rat) (l : List Rat), col (huddleRowOf (0, l.map some, t)) = l[k]?) →
      rows.map col = (placeReadings lines k).map some := fun col k hk hcol => by rw [← hrows]; exact rows_full h11 hk col hcol
  have c0 := c HuddleRow.batt 0 (by decide) fun t l => metaCell_some t l 0
  have c1 := c HuddleRow.temp 1 (by decide) fun t l => metaCell_some t l 1
  have c2 := c HuddleRow.A2 2 (by decide) fun t l => metaCell_some t l 2
  have c3 := c HuddleRow.A3 3 (by decide) fun t l => metaCell_some t l 3
  have c6 := c HuddleRow.maxFifoUsed 6 (by decide) fun t l => metaCell_some t l 6
  have c7 := c HuddleRow.maxOverruns 7 (by decide) fun t l => metaCell_some t l 7
  have c9 := c HuddleRow.unusedStack1 9 (by decide) fun t l => metaCell_some t l 9
  have c10 := c HuddleRow.unusedStackIdle 10 (by decide) fun t l => metaCell_some t l 10
  have hfifo : (rows.countP fun r => decide (∃ x, r.maxFifoUsed = some x ∧ 5 < x)) = (placeReadings lines 6).countP fun x => decide (5 < x) := by
    have e1 : (rows.countP fun r => decide (∃ x, r.maxFifoUsed = some x ∧ 5 < x)) =
        (rows.map HuddleRow.maxFifoUsed).countP fun o => decide (∃ x, o = some x ∧ 5 < x) := by
      rw [List.countP_map]; rfl
    rw [e1, c6, List.countP_map]
    congr 1
    funext x
    simp
  have hover : (∃ r ∈ rows, r.maxOverruns ≠ some 0) ↔ ∃ x ∈ placeReadings lines 7, x ≠ 0 := by
    constructor
    · rintro ⟨r, hr, hne⟩
      have : r.maxOverruns ∈ rows.map HuddleRow.maxOverruns := List.mem_map_of_mem hr
      rw [c7, List.mem_map] at this
      obtain ⟨x, hx, e⟩ := this
      exact ⟨x, hx, fun e0 => hne (by rw [← e, e0])⟩
    · rintro ⟨x, hx, hne⟩
      have : some x ∈ rows.map HuddleRow.maxOverruns := by rw [c7]; exact List.mem_map_of_mem hx
      obtain ⟨r, hr, e⟩ := List.mem_map.mp this
      exact ⟨r, hr, by rw [e]; simpa using hne⟩
  cases test <;>
    simp only [ErrorCase, WarningCase, NoteCase, LoggedError, LoggedWarning, LoggedNote, hasReading_iff c0, hasReading_iff c1, hasReading_iff c6,
      hasReading_iff c9, hasReading_iff c10, flatSteps_iff c2, flatSteps_iff c3, outOfRange_iff c2, outOfRange_iff c3, hlen, hfifo, hover, List.mem_append,
      and_self, iff_self]
  exact ⟨trivial, hgps, trivial⟩

theorem metaLog_rows {tb : Tables} {lines : List (Rat × List Rat × Option Rat)}
    (h : tb.metadata = lines.map fun p => (p.1, p.2.1.map some, p.2.2)) : metaLogOf tb = rowsOf (lines.map fun p => (p.2.2, p.2.1)) := by
  unfold metaLogOf rowsOf
  rw [h, List.map_map, List.map_map]
  rfl

/-- **C122.** Convert the raw files of a logger, recorded without defects (the conditions of `C66_convert`), and test the result together with those of any other
loggers. If the huddle test completes, each of its results for the logger says error, warning or note exactly if the status lines in the raw files, all of them and no others,
call for it. -/
theorem C122_huddle (d : RawDisk) (dir : List Entry) (SN : List Nat) (log : Entry → List Event) (nums : List (Option Int)) (ns : List Int)
    (hns : convertNums true dir SN nums = .ok ns) (n : Int) (hn : pyInt SN = some n) (specs : Specs) (hspecs : gemSpecs n = .ok specs)
    (hfit : Reproduces d.fit) (hfit1 : ReproducesLines d.fit) (blockdays : Rat) (l t2 : Int) (hb : 0 < blockdays) (hl : 0 < l)
    (r0 : BlockSpan) (rs : List BlockSpan)
    (hblocks : List.Forall₂ (fun block r => ∃ first rest, CleanBlock d dir SN log block r first rest)
      (jobOf d.env dir SN ns blockdays (10000 * l) t2).blocks (r0 :: rs))
    (horder : (r0 :: rs).IsChain fun x y => x.stop < y.start) (hpos : 1 ≤ r0.start) (hlong : 103 / 100 ≤ r0.stop - r0.start)
    (hfar : ∀ r ∈ r0 :: rs, 1000000 * r.stop + 10000 * l + ⌈86400000000 * blockdays⌉ + 1000000 ≤ t2) :
    ∃ s tb, Settles (convertT (tableJobOf d.env dir SN ns blockdays (10000 * l) t2) none) (.done (s, tb)) ∧
      let lines := statusLines log (((jobOf d.env dir SN ns blockdays (10000 * l) t2).blocks.map (findFiles dir SN)).zip (r0 :: rs))
      metaLogOf tb = rowsOf lines ∧
      ∀ (before after : List (List Nat × List HuddleRow)) (only : Bool) (out : HuddleOutcome),
        verifyHuddle (before ++ (SN, metaLogOf tb) :: after) only = .ok out →
        ∃ row, out.printed.individual.results[before.length]? = some (SN, row) ∧ row.map Prod.fst = allTests ∧
          ∀ p ∈ row, (p.2 = .error ↔ LoggedError lines p.1) ∧ (p.2 = .warning ↔ ¬ LoggedError lines p.1 ∧ LoggedWarning lines p.1) ∧
            (p.2 = .note ↔ LoggedNote lines p.1) := by
  obtain ⟨s, tb, hset, hmeta⟩ := C67_status_times d dir SN log nums ns hns n hn specs hspecs hfit hfit1 blockdays l t2 hb hl r0 rs hblocks horder
    hpos hlong hfar
  refine ⟨s, tb, hset, ?_⟩
  intro lines
  have hrows : metaLogOf tb = rowsOf lines := by
    rw [metaLog_rows hmeta]
    congr 1
    show _ = List.flatMap _ _
    rw [List.map_flatMap, List.zip_map_left, List.flatMap_map]
    rfl
  refine ⟨hrows, ?_⟩
  intro before after only out hout
  rw [hrows] at hout
  have h11 : ∀ x ∈ lines, x.2.length = 11 := statusLines_length
  obtain ⟨-, hres⟩ := C77_results _ only out hout
  obtain ⟨row, h1, h2, h3⟩ := hres before.length SN (rowsOf lines) (by rw [List.getElem?_append_right (le_refl _)]; simp)
  refine ⟨row, h1, h2, ?_⟩
  intro p hp
  have hgaps : NoGaps (rowsOf lines) := by
    intro r hr
    have c : ∀ (col : HuddleRow → Option Rat) (k : Nat), k < 11 → (∀ (t : Option Rat) (l : List Rat), col (huddleRowOf (0, l.map some, t)) = l[k]?) →
        col r ≠ none := by
      intro col k hk hcol
      have : col r ∈ (rowsOf lines).map col := List.mem_map_of_mem hr
      rw [rows_full h11 hk col hcol, List.mem_map] at this
      obtain ⟨x, _, e⟩ := this
      rw [← e]; simp
    exact ⟨c HuddleRow.batt 0 (by decide) fun t l => metaCell_some t l 0, c HuddleRow.temp 1 (by decide) fun t l => metaCell_some t l 1⟩
  obtain ⟨e1, e2, e3⟩ := h3 hgaps p hp
  obtain ⟨c1, c2, c3⟩ := cases_iff h11 p.1
  rw [c1] at e1
  rw [c1, c2] at e2
  rw [c3] at e3
  exact ⟨e1, e2, e3⟩

end Gemlog
