import Verif.Lemmas.Process
import Verif.Model.Reference
import Verif.Props.Calendar
import Verif.Props.Parser
import Verif.Props.Millis

/-!
# Properties C08 (in the reader), C10, C11
-/

namespace Gemlog

/-! ## C10 -/

/-- The stored pressure values of the sample rows, in file order. -/
def storedSteps (rows : List Row) : List Rat :=
  (rows.filter (fun r => r.kind == .D)).map fun r => r.vals.getD 0 0

theorem zip_filter_snd {α β : Type} (p : β → Bool) : ∀ (a : List α) (b : List β), a.length = b.length →
    ((a.zip b).filter (fun x => p x.2)).map Prod.snd = b.filter p := by
  intro a
  induction a with
  | nil => intro b h; cases b <;> simp_all
  | cons x a ih =>
    intro b h
    cases b with
    | nil => simp at h
    | cons y b =>
      have := ih b (by simpa using h)
      by_cases hp : p y <;> simp [hp, this]

/-- Numeric pressure cells of the sample rows of a table, for the column `k`. -/
def pressureCells (k : Nat) (table : Table) : List Cell :=
  (table.rows.filter (fun r => r.kind == .D)).map fun r => r.cells.getD (k - 1) .nan

/-- **C10.** The pressure column, for any table: with `k` the column holding the pressure, every cell is
numeric or missing; for the differenced formats a sample is the sum of all stored steps up to and
including its own (missing ones count zero and stay missing), for the others the stored value. -/
theorem C10_running_sum (e : Bool) (table : Table) (offset : Rat) (version : String) (rg : Bool)
    (out : FileData) (h : processData e table offset version rg = .ok out) :
    ∃ k, (k = if version = "0.8" ∨ version = "0.85" ∨ table.isBytes = true then 2 else 1) ∧
    ∃ steps : List (Option Rat), (pressureCells k table).map Cell.toNumeric = steps.map some ∧
      out.data.length = steps.length ∧
      ∀ i (hi : i < steps.length), (out.data.map Prod.snd)[i]? = some (
        if version = "1.10" ∨ version = "0.9" ∨ version = "0.85C"
        then (steps[i]).map fun _ => ((steps.take (i + 1)).filterMap id).sum
        else steps[i]) := by
  obtain ⟨p⟩ := process_ok h
  refine ⟨_, rfl, p.adc, ?_, ?_, ?_⟩
  · have h1 := mapM_get _ _ _ p.hadc
    rw [h1]
    have hl := correctedMillis_length p.hms
    rw [List.length_map] at hl
    have h2 := zip_filter_snd (fun r : TRow => r.kind == .D) p.ms table.rows hl
    unfold pressureCells
    rw [← h2, List.map_map, List.map_map]
    apply List.map_congr_left
    intro x _
    simp only [Function.comp, TRow.col]
    by_cases hv : version = "0.8" ∨ version = "0.85"
    · rw [if_pos (by tauto), if_pos (by simpa using hv)]
    · rw [if_neg (c := version ∈ ["0.8", "0.85"]) (by simpa using hv)]
      by_cases hb : table.isBytes = true
      · rw [if_pos (by tauto), if_pos hb]
      · rw [if_neg (by tauto), if_neg hb]
  · rw [p.hdata]
    have hl := mapM_length _ _ _ p.hadc
    split_ifs <;> simp [cumsumNaN_length, hl]
  · intro i hi
    have hl := mapM_length _ _ _ p.hadc
    have e : out.data.map Prod.snd = (if version ∈ ["1.10", "0.9", "0.85C"] then cumsumNaN 0 p.adc else p.adc) := by
      rw [p.hdata, List.map_snd_zip]
      split_ifs <;> simp [cumsumNaN_length, hl]
    rw [e]
    by_cases hv : version = "1.10" ∨ version = "0.9" ∨ version = "0.85C"
    · rw [if_pos (by simpa using hv), if_pos hv, cumsumNaN_get _ _ _ hi]
      simp
    · rw [if_neg (by simpa using hv), if_neg hv]
      simp [hi]

/-- **C10.** For a file read by the compiled parser in a differenced format: one sample per stored step, the
`i`-th being the sum of the first `i + 1` steps. -/
theorem C10_running_sum_file (e : Bool) (buf content : List Nat) (offset : Rat) (version : String)
    (hv : version ∈ ["1.10", "0.9", "0.85C"]) (rg : Bool) (out : FileData)
    (h : processData e (cythonTable (parseGem buf content)) offset version rg = .ok out) :
    out.data.map Prod.snd = (List.range (storedSteps (parseGem buf content)).length).map
      fun i => some (((storedSteps (parseGem buf content)).take (i + 1)).sum) := by
  have hw := C01_row_width buf content
  revert h hw
  generalize parseGem buf content = rows
  intro h hw
  obtain ⟨k, hk, steps, hs, hl, hg⟩ := C10_running_sum e _ offset version rg out h
  have hk2 : k = 2 := by rw [hk]; simp [cythonTable]
  subst hk2
  have hsteps : steps = (storedSteps rows).map some := by
    have : steps.map some = ((storedSteps rows).map some).map some := by
      rw [← hs]
      unfold pressureCells storedSteps cythonTable
      simp only
      rw [List.filter_map, List.map_map, List.map_map, List.map_map, List.map_map]
      have hf : ((fun r : TRow => r.kind == .D) ∘ fun r : Row => (⟨r.kind, r.millis, .nan :: r.vals.map .num⟩ : TRow))
          = fun r : Row => r.kind == .D := rfl
      rw [hf]
      apply List.map_congr_left
      intro r hr
      have hr' := hw r (List.mem_of_mem_filter hr)
      simp only [Function.comp]
      cases hv : r.vals with
      | nil => rw [hv] at hr'; simp at hr'
      | cons x l => simp [Cell.toNumeric]
    exact List.map_injective_iff.mpr (Option.some_injective _) this
  subst hsteps
  apply List.ext_getElem?
  intro i
  by_cases hi : i < (storedSteps rows).length
  · rw [hg i (by simpa using hi), if_pos (by simpa using hv)]
    rw [← List.map_take]
    simp [hi]
  · rw [List.getElem?_eq_none (by simp at hl ⊢; omega), List.getElem?_eq_none (by simp; omega)]

/-- A concrete file: three samples, a metadata line and a fix. -/
example : (processData true (cythonTable (parseGem []
      (bytes "D10,5\nD20,-7\nM,1,2,3,4,5,6,7,8,9,10,11,12\nG,25,7,2020,2,29,23,59,59,43.5,-116.5\nD30,4\n")))
      0 "0.9" true)
    = .ok ⟨[(10, some 5), (20, some (-2)), (30, some 2)],
        [(1, [some 2, some 3, some 4, some 5, some 6, some 7, some 8, some 9, some 10, some 11, some 12])],
        [⟨⟨25, some 7, some 2020, some 2, some 29, some 23, some 59, some 59, some (87 / 2), some (-233 / 2)⟩,
          1583020799⟩]⟩ := by decide +kernel

/-! ## C08 in the reader -/

theorem rollover_eq {version : String} {R : Rat} (h : rolloverOf version = some R) :
    R = 8192 ∨ R = 65536 := by
  unfold rolloverOf at h
  split_ifs at h <;> simp at h <;> subst h <;> norm_num

/-- **C08.** In the table reader: if the wrapped counts of the lines come from a true clock `T` that moves by less
than half a roll-over from line to line and starts within half a roll-over of the offset, then the samples
and metadata get exactly the true clock values of their lines, and every fix that of a GPS line. -/
theorem C08_reader_times (e : Bool) (table : Table) (offset : Rat) (version : String) (rg : Bool)
    (out : FileData) (h : processData e table offset version rg = .ok out) (R : Rat)
    (hv : (R = 8192 ∧ version ∈ ["0.85C", "0.9", "1.10"]) ∨ (R = 65536 ∧ version ∈ ["0.8", "0.85"]))
    (T : List Rat) (hs : List.Forall₂ (WrappedReading R) T (table.rows.map TRow.saw))
    (hstep : List.IsChain (fun a b => b - a < R / 2 ∧ -(R / 2) < b - a) T)
    (hfirst : ∀ t ∈ T.head?, -(R / 2) ≤ t - offset ∧ t - offset < R / 2) :
    out.data.map Prod.fst = ((T.zip table.rows).filter fun p => p.2.kind == .D).map Prod.fst ∧
    out.metadata.map Prod.fst = ((T.zip table.rows).filter fun p => p.2.kind == .M).map Prod.fst ∧
    ∀ f ∈ out.gps, ∃ p ∈ T.zip table.rows, p.2.kind = .G ∧ f.msPPS = p.1 := by
  obtain ⟨p⟩ := process_ok h
  have hR : p.R = R := by
    have := p.hR
    rcases hv with ⟨rfl, hv⟩ | ⟨rfl, hv⟩
    · simp only [List.mem_cons, List.not_mem_nil, or_false] at hv
      rcases hv with hv | hv | hv <;> subst hv <;> simp [rolloverOf] at this <;> rw [← this] <;> norm_num
    · simp only [List.mem_cons, List.not_mem_nil, or_false] at hv
      rcases hv with hv | hv <;> subst hv <;> simp [rolloverOf] at this <;> rw [← this] <;> norm_num
  have hpos : 0 < R := by rcases hv with ⟨rfl, _⟩ | ⟨rfl, _⟩ <;> norm_num
  have hne : T ≠ [] := by
    intro hT; subst hT
    have hlen := correctedMillis_length p.hms
    rw [← hs.length_eq] at hlen
    have : p.ms = [] := by simpa using hlen
    exact p.hD (by rw [this]; rfl)
  have hms : p.ms = T := by
    have := p.hms
    rw [hR, C08_true_clock_recovered R offset hpos T _ hs hstep hne hfirst] at this
    simpa using this.symm
  have ha := mapM_length _ _ _ p.hadc
  have hm := mapM_length _ _ _ p.hmta
  refine ⟨?_, ?_, ?_⟩
  · rw [p.hdata, hms, List.map_fst_zip]
    rw [hms] at ha
    split_ifs <;> simp [cumsumNaN_length, ha]
  · rw [p.hmeta, hms, List.map_fst_zip]
    rw [hms] at hm
    simp [hm]
  · intro f hf
    rcases p.hgps with hg | ⟨_, hg, _⟩
    · unfold gpsTable at hg
      split at hg
      · simp at hg
      · rename_i rows hrows
        split at hg
        · simp at hg
        · rename_i gs hgs
          simp only at hg
          split_ifs at hg with hc
          simp only [Option.some.injEq] at hg
          rw [← hg] at hf
          obtain ⟨g, hg1, hg2⟩ := List.mem_filterMap.mp hf
          have hg3 := List.mem_of_mem_filter hg1
          have := mapM_get _ _ _ hgs
          have hmem : some g ∈ gs.map some := List.mem_map.mpr ⟨g, hg3, rfl⟩
          rw [this] at hmem
          obtain ⟨q, hq1, hq2⟩ := List.mem_map.mp hmem
          refine ⟨q, by rw [← hms]; exact List.mem_of_mem_filter hq1, by simpa using (List.mem_filter.mp hq1).2, ?_⟩
          have h1 : f.msPPS = g.msPPS := by
            unfold withTime at hg2
            cases ht : makeGpsTime g with
            | none => simp [ht] at hg2
            | some t => simp [ht] at hg2; rw [← hg2]
          have h2 : g.msPPS = q.1 := by
            unfold gRow at hq2
            split at hq2
            · simp only [Option.some.injEq] at hq2; rw [← hq2]
            · simp at hq2
          rw [h1, h2]
    · rw [hg] at hf; simp at hf

/-! ## C11 -/

/-- A plausible fix: position non-zero and on the globe, lag of at most a second, year between 2014 and 2040,
and a real calendar time with whole seconds. (Calendar fields are printed as integers by the logger;
fractional ones would be truncated.) -/
structure Plausible (g : GRaw) : Prop where
  lat : ∃ x, g.lat = some x ∧ x ≠ 0 ∧ -90 ≤ x ∧ x ≤ 90
  lon : ∃ x, g.lon = some x ∧ x ≠ 0 ∧ -180 ≤ x ∧ x ≤ 180
  lag : ∃ x, g.msLag = some x ∧ 0 ≤ x ∧ x ≤ 1000
  time : ∃ y mo d h mi s : Int, g.year = some (y : Rat) ∧ g.month = some (mo : Rat) ∧ g.day = some (d : Rat) ∧
    g.hour = some (h : Rat) ∧ g.minute = some (mi : Rat) ∧ g.second = some (s : Rat) ∧
    2014 ≤ y ∧ y ≤ 2040 ∧ (Instant.mk y mo d h mi s).Real

/-- All fields are present, and the calendar fields other than seconds are integers (always the case for
lines read by the compiled parser). -/
def GRaw.Complete (g : GRaw) : Prop :=
  (∃ lat lon lag s : Rat, g.lat = some lat ∧ g.lon = some lon ∧ g.msLag = some lag ∧ g.second = some s) ∧
  ∃ y mo d h mi : Int, g.year = some (y : Rat) ∧ g.month = some (mo : Rat) ∧ g.day = some (d : Rat) ∧
    g.hour = some (h : Rat) ∧ g.minute = some (mi : Rat)

theorem pyTrunc_int (z : Int) : pyTrunc (z : Rat) = z := by
  unfold pyTrunc; split_ifs <;> simp

theorem npRound_int (z : Int) : npRound (z : Rat) = z := by
  unfold npRound; simp

theorem npRound_eq_iff (x : Rat) : x = (npRound x : Rat) ↔ ∃ z : Int, x = (z : Rat) := by
  constructor
  · intro h; exact ⟨_, h⟩
  · rintro ⟨z, rfl⟩; rw [npRound_int]

/-- **C11.** A complete GPS row passes the filter and gets a time exactly when it is plausible. -/
theorem C11_kept_iff_plausible (g : GRaw) (hc : g.Complete) :
    (gpsInBounds g = true ∧ (withTime g).isSome) ↔ Plausible g := by
  obtain ⟨⟨lat, lon, lag, s, h1, h2, h3, h4⟩, y, mo, d, h, mi, h5, h6, h7, h8, h9⟩ := hc
  have hb : gpsInBounds g = true ↔ (lat ≠ 0 ∧ -90 ≤ lat ∧ lat ≤ 90 ∧ lon ≠ 0 ∧ -180 ≤ lon ∧ lon ≤ 180 ∧
      0 ≤ lag ∧ lag ≤ 1000 ∧ (2014 ≤ y ∧ y ≤ 2040) ∧ (1 ≤ mo ∧ mo ≤ 12) ∧ (1 ≤ d ∧ d ≤ 31) ∧ (0 ≤ h ∧ h ≤ 24) ∧
      (0 ≤ mi ∧ mi ≤ 60) ∧ (0 ≤ s ∧ s ≤ 60) ∧ s = (npRound s : Rat)) := by
    have cast : ∀ (a b z : Int), outside (a : Rat) (b : Rat) (some (z : Rat)) = false ↔ (a ≤ z ∧ z ≤ b) := by
      intro a b z; simp [outside, not_lt]
    have cast' : ∀ (a b z : Rat), outside a b (some z) = false ↔ (a ≤ z ∧ z ≤ b) := by
      intro a b z; simp [outside, not_lt]
    have c1 := cast 2014 2040 y
    have c2 := cast 1 12 mo
    have c3 := cast 1 31 d
    have c4 := cast 0 24 h
    have c5 := cast 0 60 mi
    have c6 := cast' (-90) 90 lat
    have c7 := cast' (-180) 180 lon
    have c8 := cast' 0 1000 lag
    have c9 := cast' 0 60 s
    push_cast at c1 c2 c3 c4 c5
    have c10 : (some lat == some (0 : Rat)) = false ↔ lat ≠ 0 := by simp
    have c11 : (some lon == some (0 : Rat)) = false ↔ lon ≠ 0 := by simp
    have c12 : notWhole (some s) = false ↔ s = (npRound s : Rat) := by simp [notWhole]
    unfold gpsInBounds
    rw [h1, h2, h3, h4, h5, h6, h7, h8, h9, Bool.not_eq_true']
    simp only [Bool.or_eq_false_iff]
    rw [c1, c2, c3, c4, c5, c6, c7, c8, c9, c10, c11, c12]
    constructor
    · rintro ⟨⟨⟨⟨⟨⟨⟨⟨⟨a, b⟩, c⟩, d⟩, e⟩, f⟩, g⟩, h⟩, i⟩, ⟨j, k⟩, l⟩
      exact ⟨j, a.1, a.2, k, b.1, b.2, c.1, c.2, d, e, f, g, h, i, l⟩
    · rintro ⟨j, a1, a2, k, b1, b2, c1, c2, d, e, f, g, h, i, l⟩
      exact ⟨⟨⟨⟨⟨⟨⟨⟨⟨⟨a1, a2⟩, ⟨b1, b2⟩⟩, ⟨c1, c2⟩⟩, d⟩, e⟩, f⟩, g⟩, h⟩, i⟩, ⟨j, k⟩, l⟩
  have ht : (withTime g).isSome ↔ (Instant.mk y mo d h mi (pyTrunc s)).Real := by
    rw [← C12_time_iff_real]
    unfold withTime makeGpsTime Instant.time
    rw [h4, h5, h6, h7, h8, h9]
    simp only [pyTrunc_int, Option.isSome_map]
  rw [hb, ht]
  constructor
  · rintro ⟨⟨a1, a2, a3, a4, a5, a6, a7, a8, a9, _, _, _, _, _, a10⟩, a11⟩
    obtain ⟨z, hz⟩ := (npRound_eq_iff s).mp a10
    rw [hz, pyTrunc_int] at a11
    exact ⟨⟨lat, h1, a1, a2, a3⟩, ⟨lon, h2, a4, a5, a6⟩, ⟨lag, h3, a7, a8⟩,
      ⟨y, mo, d, h, mi, z, h5, h6, h7, h8, h9, by rw [h4, hz], a9.1, a9.2, a11⟩⟩
  · rintro ⟨⟨x1, e1, b1⟩, ⟨x2, e2, b2⟩, ⟨x3, e3, b3⟩, y', mo', d', h', mi', z, f1, f2, f3, f4, f5, f6, b4, b5, hr⟩
    rw [h1] at e1; rw [h2] at e2; rw [h3] at e3; rw [h4] at f6; rw [h5] at f1; rw [h6] at f2
    rw [h7] at f3; rw [h8] at f4; rw [h9] at f5
    simp only [Option.some.injEq, Int.cast_inj] at e1 e2 e3 f1 f2 f3 f4 f5 f6
    subst e1 e2 e3 f1 f2 f3 f4 f5 f6
    have hr' := (real_iff _).mp hr
    obtain ⟨⟨q1, q2, q3, q4, q5, q6⟩, r1, r2, r3, r4, r5, r6⟩ := hr'
    simp only at q1 q2 q3 q4 q5 q6 r1 r2 r3 r4 r5 r6
    have hml := monthLen_pos y mo
    refine ⟨⟨b1.1, b1.2.1, b1.2.2, b2.1, b2.2.1, b2.2.2, b3.1, b3.2, ⟨b4, b5⟩, ⟨q3, q4⟩, ⟨q5, by omega⟩,
      ⟨r1, by omega⟩, ⟨r3, by omega⟩, ⟨by exact_mod_cast r5, by exact_mod_cast (show z ≤ 60 by omega)⟩,
      by rw [npRound_int]⟩, ?_⟩
    rw [pyTrunc_int]; exact hr

open Classical in
/-- **C11.** The fixes returned for a table with complete GPS rows are exactly the plausible ones, in file order,
each with the time of its calendar fields. -/
theorem C11_fixes_are_plausible_rows (e : Bool) (rows : List (Rat × TRow)) (gs : List GRaw)
    (hgs : rows.mapM (fun p => gRow p.1 p.2) = some gs) (hc : ∀ g ∈ gs, g.Complete) (fixes : List Fix)
    (h : gpsTable e rows = some fixes) :
    fixes.map Fix.toGRaw = gs.filter (fun g => decide (Plausible g)) ∧
    ∀ f ∈ fixes, ∃ y mo d h mi s : Int, ∃ t : Int, f.year = some (y : Rat) ∧ f.month = some (mo : Rat) ∧
      f.day = some (d : Rat) ∧ f.hour = some (h : Rat) ∧ f.minute = some (mi : Rat) ∧
      f.second = some (s : Rat) ∧ (Instant.mk y mo d h mi s).time = some t ∧ f.t = t := by
  unfold gpsTable at h
  split at h
  · simp at h
  rw [hgs] at h
  simp only at h
  split_ifs at h with hcond
  simp only [Option.some.injEq] at h
  subst h
  constructor
  · clear hgs hcond
    induction gs with
    | nil => rfl
    | cons g gs ih =>
      have hk := C11_kept_iff_plausible g (hc g (by simp))
      have ih := ih (fun x hx => hc x (by simp [hx]))
      by_cases hb : gpsInBounds g = true
      · rw [List.filter_cons_of_pos hb, List.filterMap_cons]
        cases hw : withTime g with
        | none =>
          have : ¬ Plausible g := fun hp => by simpa [hw] using (hk.mpr hp).2
          rw [List.filter_cons_of_neg (by simpa using this)]
          exact ih
        | some f =>
          have hp : Plausible g := hk.mp ⟨hb, by rw [hw]; rfl⟩
          rw [List.filter_cons_of_pos (by simpa using hp)]
          simp only [List.map_cons]
          rw [ih]
          congr 1
          unfold withTime at hw
          cases ht : makeGpsTime g with
          | none => simp [ht] at hw
          | some t => simp [ht] at hw; rw [← hw]
      · have : ¬ Plausible g := fun hp => hb (hk.mpr hp).1
        rw [List.filter_cons_of_neg hb, List.filter_cons_of_neg (by simpa using this)]
        exact ih
  · intro f hf
    obtain ⟨g, hg1, hg2⟩ := List.mem_filterMap.mp hf
    have hg := List.mem_filter.mp hg1
    have hp : Plausible g := (C11_kept_iff_plausible g (hc g hg.1)).mp ⟨hg.2, by rw [hg2]; rfl⟩
    obtain ⟨y, mo, d, h, mi, s, f1, f2, f3, f4, f5, f6, _, _, hr⟩ := hp.time
    unfold withTime at hg2
    cases ht : makeGpsTime g with
    | none => simp [ht] at hg2
    | some t =>
      simp [ht] at hg2
      subst hg2
      refine ⟨y, mo, d, h, mi, s, t, f1, f2, f3, f4, f5, f6, ?_, rfl⟩
      rw [← ht]
      unfold makeGpsTime Instant.time
      rw [f1, f2, f3, f4, f5, f6]
      simp only [pyTrunc_int]

/-- The nine numbers of a GPS row of the compiled parser, with a time stamp. -/
def gpsFields (m : Rat) (r : Row) : GRaw :=
  ⟨m, r.vals[0]?, r.vals[1]?, r.vals[2]?, r.vals[3]?, r.vals[4]?, r.vals[5]?, r.vals[6]?, r.vals[7]?, r.vals[8]?⟩

open Classical in
/-- **C11.** Whole files read by the compiled parser: the fixes returned are exactly the plausible GPS lines, in
file order (with `ms` the corrected millisecond counts of the lines, see C08). -/
theorem C11_file (e : Bool) (buf content : List Nat) (offset : Rat) (version : String) (rg : Bool) (out : FileData)
    (hint : ∀ r ∈ parseGem buf content, r.kind = .G → ∀ j, 1 ≤ j → j ≤ 5 → ∃ z : Int, r.vals[j]? = some (z : Rat))
    (h : processData e (cythonTable (parseGem buf content)) offset version rg = .ok out) :
    ∃ ms : List Rat, ms.length = (parseGem buf content).length ∧
      out.gps.map Fix.toGRaw = (((ms.zip (parseGem buf content)).filter fun p => p.2.kind == .G).map
        fun p => gpsFields p.1 p.2).filter (fun g => decide (Plausible g)) := by
  have hw := C01_row_width buf content
  revert h hw hint
  generalize parseGem buf content = rows
  intro hint h hw
  obtain ⟨p⟩ := process_ok h
  have hlen : p.ms.length = rows.length := by
    rw [correctedMillis_length p.hms]; simp [cythonTable]
  refine ⟨p.ms, hlen, ?_⟩
  let toT : Row → TRow := fun r => ⟨r.kind, r.millis, .nan :: r.vals.map .num⟩
  have hG : (p.ms.zip (cythonTable rows).rows).filter (fun q => q.2.kind == .G)
      = ((p.ms.zip rows).filter (fun q => q.2.kind == .G)).map (fun q => (q.1, toT q.2)) := by
    show (p.ms.zip (rows.map toT)).filter _ = _
    rw [List.zip_map_right, List.filter_map]
    rfl
  have hcomp : ∀ q ∈ (p.ms.zip rows).filter (fun q => q.2.kind == .G), (gpsFields q.1 q.2).Complete := by
    intro q hq
    obtain ⟨hq1, hq2⟩ := List.mem_filter.mp hq
    have hm := (List.of_mem_zip hq1).2
    have h11 := hw _ hm
    have hi := hint _ hm (by simpa using hq2)
    refine ⟨⟨q.2.vals[7], q.2.vals[8], q.2.vals[0], q.2.vals[6], ?_⟩, ?_⟩
    · simp [gpsFields]
    · obtain ⟨y, hy⟩ := hi 1 (by omega) (by omega)
      obtain ⟨mo, hmo⟩ := hi 2 (by omega) (by omega)
      obtain ⟨d, hd⟩ := hi 3 (by omega) (by omega)
      obtain ⟨hh, hhh⟩ := hi 4 (by omega) (by omega)
      obtain ⟨mi, hmi⟩ := hi 5 (by omega) (by omega)
      exact ⟨y, mo, d, hh, mi, hy, hmo, hd, hhh, hmi⟩
  have hrow : ∀ q ∈ (p.ms.zip rows).filter (fun q => q.2.kind == .G), gRow q.1 (toT q.2) = some (gpsFields q.1 q.2) := by
    intro q hq
    have h11 := hw _ (List.of_mem_zip (List.mem_filter.mp hq).1).2
    simp [gRow, TRow.col, toT, gpsFields, Cell.toNumeric, h11]
  have hmap : ((p.ms.zip (cythonTable rows).rows).filter (fun q => q.2.kind == .G)).mapM (fun q => gRow q.1 q.2)
      = some (((p.ms.zip rows).filter fun q => q.2.kind == .G).map fun q => gpsFields q.1 q.2) := by
    rw [hG, mapM_total _ (fun q : Rat × TRow => (gRow q.1 q.2).getD ⟨0, none, none, none, none, none, none, none, none, none⟩)]
    · rw [List.map_map]
      congr 1
      apply List.map_congr_left
      intro q hq
      simp only [Function.comp, hrow q hq, Option.getD_some]
    · intro q hq
      obtain ⟨q', hq', rfl⟩ := List.mem_map.mp hq
      simp only [hrow q' hq', Option.getD_some]
  have hall : ∀ g ∈ (((p.ms.zip rows).filter fun q => q.2.kind == .G).map fun q => gpsFields q.1 q.2), g.Complete := by
    intro g hg
    obtain ⟨q, hq, rfl⟩ := List.mem_map.mp hg
    exact hcomp q hq
  rcases p.hgps with hg | ⟨hg, hnil, _⟩
  · exact (C11_fixes_are_plausible_rows e _ _ hmap hall _ hg).1
  · rw [hnil]
    symm
    rw [List.map_nil, List.filter_eq_nil_iff]
    intro g hgm hp
    have hk := (C11_kept_iff_plausible g (hall g hgm)).mpr (by simpa using hp)
    unfold gpsTable at hg
    split at hg
    · rename_i hempty
      rw [hempty] at hmap
      have h0 := mapM_length _ _ _ hmap
      rw [List.length_nil] at h0
      rw [List.eq_nil_of_length_eq_zero h0] at hgm
      simp at hgm
    · rw [hmap] at hg
      simp only at hg
      split_ifs at hg with hc
      have : g ∈ List.filter gpsInBounds (((p.ms.zip rows).filter fun q => q.2.kind == .G).map fun q => gpsFields q.1 q.2) :=
        List.mem_filter.mpr ⟨hgm, hk.1⟩
      rw [hc.1] at this
      simp at this

/-- GPS rows made of numbers only, from the compiled parser's rows, are complete when their calendar columns
are integers. -/
example : (⟨0, some 70, some 2020, some 6, some 20, some 5, some 21, some 22, some 43, some (-116)⟩ : GRaw).Complete ∧
    gpsInBounds ⟨0, some 70, some 2020, some 6, some 20, some 5, some 21, some 22, some 43, some (-116)⟩ = true ∧
    gpsInBounds ⟨0, some 70, some 2020, some 6, some 20, some 5, some 21, some (45 / 2), some 43, some (-116)⟩ = false :=
  ⟨⟨⟨43, -116, 70, 22, rfl, rfl, rfl, rfl⟩, 2020, 6, 20, 5, 21, by norm_num⟩, by decide +kernel, by decide +kernel⟩

theorem outside_or (lo hi : Rat) {x y : Option Rat} (h : x = none ∨ x = y) (hy : outside lo hi y = false) : outside lo hi x = false := by
  rcases h with rfl | rfl
  · rfl
  · exact hy

/-- **C11 is violated** for every GPS row that lost its latitude, its longitude or both (possible when the text-table reader meets a line
cut off after the time): comparisons with NaN are false, so if the rest of the row is plausible it counts as a valid fix. -/
theorem C11_violated_missing_position (g : GRaw) (hp : Plausible g) (lat lon : Option Rat) (hlat : lat = none ∨ lat = g.lat)
    (hlon : lon = none ∨ lon = g.lon) (hmiss : lat = none ∨ lon = none) (e : Bool) (rows : List (Rat × TRow)) (gs : List GRaw)
    (hgs : rows.mapM (fun p => gRow p.1 p.2) = some gs) (hmem : { g with lat := lat, lon := lon } ∈ gs) :
    ¬ Plausible { g with lat := lat, lon := lon } ∧
      ∃ fixes, gpsTable e rows = some fixes ∧ ∃ f ∈ fixes, f.toGRaw = { g with lat := lat, lon := lon } := by
  constructor
  · intro h
    rcases hmiss with rfl | rfl
    · obtain ⟨x, hx, _⟩ := h.lat
      simp at hx
    · obtain ⟨x, hx, _⟩ := h.lon
      simp at hx
  have hc : g.Complete := by
    obtain ⟨⟨x1, e1, _⟩, ⟨x2, e2, _⟩, ⟨x3, e3, _⟩, y, mo, d, h, mi, z, f1, f2, f3, f4, f5, f6, _⟩ := hp
    exact ⟨⟨x1, x2, x3, z, e1, e2, e3, f6⟩, y, mo, d, h, mi, f1, f2, f3, f4, f5⟩
  obtain ⟨hb, ht⟩ := (C11_kept_iff_plausible g hc).mpr hp
  have hb' : gpsInBounds { g with lat := lat, lon := lon } = true := by
    unfold gpsInBounds at hb ⊢
    simp only [Bool.not_eq_true', Bool.or_eq_false_iff] at hb ⊢
    obtain ⟨⟨⟨⟨⟨⟨⟨⟨⟨a, b⟩, c⟩, d⟩, e⟩, f⟩, g⟩, h⟩, i⟩, ⟨j, k⟩, l⟩ := hb
    refine ⟨⟨⟨⟨⟨⟨⟨⟨⟨outside_or _ _ hlat a, outside_or _ _ hlon b⟩, c⟩, d⟩, e⟩, f⟩, g⟩, h⟩, i⟩, ⟨?_, ?_⟩, l⟩
    · rcases hlat with rfl | rfl
      · rfl
      · exact j
    · rcases hlon with rfl | rfl
      · rfl
      · exact k
  have hin : { g with lat := lat, lon := lon } ∈ gs.filter gpsInBounds := List.mem_filter.mpr ⟨hmem, hb'⟩
  obtain ⟨f, hf⟩ : ∃ f, withTime { g with lat := lat, lon := lon } = some f := by
    unfold withTime at ht ⊢
    rw [Option.isSome_map] at ht
    obtain ⟨t, ht⟩ := Option.isSome_iff_exists.mp ht
    have : makeGpsTime { g with lat := lat, lon := lon } = some t := ht
    rw [this]
    exact ⟨_, rfl⟩
  refine ⟨(gs.filter gpsInBounds).filterMap withTime, ?_, f, List.mem_filterMap.mpr ⟨_, hin, hf⟩, ?_⟩
  · unfold gpsTable
    cases rows with
    | nil =>
      simp at hgs
      rw [hgs] at hmem
      simp at hmem
    | cons r rows =>
      simp only [hgs]
      rw [if_neg]
      rintro ⟨h, _⟩
      rw [h] at hin
      simp at hin
  · unfold withTime at hf
    obtain ⟨t, _, rfl⟩ := Option.map_eq_some_iff.mp hf
    rfl

/-- Such a row, and what becomes of it. -/
example : gpsTable true [(0, ⟨.G, 0, [.num 0, .num 70, .num 2020, .num 6, .num 20, .num 5, .num 21, .num 22, .nan, .nan]⟩)]
      = some [⟨⟨0, some 70, some 2020, some 6, some 20, some 5, some 21, some 22, none, none⟩, 1592630482⟩] ∧
    ¬ Plausible ⟨0, some 70, some 2020, some 6, some 20, some 5, some 21, some 22, none, none⟩ := by
  refine ⟨by decide +kernel, ?_⟩
  have hp : Plausible ⟨0, some 70, some 2020, some 6, some 20, some 5, some 21, some 22, some 43, some (-116)⟩ :=
    (C11_kept_iff_plausible _ ⟨⟨43, -116, 70, 22, rfl, rfl, rfl, rfl⟩, 2020, 6, 20, 5, 21, by norm_num⟩).mp
      ⟨by decide +kernel, by decide +kernel⟩
  exact (C11_violated_missing_position _ hp none none (.inl rfl) (.inl rfl) (.inl rfl) true
    [(0, ⟨.G, 0, [.num 0, .num 70, .num 2020, .num 6, .num 20, .num 5, .num 21, .num 22, .nan, .nan]⟩)]
    [⟨0, some 70, some 2020, some 6, some 20, some 5, some 21, some 22, none, none⟩] (by decide +kernel) (by simp)).1

/-- **C11.** The reference reader applies the same test. -/
theorem C11_reference_same_test (m lag y mo d h mi s lat lon : Rat) :
    slowCheckGps lag y mo d h mi s lat lon
      = gpsInBounds ⟨m, some lag, some y, some mo, some d, some h, some mi, some s, some lat, some lon⟩ := by
  have e : ∀ x : Rat, (some x == some (0 : Rat)) = (x == 0) := by
    intro x
    by_cases hx : x = 0 <;> simp [hx]
  unfold slowCheckGps gpsInBounds
  simp only [outside, notWhole, e, gt_iff_lt]
  generalize (lat == 0) = a1
  generalize (lon == 0) = a2
  generalize decide (90 < lat) = a3
  generalize decide (lat < -90) = a4
  generalize decide (180 < lon) = a5
  generalize decide (lon < -180) = a6
  generalize decide (1000 < lag) = a7
  generalize decide (lag < 0) = a8
  generalize decide (2040 < y) = a9
  generalize decide (y < 2014) = b1
  generalize decide (12 < mo) = b2
  generalize decide (mo < 1) = b3
  generalize decide (31 < d) = b4
  generalize decide (d < 1) = b5
  generalize decide (24 < h) = b6
  generalize decide (h < 0) = b7
  generalize decide (60 < mi) = b8
  generalize decide (mi < 0) = b9
  generalize decide (60 < s) = c1
  generalize decide (s < 0) = c2
  generalize (s != (npRound s : Rat)) = c3
  congr 1
  ac_rfl

end Gemlog
