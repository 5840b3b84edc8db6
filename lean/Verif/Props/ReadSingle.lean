import Verif.Model.ReadSingle
import Verif.Props.Process

/-!
# Properties C13, C14: reading one file

The reader outcomes are arbitrary, so the theorems hold whatever the three table readers do.
-/

namespace Gemlog

/-- The readers meant for a format version, fastest first. -/
def readersFor (rd : Readers) (version : String) : List (Except Exc Table) :=
  if version = "1.10" ∨ version = "0.91" ∨ version = "0.9" ∨ version = "0.85C" then [rd.cython, rd.pandas]
  else [rd.old]

/-- An outcome after which no other reader is tried: success, an empty or missing file, no GPS, or an interrupt. -/
def decisive {α : Type} : Except Exc α → Bool
  | .ok _ => true
  | .error .emptyRaw | .error .fileNotFound | .error .noGPS => true
  | .error .keyboardInterrupt | .error .baseOther => true
  | .error .corrupt | .error .inadequateGPS | .error .discontinuousGPS => false
  | .error .missingRaw | .error .other => false

/-- The outcome of one reader: its table, processed. -/
def outcomeOf (e : Bool) (offset : Rat) (rg : Bool) (version : String) (r : Except Exc Table) : Except Exc FileData :=
  match r with
  | .error x => .error x
  | .ok table => processData e table offset version rg

theorem rollover_none_processData {e : Bool} {table : Table} {offset : Rat} {version : String} {rg : Bool}
    (h : rolloverOf version = none) : processData e table offset version rg = .error .corrupt := by
  unfold processData; rw [h]

theorem timeCorrection_of_rollover {version : String} {R : Rat} (h : rolloverOf version = some R) :
    timeCorrection version = some (893 / 100) := by
  unfold rolloverOf at h
  unfold timeCorrection
  rw [if_pos]
  split_ifs at h with h1 h2 h3
  · simp at h1 ⊢; tauto
  · simp; tauto
  · simp; tauto

theorem tryReaders_eq (e : Bool) (offset : Rat) (rg : Bool) (version : String) (rs : List (Except Exc Table)) :
    tryReaders e offset rg version rs = match (rs.map (outcomeOf e offset rg version)).find? decisive with
      | none => .error .corrupt
      | some (.error x) => .error x
      | some (.ok out) => if out.gps = [] ∧ rg = true then .error .corrupt
          else .ok { out with data := out.data.map fun p => (p.1 + 893 / 100, p.2) } := by
  induction rs with
  | nil => rfl
  | cons r rs ih =>
    unfold tryReaders
    have hb : (r.bind fun table => processData e table offset version rg) = outcomeOf e offset rg version r := by
      cases r <;> rfl
    rw [hb, List.map_cons]
    cases ho : outcomeOf e offset rg version r with
    | error x =>
      cases x <;> simp [Exc.exitsEarly, Exc.isException, List.find?_cons, decisive, ih]
    | ok out =>
      have hr : ∃ R, rolloverOf version = some R := by
        cases r with
        | error x => simp [outcomeOf] at ho
        | ok t =>
          simp only [outcomeOf] at ho
          cases hR : rolloverOf version with
          | none => rw [rollover_none_processData hR] at ho; simp at ho
          | some R => exact ⟨R, rfl⟩
      obtain ⟨R, hR⟩ := hr
      simp only [List.find?_cons, decisive, timeCorrection_of_rollover hR, FileData.addDataTime]

/-- **C14.** The result is decided by the first reader with a decisive outcome; if there is none, the file is corrupt.
A success is returned with the sample times (only) 8.93 ms later; without a single valid fix it counts as corrupt
when GPS is required. -/
theorem C14_first_decisive_reader (e : Bool) (rd : Readers) (offset : Rat) (rg : Bool) (version : String) :
    readSingle e rd offset rg version =
      match ((readersFor rd version).map (outcomeOf e offset rg version)).find? decisive with
      | none => .error .corrupt
      | some (.error x) => .error x
      | some (.ok out) => if out.gps = [] ∧ rg = true then .error .corrupt
          else .ok { out with data := out.data.map fun p => (p.1 + 893 / 100, p.2) } := by
  unfold readSingle readersFor
  rw [tryReaders_eq]
  simp only [List.mem_cons, List.not_mem_nil, or_false]

/-- **C14.** `CorruptRawFile` is reported only if every reader of the version failed, or one succeeded without any
valid GPS fix although GPS is required. -/
theorem C14_corrupt_only_if (e : Bool) (rd : Readers) (offset : Rat) (rg : Bool) (version : String)
    (h : readSingle e rd offset rg version = .error .corrupt) :
    (∀ r ∈ readersFor rd version, ∀ out, outcomeOf e offset rg version r ≠ .ok out) ∨
    (rg = true ∧ ∃ r ∈ readersFor rd version, ∃ out, outcomeOf e offset rg version r = .ok out ∧ out.gps = []) := by
  rw [C14_first_decisive_reader] at h
  cases hf : ((readersFor rd version).map (outcomeOf e offset rg version)).find? decisive with
  | none =>
    left
    rw [List.find?_eq_none] at hf
    intro r hr out ho
    exact hf _ (List.mem_map.mpr ⟨r, hr, ho⟩) rfl
  | some o =>
    rw [hf] at h
    have hmem := List.mem_of_find?_eq_some hf
    have hd := List.find?_some hf
    cases o with
    | error x =>
      simp at h
      subst h
      simp [decisive] at hd
    | ok out =>
      right
      simp only at h
      split_ifs at h with hc
      obtain ⟨r, hr, ho⟩ := List.mem_map.mp hmem
      exact ⟨hc.2, r, hr, out, ho, hc.1⟩

/-- **C14.** An accepted file has a valid fix when GPS is required. -/
theorem C14_success_has_fix (e : Bool) (rd : Readers) (offset : Rat) (version : String) (out : FileData)
    (h : readSingle e rd offset true version = .ok out) : out.gps ≠ [] := by
  rw [C14_first_decisive_reader] at h
  split at h
  · simp at h
  · simp at h
  · split_ifs at h with hc
    simp only [Except.ok.injEq] at h
    rw [← h]
    simpa using hc

/-- The table of a small file. -/
def demoTable : Table :=
  ⟨false, [⟨.D, 10, [.num 5]⟩, ⟨.M, 15, [.num 15, .num 2, .num 3, .num 4, .num 5, .num 6, .num 7, .num 8, .num 9,
      .num 10, .num 11, .num 12]⟩,
    ⟨.G, 17, [.num 17, .num 70, .num 2020, .num 6, .num 20, .num 5, .num 21, .num 22, .num 43, .num (-116)]⟩,
    ⟨.D, 20, [.num (-7)]⟩]⟩

/-- Fallback on a concrete file: the fast reader fails, the slower one succeeds. -/
example : readSingle true ⟨.error .corrupt, .ok demoTable, .error .other⟩ 0 true "0.9" =
    .ok ⟨[(1893 / 100, some 5), (2893 / 100, some (-2))],
      [(15, [some 2, some 3, some 4, some 5, some 6, some 7, some 8, some 9, some 10, some 11, some 12])],
      [⟨⟨17, some 70, some 2020, some 6, some 20, some 5, some 21, some 22, some 43, some (-116)⟩, 1592630482⟩]⟩ := by
  decide +kernel
example : readSingle true ⟨.error .emptyRaw, .ok demoTable, .error .other⟩ 0 true "0.9" = .error .emptyRaw := by
  decide +kernel

/-! ## C13 -/

/-- A table any format can be made from: samples and metadata present, no text in numeric columns. -/
structure CleanTable (t : Table) : Prop where
  data : ∃ r ∈ t.rows, r.kind = .D
  meta' : ∃ r ∈ t.rows, r.kind = .M
  numeric : ∀ r ∈ t.rows, ∀ c ∈ r.cells, c ≠ .text

theorem toNumeric_some {c : Cell} (h : c ≠ .text) : ∃ x, c.toNumeric = some x := by
  cases c <;> simp_all [Cell.toNumeric]

theorem col_numeric {r : TRow} (h : ∀ c ∈ r.cells, c ≠ .text) (k : Nat) : ∃ x, (r.col k).toNumeric = some x := by
  apply toNumeric_some
  unfold TRow.col
  by_cases hk : k - 1 < r.cells.length
  · have : r.cells.getD (k - 1) .nan = r.cells[k - 1] := by simp [List.getD, hk]
    rw [this]
    exact h _ (List.getElem_mem hk)
  · have : r.cells.getD (k - 1) .nan = .nan := by
      rw [List.getD, List.getElem?_eq_none (by omega)]; rfl
    rw [this]
    simp

theorem mapM_isSome {α β : Type} (f : α → Option β) (l : List α) (h : ∀ a ∈ l, ∃ b, f a = some b) :
    ∃ r, l.mapM f = some r := by
  induction l with
  | nil => exact ⟨[], rfl⟩
  | cons a l ih =>
    obtain ⟨b, hb⟩ := h a (by simp)
    obtain ⟨r, hr⟩ := ih (fun x hx => h x (by simp [hx]))
    exact ⟨b :: r, by rw [List.mapM_cons, hb, hr]; rfl⟩

theorem filter_zip_ne_nil {α β : Type} (p : β → Bool) (a : List α) (b : List β) (hl : a.length = b.length)
    (h : ∃ r ∈ b, p r = true) : (a.zip b).filter (fun x => p x.2) ≠ [] := by
  intro hn
  have := zip_filter_snd p a b hl
  rw [hn] at this
  obtain ⟨r, hr, hp⟩ := h
  have hm : r ∈ b.filter p := List.mem_filter.mpr ⟨hr, hp⟩
  rw [← this] at hm
  simp at hm

/-- A GPS row with a plausible fix. -/
def PlausibleRow (r : TRow) : Prop :=
  r.kind = .G ∧ ∃ m rest, ∃ lag y mo d h mi s lat lon : Rat,
    r.cells = m :: .num lag :: .num y :: .num mo :: .num d :: .num h :: .num mi :: .num s :: .num lat :: .num lon
      :: rest ∧
    Plausible ⟨0, some lag, some y, some mo, some d, some h, some mi, some s, some lat, some lon⟩

theorem plausible_complete {g : GRaw} (h : Plausible g) : g.Complete := by
  obtain ⟨⟨a, ha, _⟩, ⟨b, hb, _⟩, ⟨c, hc, _⟩, y, mo, d, hh, mi, s, h1, h2, h3, h4, h5, h6, _⟩ := h
  exact ⟨⟨a, b, c, s, ha, hb, hc, h6⟩, y, mo, d, hh, mi, h1, h2, h3, h4, h5⟩

theorem plausible_ms {g : GRaw} (m : Rat) (h : Plausible g) : Plausible { g with msPPS := m } :=
  ⟨h.lat, h.lon, h.lag, h.time⟩

theorem gpsTable_some (e : Bool) (rows : List (Rat × TRow)) (hn : ∀ q ∈ rows, ∀ c ∈ q.2.cells, c ≠ .text)
    (hp : ∃ q ∈ rows, PlausibleRow q.2) : ∃ fixes, gpsTable e rows = some fixes ∧ fixes ≠ [] := by
  obtain ⟨q, hq, hk, m, rest, lag, y, mo, d, h, mi, s, lat, lon, hcells, hpl⟩ := hp
  have hrow : gRow q.1 q.2 = some ⟨q.1, some lag, some y, some mo, some d, some h, some mi, some s, some lat, some lon⟩ := by
    simp [gRow, TRow.col, hcells, Cell.toNumeric]
  have hpl' := plausible_ms q.1 hpl
  have hkeep := (C11_kept_iff_plausible _ (plausible_complete hpl')).mpr hpl'
  obtain ⟨gs, hgs⟩ := mapM_isSome (fun p : Rat × TRow => gRow p.1 p.2) rows (by
    intro a ha
    have hc := fun k => col_numeric (hn a ha) k
    obtain ⟨x2, h2⟩ := hc 2
    obtain ⟨x3, h3⟩ := hc 3
    obtain ⟨x4, h4⟩ := hc 4
    obtain ⟨x5, h5⟩ := hc 5
    obtain ⟨x6, h6⟩ := hc 6
    obtain ⟨x7, h7⟩ := hc 7
    obtain ⟨x8, h8⟩ := hc 8
    obtain ⟨x9, h9⟩ := hc 9
    obtain ⟨x10, h10⟩ := hc 10
    exact ⟨_, by unfold gRow; rw [h2, h3, h4, h5, h6, h7, h8, h9, h10]⟩)
  have hmem : (⟨q.1, some lag, some y, some mo, some d, some h, some mi, some s, some lat, some lon⟩ : GRaw) ∈ gs := by
    have h1 := mapM_get _ _ _ hgs
    have h2 : some (⟨q.1, some lag, some y, some mo, some d, some h, some mi, some s, some lat, some lon⟩ : GRaw)
        ∈ gs.map some := by
      rw [h1]; exact List.mem_map.mpr ⟨q, hq, hrow⟩
    obtain ⟨g, hg, he⟩ := List.mem_map.mp h2
    simp only [Option.some.injEq] at he
    rwa [he] at hg
  have hmem2 := List.mem_filter.mpr ⟨hmem, hkeep.1⟩
  unfold gpsTable
  split
  · simp at hq
  · rw [hgs]
    simp only
    rw [if_neg (by intro hc; rw [hc.1] at hmem2; simp at hmem2)]
    refine ⟨_, rfl, ?_⟩
    obtain ⟨f, hf⟩ := Option.isSome_iff_exists.mp hkeep.2
    intro hnil
    have := List.mem_filterMap.mpr ⟨_, hmem2, hf⟩
    rw [hnil] at this
    simp at this

/-- A clean table is processed (helper). -/
theorem processData_clean (e : Bool) (t : Table) (ht : CleanTable t) (offset : Rat) (version : String)
    (hv : version = "0.8" ∨ version = "0.85" ∨ version = "0.85C" ∨ version = "0.9" ∨ version = "1.10") (rg : Bool)
    (hg : rg = true → ∃ r ∈ t.rows, PlausibleRow r) :
    ∃ out, processData e t offset version rg = .ok out ∧ ¬ (out.gps = [] ∧ rg = true) := by
  have hR : ∃ R, rolloverOf version = some R := by
    rcases hv with h | h | h | h | h <;> subst h <;> simp [rolloverOf]
  obtain ⟨R, hR⟩ := hR
  have hms : ∃ ms, correctedMillis R offset (t.rows.map TRow.saw) = some ms := by
    unfold correctedMillis
    split
    · rename_i heq
      have hl : (correctedRaw R (t.rows.map TRow.saw)).length = 0 := by rw [heq]; rfl
      obtain ⟨r, hr, _⟩ := ht.data
      exfalso
      have h1 : ∀ (l : List Int) (a : Int), (cumsumFrom a l).length = l.length := by
        intro l
        induction l with
        | nil => intro a; rfl
        | cons x l ih => intro a; simp [cumsumFrom, ih]
      have h2 : ∀ (l : List Rat) (p : Option Rat), (pdDiffFrom p l).length = l.length := by
        intro l
        induction l with
        | nil => intro p; rfl
        | cons x l ih => intro p; simp [pdDiffFrom, ih]
      simp [correctedRaw, stairstep, cumsum, stepUp, stepDown, pdDiff, h1, h2] at hl
      rw [hl] at hr
      simp at hr
    · exact ⟨_, rfl⟩
  obtain ⟨ms, hms⟩ := hms
  have hlen : ms.length = t.rows.length := by rw [correctedMillis_length hms]; simp
  have hD := filter_zip_ne_nil (fun r : TRow => r.kind == .D) ms t.rows hlen
    (by obtain ⟨r, hr, hk⟩ := ht.data; exact ⟨r, hr, by simp [hk]⟩)
  have hM := filter_zip_ne_nil (fun r : TRow => r.kind == .M) ms t.rows hlen
    (by obtain ⟨r, hr, hk⟩ := ht.meta'; exact ⟨r, hr, by simp [hk]⟩)
  have hnum : ∀ (p : TRow → Bool), ∀ q ∈ (ms.zip t.rows).filter (fun x => p x.2), ∀ c ∈ q.2.cells, c ≠ .text := by
    intro p q hq
    exact ht.numeric q.2 (List.of_mem_zip (List.mem_filter.mp hq).1).2
  obtain ⟨adc, hadc⟩ := mapM_isSome (fun p : Rat × TRow => (p.2.col
      (if version ∈ ["0.8", "0.85"] then 2 else if t.isBytes = true then 2 else 1)).toNumeric)
    ((ms.zip t.rows).filter (fun x => x.2.kind == .D))
    (fun q hq => col_numeric (hnum (fun r => r.kind == .D) q hq) _)
  obtain ⟨mta, hmta⟩ := mapM_isSome (fun p : Rat × TRow =>
      (List.range (numMCols version - 1)).mapM fun j => (p.2.col (j + 2)).toNumeric)
    ((ms.zip t.rows).filter (fun x => x.2.kind == .M))
    (fun q hq => mapM_isSome _ _ (fun j _ => col_numeric (hnum (fun r => r.kind == .M) q hq) _))
  unfold processData
  rw [hR]
  simp only [hms]
  rw [if_neg (by push Not; exact ⟨hD, hM⟩)]
  simp only [hadc, hmta]
  cases hrg : rg with
  | false =>
    split
    · exact ⟨_, rfl, by simp⟩
    · exact ⟨_, rfl, by simp⟩
  | true =>
    obtain ⟨r, hr, hp⟩ := hg hrg
    have : ∃ q ∈ ms.zip t.rows, q.2 = r := by
      obtain ⟨i, hi, rfl⟩ := List.mem_iff_getElem.mp hr
      refine ⟨(ms.zip t.rows)[i]'(by simp; omega), List.getElem_mem _, by simp⟩
    obtain ⟨q, hq, rfl⟩ := this
    obtain ⟨fixes, hf, hne⟩ := gpsTable_some e ((ms.zip t.rows).filter fun p => p.2.kind == .G)
      (hnum (fun r => r.kind == .G)) ⟨q, List.mem_filter.mpr ⟨hq, by simp [hp.1]⟩, hp⟩
    rw [hf]
    exact ⟨_, rfl, by simp [hne]⟩

/-- **C13** (all formats except 0.91). A file whose reader yields a table of numbers with samples and metadata (and,
if GPS is required, at least one plausible fix) is accepted in every one of the five formats. (Which roll-over
and integration rule applies is C08_reader_times and C10_running_sum.)
Missing: format 0.91, see `C13_violated`. -/
theorem C13_formats_accepted_partial (e : Bool) (t : Table) (ht : CleanTable t) (offset : Rat) (version : String)
    (hv : version = "0.8" ∨ version = "0.85" ∨ version = "0.85C" ∨ version = "0.9" ∨ version = "1.10") (rg : Bool)
    (hg : rg = true → ∃ r ∈ t.rows, PlausibleRow r) (other : Except Exc Table) :
    ∃ out, readSingle e ⟨.ok t, other, .ok t⟩ offset rg version = .ok out := by
  obtain ⟨out, ho, hgps⟩ := processData_clean e t ht offset version hv rg hg
  refine ⟨{ out with data := out.data.map fun p => (p.1 + 893 / 100, p.2) }, ?_⟩
  rw [C14_first_decisive_reader]
  have : ((readersFor ⟨.ok t, other, .ok t⟩ version).map (outcomeOf e offset rg version)).find? decisive
      = some (.ok out) := by
    unfold readersFor
    split_ifs <;> simp [outcomeOf, ho, decisive]
  rw [this]
  simp only
  rw [if_neg hgps]

/-- **C13.** No other version string than the documented ones is ever read. -/
theorem C13_unknown_version_rejected (e : Bool) (rd : Readers) (offset : Rat) (rg : Bool) (version : String)
    (hv : version ∉ ["0.8", "0.85", "0.85C", "0.9", "1.10"]) (out : FileData) :
    readSingle e rd offset rg version ≠ .ok out := by
  have hR : rolloverOf version = none := by
    unfold rolloverOf
    simp at hv ⊢
    rw [if_neg (by tauto), if_neg (by tauto), if_neg (by tauto)]
  intro h
  rw [C14_first_decisive_reader] at h
  split at h
  · simp at h
  · simp at h
  · rename_i o ho
    obtain ⟨r, _, hr⟩ := List.mem_map.mp (List.mem_of_find?_eq_some ho)
    cases r with
    | error x => simp [outcomeOf] at hr
    | ok t => simp [outcomeOf, rollover_none_processData hR] at hr

/-- **C13 is violated** for the documented format 0.91: whatever the file, the single-file reader rejects it. -/
theorem C13_violated (e : Bool) (rd : Readers) (offset : Rat) (rg : Bool) (out : FileData) :
    readSingle e rd offset rg "0.91" ≠ .ok out :=
  C13_unknown_version_rejected e rd offset rg "0.91" (by decide) out

example : CleanTable demoTable :=
  ⟨⟨_, List.mem_cons_self .., rfl⟩, ⟨_, List.mem_cons_of_mem _ (List.mem_cons_self ..), rfl⟩, by
    decide +kernel⟩

example : ∃ r ∈ demoTable.rows, PlausibleRow r :=
  ⟨_, List.mem_cons_of_mem _ (List.mem_cons_of_mem _ (List.mem_cons_self ..)), rfl, _, [], 70, 2020, 6, 20, 5, 21, 22,
    43, -116, rfl, (C11_kept_iff_plausible _
      ⟨⟨43, -116, 70, 22, rfl, rfl, rfl, rfl⟩, 2020, 6, 20, 5, 21, by norm_num⟩).mp
      ⟨by decide +kernel, by decide +kernel⟩⟩

end Gemlog
