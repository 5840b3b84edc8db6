import Verif.Spec.DayFiles
import Verif.Props.MergeDays
import Verif.Props.Limits
import Verif.Props.NamesDistinct

/-!
# C107: from converted files to day files
-/

namespace Gemlog

/-- What is asked of the recordings and of the table of codes. -/
structure DaySetup (recs : List Converted) (table : List StationRow) (fmt : List Nat) : Prop where
  /-- There is one recording for each serial number. -/
  serials : (recs.map Converted.sn).Nodup
  snChars : ∀ c ∈ recs, 46 ∉ c.sn ∧ 47 ∉ c.sn
  /-- The samples of each recording follow each other in time; no two of its files start in the same second. -/
  order : ∀ c ∈ recs, InOrder c.traces
  seconds : ∀ c ∈ recs, c.traces.Pairwise fun a b => a.start / 100 ≠ b.start / 100
  dates : ∀ c ∈ recs, ∀ tr ∈ c.traces, Datable tr.start
  /-- Codes contain neither points nor commas. -/
  codeChars : ∀ r ∈ table, (46 ∉ r.network ∧ 46 ∉ r.station ∧ 46 ∉ r.location) ∧ 44 ∉ r.network ∧ 44 ∉ r.station ∧ 44 ∉ r.location
  fmtChars : 46 ∉ fmt ∧ 44 ∉ fmt
  /-- Different instruments have different codes. -/
  codes : ∀ r ∈ table, ∀ s ∈ table, r.network = s.network → r.station = s.station → r.location = s.location → r.sn = s.sn
  /-- If station and location are the same, the network of one is not a proper ending of the network of the other. -/
  networks : ∀ r ∈ table, ∀ s ∈ table, r.station = s.station → r.location = s.location → r.network <:+ s.network → r.network = s.network

/-! ## Names -/

/-- The text of a time of day, `23_59_59`. -/
def clockName (start : Int) : List Nat :=
  padNum 2 (start / 100 % 86400 / 3600).toNat ++ bytes "_" ++ padNum 2 (start / 100 % 3600 / 60).toNat ++ bytes "_" ++
    padNum 2 (start / 100 % 60).toNat

theorem nameOf_parts (row : StationRow) (fmt : List Nat) (start : Int) :
    nameOf defaultPieces row fmt start =
      dayName (start / 8640000) ++ bytes "T" ++ clockName start ++ bytes "." ++ (row.channelId ++ bytes "." ++ fmt) := by
  obtain ⟨e1, e2, e3⟩ := time_of_day start
  unfold nameOf defaultPieces dayName clockName StationRow.channelId
  simp only [e2, e3, List.flatMap_cons, List.flatMap_nil, NField.value, bytes, List.append_nil, List.append_assoc]
  rfl

theorem dayName_chars (d : Int) : ∀ c ∈ dayName d, c ≠ 46 ∧ c ≠ 44 ∧ c ≠ 84 := by
  intro c hc
  unfold dayName at hc
  simp only [List.mem_append] at hc
  rcases hc with (((hc | hc) | hc) | hc) | hc
  all_goals first
    | (have := padNum_digits _ _ c hc; omega)
    | exact (show ∀ c ∈ bytes "-", c ≠ 46 ∧ c ≠ 44 ∧ c ≠ 84 by decide) c hc

theorem clockName_chars (start : Int) : ∀ c ∈ clockName start, c ≠ 46 := by
  intro c hc
  unfold clockName at hc
  simp only [List.mem_append] at hc
  rcases hc with (((hc | hc) | hc) | hc) | hc
  all_goals first
    | (have := padNum_digits _ _ c hc; omega)
    | exact (show ∀ c ∈ bytes "_", c ≠ 46 by decide) c hc

theorem datable_day {k : Int} (h : Datable k) : 1 ≤ (dateOfDay (k / 8640000)).year ∧ (dateOfDay (k / 8640000)).year ≤ 9999 := by
  unfold Datable at h
  rwa [(time_of_day k).1] at h

theorem dayName_length {k : Int} (h : Datable k) : (dayName (k / 8640000)).length = 10 := by
  obtain ⟨h1, h2⟩ := datable_day h
  obtain ⟨a1, a2, a3, a4, _, _⟩ := dateOfDay_spec (k / 8640000)
  have ma := monthLen_pos (dateOfDay (k / 8640000)).year (dateOfDay (k / 8640000)).month
  unfold dayName
  simp only [List.length_append]
  rw [padNum_length (k := 3) (by omega), padNum_length (k := 1) (by omega), padNum_length (k := 1) (by omega)]
  rfl

theorem clockName_length (k : Int) : (clockName k).length = 8 := by
  unfold clockName
  simp only [List.length_append]
  rw [padNum_length (k := 1) (by omega), padNum_length (k := 1) (by omega), padNum_length (k := 1) (by omega)]
  rfl

theorem dayName_injective {a b : Int} (ha : Datable a) (hb : Datable b) (h : dayName (a / 8640000) = dayName (b / 8640000)) :
    a / 8640000 = b / 8640000 := by
  obtain ⟨ha1, ha2⟩ := datable_day ha
  obtain ⟨hb1, hb2⟩ := datable_day hb
  obtain ⟨a1, a2, a3, a4, a5, _⟩ := dateOfDay_spec (a / 8640000)
  obtain ⟨b1, b2, b3, b4, b5, _⟩ := dateOfDay_spec (b / 8640000)
  have ma := monthLen_pos (dateOfDay (a / 8640000)).year (dateOfDay (a / 8640000)).month
  have mb := monthLen_pos (dateOfDay (b / 8640000)).year (dateOfDay (b / 8640000)).month
  unfold dayName at h
  simp only [List.append_assoc] at h
  obtain ⟨e1, h⟩ := pad_cancel (k := 3) (by omega) (by omega) h
  have h := List.append_cancel_left h
  obtain ⟨e2, h⟩ := pad_cancel (k := 1) (by omega) (by omega) h
  have h := List.append_cancel_left h
  have e3 := padNum_injective h
  have ed : dateOfDay (a / 8640000) = dateOfDay (b / 8640000) := by
    have : ∀ c d : Date, c.year = d.year → c.month = d.month → c.day = d.day → c = d := by
      rintro ⟨_, _, _⟩ ⟨_, _, _⟩ h1 h2 h3
      simp only at h1 h2 h3
      rw [h1, h2, h3]
    apply this <;> omega
  rw [← a5, ← b5, ed]

theorem channel_injective {r s : StationRow} {fmt : List Nat}
    (hr : 46 ∉ r.network ∧ 46 ∉ r.station ∧ 46 ∉ r.location) (hs : 46 ∉ s.network ∧ 46 ∉ s.station ∧ 46 ∉ s.location) (x : List Nat) (hx : 46 ∉ x)
    (h : x ++ (r.channelId ++ bytes "." ++ fmt) = s.channelId ++ bytes "." ++ fmt) :
    x ++ r.network = s.network ∧ r.station = s.station ∧ r.location = s.location := by
  unfold StationRow.channelId at h
  simp only [List.append_assoc] at h
  rw [← List.append_assoc] at h
  obtain ⟨e1, h2⟩ := dots_split (by simp [hx, hr.1]) hs.1 h
  obtain ⟨e2, h2⟩ := dots_split hr.2.1 hs.2.1 h2
  rw [show bytes ".HDF" = bytes "." ++ bytes "HDF" from rfl] at h2
  simp only [List.append_assoc] at h2
  obtain ⟨e3, h2⟩ := dots_split hr.2.2 hs.2.2 h2
  exact ⟨e1, e2, e3⟩

theorem channel_dots {r : StationRow} {fmt : List Nat} (hr : 46 ∉ r.network ∧ 46 ∉ r.station ∧ 46 ∉ r.location) (hf : 46 ∉ fmt) :
    (r.channelId ++ bytes "." ++ fmt).count 46 = 4 := by
  unfold StationRow.channelId
  simp only [List.count_append, List.count_eq_zero_of_not_mem hr.1, List.count_eq_zero_of_not_mem hr.2.1, List.count_eq_zero_of_not_mem hr.2.2,
    List.count_eq_zero_of_not_mem hf]
  decide

theorem channel_suffix {r s : StationRow} {fmt : List Nat} (hr : 46 ∉ r.network ∧ 46 ∉ r.station ∧ 46 ∉ r.location)
    (hs : 46 ∉ s.network ∧ 46 ∉ s.station ∧ 46 ∉ s.location) (hf : 46 ∉ fmt)
    (hn : r.station = s.station → r.location = s.location → r.network <:+ s.network → r.network = s.network)
    (h : (r.channelId ++ bytes "." ++ fmt) <:+ (s.channelId ++ bytes "." ++ fmt)) : r.channelId ++ bytes "." ++ fmt = s.channelId ++ bytes "." ++ fmt := by
  obtain ⟨x, hx⟩ := h
  have hc := congrArg (List.count 46) hx
  rw [List.count_append, channel_dots hr hf, channel_dots hs hf] at hc
  have hx46 : 46 ∉ x := List.count_eq_zero.mp (by omega)
  obtain ⟨e1, e2, e3⟩ := channel_injective hr hs x hx46 hx
  have e4 := hn e2 e3 ⟨x, e1⟩
  unfold StationRow.channelId
  rw [e2, e3, e4]

/-! ## Lists -/

theorem mergeById_single (id : List Nat) (l : List Trace) (t : Trace) (h : mergeLatest l = some t) :
    mergeById (l.map fun tr => (id, tr)) = [(id, t)] := by
  cases l with
  | nil => simp [mergeLatest, sortByTime] at h
  | cons a l =>
    have hu : uniqueIn (((a :: l).map fun tr => (id, tr)).map Prod.fst) = [id] := by
      have hnd := uniqueIn_nodup (((a :: l).map fun tr => (id, tr)).map Prod.fst)
      have hm : ∀ x, x ∈ uniqueIn (((a :: l).map fun tr => (id, tr)).map Prod.fst) ↔ x = id := by
        intro x
        rw [mem_uniqueIn]
        simp only [List.map_map, List.mem_map, Function.comp_apply]
        exact ⟨fun ⟨_, _, e⟩ => e.symm, fun e => ⟨a, by simp, e.symm⟩⟩
      generalize uniqueIn (((a :: l).map fun tr => (id, tr)).map Prod.fst) = u at hnd hm
      match u, hnd, hm with
      | [], _, hm => exact absurd ((hm id).mpr rfl) (by simp)
      | [x], _, hm => rw [(hm x).mp (by simp)]
      | x :: y :: u, hnd, hm =>
        have e1 := (hm x).mp (by simp)
        have e2 := (hm y).mp (by simp)
        rw [List.nodup_cons] at hnd
        exact absurd (by rw [e1, e2]; simp) hnd.1
    unfold mergeById
    rw [hu]
    have hf : (((a :: l).map fun tr => (id, tr)).filter fun q => q.1 = id).map Prod.snd = a :: l := by
      rw [List.filter_eq_self.mpr (by simp)]
      simp [List.map_map, Function.comp_def]
    rw [List.filterMap_cons, hf, h]
    rfl

theorem inOrder_filter {p : List Trace} (h : InOrder p) (c : Trace → Bool) : InOrder (p.filter c) := by
  refine ⟨fun tr htr => h.1 tr (List.mem_filter.mp htr).1, ?_⟩
  have : (samples (p.filter c)).Sublist (samples p) := by
    unfold samples
    exact List.filter_sublist.flatMap _
  exact h.2.sublist this

/-- Instruments with their traces. -/
def pairsOf (recs : List Converted) : List (Converted × Trace) := recs.flatMap fun c => c.traces.map fun tr => (c, tr)

theorem mem_pairsOf {recs : List Converted} {q : Converted × Trace} : q ∈ pairsOf recs ↔ q.1 ∈ recs ∧ q.2 ∈ q.1.traces := by
  unfold pairsOf
  simp only [List.mem_flatMap, List.mem_map]
  constructor
  · rintro ⟨c, hc, tr, htr, rfl⟩
    exact ⟨hc, htr⟩
  · rintro ⟨h1, h2⟩
    exact ⟨q.1, h1, q.2, h2, rfl⟩

theorem pairsOf_filter (R : Trace → Bool) (c0 : Converted) : ∀ recs : List Converted, recs.Nodup →
    ((pairsOf recs).filter fun q => q.1 = c0 ∧ R q.2).map Prod.snd = if c0 ∈ recs then c0.traces.filter R else [] := by
  intro recs
  induction recs with
  | nil => intro _; rfl
  | cons c recs ih =>
    intro hnd
    rw [List.nodup_cons] at hnd
    have e : pairsOf (c :: recs) = (c.traces.map fun tr => (c, tr)) ++ pairsOf recs := rfl
    rw [e, List.filter_append, List.map_append, ih hnd.2, List.filter_map]
    by_cases h : c = c0
    · subst h
      rw [if_neg hnd.1, if_pos (by simp), List.append_nil, List.map_map]
      simp [Function.comp_def]
    · have : (c.traces.filter ((fun q : Converted × Trace => decide (q.1 = c0 ∧ R q.2 = true)) ∘ fun tr => (c, tr))) = [] := by
        rw [List.filter_eq_nil_iff]
        intro a _
        simp [h]
      rw [this]
      by_cases h2 : c0 ∈ recs
      · rw [if_pos h2, if_pos (by simp [h2])]
        rfl
      · rw [if_neg h2, if_neg (by simp [h2, Ne.symm h])]
        rfl

/-! ## The renamed files -/

/-- The file of a trace after renaming. -/
def namedFile (row : StationRow) (fmt : List Nat) (tr : Trace) : DayFile :=
  ⟨nameOf defaultPieces row fmt tr.start, [(row.channelId, tr)]⟩

/-- The files after renaming, with the folder read by `merge_files_day`. -/
def namedFiles (table : List StationRow) (fmt : List Nat) (q : Converted × Trace) : Option DayFile :=
  (table.find? fun r => r.sn = q.1.sn).map fun row => namedFile row fmt q.2

theorem converted_path (pre fmt0 : List Nat) (recs : List Converted) :
    (recs.flatMap (Converted.files pre fmt0)) = (pairsOf recs).map fun q =>
      (⟨pre ++ bytes "/" ++ convertedName (bytes "." ++ q.1.sn ++ bytes "..HDF") fmt0 q.2.start, [q.2]⟩ : InFile) := by
  unfold pairsOf
  rw [List.map_flatMap]
  congr 1
  funext c
  unfold Converted.files
  rw [List.map_map]
  rfl

theorem paths_nodup {recs : List Converted} {table : List StationRow} {fmt : List Nat} (h : DaySetup recs table fmt) (pre fmt0 : List Nat) :
    ((recs.flatMap (Converted.files pre fmt0)).map InFile.path).Nodup := by
  have key : ∀ (c c' : Converted) (a b : Trace), c ∈ recs → c' ∈ recs → a ∈ c.traces → b ∈ c'.traces →
      pre ++ bytes "/" ++ convertedName (bytes "." ++ c.sn ++ bytes "..HDF") fmt0 a.start =
        pre ++ bytes "/" ++ convertedName (bytes "." ++ c'.sn ++ bytes "..HDF") fmt0 b.start → c.sn = c'.sn ∧ a.start / 100 = b.start / 100 := by
    intro c c' a b hc hc' ha hb e
    obtain ⟨e1, e2⟩ := convertedName_split (h.dates c hc a ha) (h.dates c' hc' b hb) (List.append_cancel_left e)
    simp only [List.append_assoc] at e2
    have e2 := List.append_cancel_left e2
    rw [show bytes "..HDF" = bytes "." ++ bytes ".HDF" from rfl] at e2
    simp only [List.append_assoc] at e2
    exact ⟨(dots_split (h.snChars c hc).1 (h.snChars c' hc').1 e2).1, e1⟩
  have hs := h.serials
  rw [List.map_flatMap, List.Nodup, List.pairwise_flatMap]
  constructor
  · intro c hc
    unfold Converted.files
    rw [List.map_map, List.pairwise_map]
    refine (h.seconds c hc).imp_of_mem fun {a b} ha hb hab e => hab ?_
    exact (key c c a b hc hc ha hb e).2
  · rw [List.Nodup, List.pairwise_map] at hs
    refine hs.imp_of_mem fun {c c'} hc hc' hcc x hx y hy e => hcc ?_
    unfold Converted.files at hx hy
    rw [List.map_map, List.mem_map] at hx hy
    obtain ⟨a, ha, rfl⟩ := hx
    obtain ⟨b, hb, rfl⟩ := hy
    exact (key c c' a b hc hc' ha hb e).1

theorem renamed_files {recs : List Converted} {table : List StationRow} {fmt : List Nat} (h : DaySetup recs table fmt) (dir pre fmt0 : List Nat)
    (hfmt : 47 ∉ fmt0) (files : List InFile) (hne : files ≠ []) (hperm : files.Perm (recs.flatMap (Converted.files pre fmt0))) :
    ∃ ws, renameFiles table dir fmt defaultPattern files = (ws, true) ∧ (ws.map Prod.fst).Nodup ∧
      (ws.map (foundFile dir)).Perm ((pairsOf recs).filterMap (namedFiles table fmt)) := by
  have hsrc : ∀ f ∈ files, ∃ q ∈ pairsOf recs, f = (⟨pre ++ bytes "/" ++ convertedName (bytes "." ++ q.1.sn ++ bytes "..HDF") fmt0 q.2.start, [q.2]⟩ : InFile) := by
    intro f hf
    have := hperm.mem_iff.mp hf
    rw [converted_path, List.mem_map] at this
    obtain ⟨q, hq, e⟩ := this
    exact ⟨q, hq, e.symm⟩
  let sn : InFile → List Nat := fun f => (nameSN f.path).getD []
  let tr : InFile → Trace := fun f => f.stream.headD ⟨0, []⟩
  have hsn : ∀ q ∈ pairsOf recs, sn ⟨pre ++ bytes "/" ++ convertedName (bytes "." ++ q.1.sn ++ bytes "..HDF") fmt0 q.2.start, [q.2]⟩ = q.1.sn := by
    intro q hq
    rw [mem_pairsOf] at hq
    obtain ⟨h1, h2⟩ := h.snChars q.1 hq.1
    show (nameSN _).getD [] = _
    rw [nameSN_of (convertedName_hasSN h1 h2 hfmt)]
    rfl
  have hfiles : ∀ f ∈ files, f.stream = [tr f] ∧ Datable (tr f).start ∧ 46 ∉ sn f ∧ 47 ∉ sn f ∧
      f.path = pre ++ bytes "/" ++ convertedName (bytes "." ++ sn f ++ bytes "..HDF") fmt0 (tr f).start := by
    intro f hf
    obtain ⟨q, hq, rfl⟩ := hsrc f hf
    rw [hsn q hq]
    have hq' := mem_pairsOf.mp hq
    exact ⟨rfl, h.dates q.1 hq'.1 q.2 hq'.2, (h.snChars q.1 hq'.1).1, (h.snChars q.1 hq'.1).2, rfl⟩
  have hnd : (files.map InFile.path).Nodup := (hperm.map _).nodup_iff.mpr (paths_nodup h pre fmt0)
  obtain ⟨ws, h1, h2, -⟩ := C68_nothing_lost table dir fmt pre fmt0 files hne sn tr hfmt hfiles hnd (fun r hr => (h.codeChars r hr).1) h.codes
    (fun _ => none)
  refine ⟨ws, h1, h2, ?_⟩
  have h3 := C68_renamed table dir fmt defaultPieces files hne sn (fun f => (tr f).start)
    (fun f hf => by
      obtain ⟨_, _, h1, h2, h3⟩ := hfiles f hf
      rw [h3]
      exact convertedName_hasSN h1 h2 hfmt)
    (fun f hf => by
      rw [(hfiles f hf).1]
      simp)
  rw [← defaultPattern_eq, h1, Prod.mk.injEq] at h3
  rw [h3.1, List.map_filterMap]
  refine (hperm.filterMap _).trans ?_
  rw [converted_path, List.filterMap_map]
  refine List.Perm.of_eq (List.filterMap_congr fun q hq => ?_)
  simp only [Function.comp_apply]
  rw [hsn q hq]
  unfold renamedAs namedFiles
  rw [Option.map_map]
  congr 1
  funext row
  show foundFile dir (dir ++ bytes "/" ++ nameOf defaultPieces row fmt q.2.start, ⟨row.network, row.station, row.location, [q.2]⟩) = _
  unfold foundFile namedFile StationRow.channelId
  dsimp only
  rw [List.drop_left' (by simp [show bytes "/" = [47] from rfl])]
  rfl

theorem namedFile_parts (row : StationRow) (fmt : List Nat) {tr : Trace} (h : Datable tr.start) :
    (namedFile row fmt tr).name.take 10 = dayName tr.startDay ∧ ((namedFile row fmt tr).name.drop 11).take 8 = clockName tr.start ∧
      (namedFile row fmt tr).name.drop 20 = row.channelId ++ bytes "." ++ fmt := by
  have l1 := dayName_length h
  have l2 := clockName_length tr.start
  have l3 : (bytes "T").length = 1 := rfl
  have l4 : (bytes ".").length = 1 := rfl
  unfold namedFile Trace.startDay
  dsimp only
  rw [nameOf_parts]
  refine ⟨?_, ?_, ?_⟩
  · simp only [List.append_assoc]
    rw [List.take_left' l1]
  · rw [List.append_assoc, List.append_assoc, List.drop_left' (by rw [List.length_append, l1, l3]), List.take_left' l2]
  · rw [List.drop_left' (by simp only [List.length_append, l1, l2, l3, l4])]

/-- The folder with the renamed files, as `merge_files_day` sees it. -/
def setupDir {recs : List Converted} {table : List StationRow} {fmt : List Nat} (h : DaySetup recs table fmt) (fs : List DayFile)
    (hfs : fs.Perm ((pairsOf recs).filterMap (namedFiles table fmt))) : DayDir :=
  have key : ∀ f ∈ fs, ∃ (row : StationRow) (tr : Trace), Datable tr.start ∧ row ∈ table ∧ f = namedFile row fmt tr := by
    intro f hf
    obtain ⟨q, hq, e⟩ := List.mem_filterMap.mp (hfs.mem_iff.mp hf)
    obtain ⟨row, hrow, rfl⟩ := Option.map_eq_some_iff.mp e
    rw [mem_pairsOf] at hq
    exact ⟨row, q.2, h.dates q.1 hq.1 q.2 hq.2, List.mem_of_find?_eq_some hrow, rfl⟩
  { files := fs
    day := fun f => f.name.take 10
    time := fun f => (f.name.drop 11).take 8
    codes := fun f => f.name.drop 20
    named := by
      intro f hf
      obtain ⟨row, tr, hd, hr, rfl⟩ := key f hf
      obtain ⟨e1, e2, e3⟩ := namedFile_parts row fmt hd
      obtain ⟨-, c1, c2, c3⟩ := h.codeChars row hr
      rw [e1, e2, e3]
      refine ⟨nameOf_parts row fmt tr.start, fun x => (dayName_chars _ _ x).2.2 rfl, fun x => (dayName_chars _ _ x).1 rfl,
        fun x => (dayName_chars _ _ x).2.1 rfl, fun x => clockName_chars _ _ x rfl, ?_⟩
      unfold StationRow.channelId
      simp [c1, c2, c3, h.fmtChars.2, show bytes "." = [46] from rfl, show bytes ".HDF" = [46, 72, 68, 70] from rfl]
    days := by
      intro f hf
      obtain ⟨row, tr, hd, hr, rfl⟩ := key f hf
      obtain ⟨e1, e2, e3⟩ := namedFile_parts row fmt hd
      rw [e1]
      exact dayName_length hd
    dots := by
      intro f hf
      obtain ⟨row, tr, hd, hr, rfl⟩ := key f hf
      obtain ⟨e1, e2, e3⟩ := namedFile_parts row fmt hd
      rw [e3]
      exact channel_dots (h.codeChars row hr).1 h.fmtChars.1
    distinct := by
      intro f hf g hg hfg
      obtain ⟨row, tr, hd, hr, rfl⟩ := key f hf
      obtain ⟨row', tr', hd', hr', rfl⟩ := key g hg
      obtain ⟨-, -, e3⟩ := namedFile_parts row fmt hd
      obtain ⟨-, -, e3'⟩ := namedFile_parts row' fmt hd'
      rw [e3, e3'] at hfg ⊢
      exact channel_suffix (h.codeChars row hr).1 (h.codeChars row' hr').1 h.fmtChars.1 (h.networks row hr row' hr') hfg }

theorem same_day_files {recs : List Converted} {table : List StationRow} {fmt : List Nat} (h : DaySetup recs table fmt)
    {c0 : Converted} {tr0 : Trace} {row : StationRow} (hc0 : c0 ∈ recs) (htr0 : tr0 ∈ c0.traces) (hrow : (table.find? fun r => r.sn = c0.sn) = some row) :
    ∀ l : List (Converted × Trace), (∀ q ∈ l, q.1 ∈ recs ∧ q.2 ∈ q.1.traces) →
      (((l.filterMap (namedFiles table fmt)).filter fun g => g.name.take 10 = (namedFile row fmt tr0).name.take 10 ∧
        g.name.drop 20 = (namedFile row fmt tr0).name.drop 20).flatMap DayFile.traces) =
      ((l.filter fun q => q.1 = c0 ∧ q.2.startDay = tr0.startDay).map Prod.snd).map fun tr => (row.channelId, tr) := by
  intro l
  induction l with
  | nil => intro _; rfl
  | cons q l ih =>
    intro hl
    have ih := ih fun x hx => hl x (by simp [hx])
    obtain ⟨hq1, hq2⟩ := hl q (by simp)
    have hrow1 : row.sn = c0.sn := by simpa using List.find?_some hrow
    cases hf : (table.find? fun r => r.sn = q.1.sn) with
    | none =>
      have e : namedFiles table fmt q = none := by unfold namedFiles; rw [hf]; rfl
      have hne : q.1 ≠ c0 := by
        intro e; rw [e, hrow] at hf; simp at hf
      rw [List.filterMap_cons, e, List.filter_cons_of_neg (by simp [hne])]
      exact ih
    | some row' =>
      have e : namedFiles table fmt q = some (namedFile row' fmt q.2) := by unfold namedFiles; rw [hf]; rfl
      rw [List.filterMap_cons, e]
      dsimp only
      have hrow1' : row'.sn = q.1.sn := by simpa using List.find?_some hf
      have m1 := List.mem_of_find?_eq_some hrow
      have m2 := List.mem_of_find?_eq_some hf
      obtain ⟨a1, -, a3⟩ := namedFile_parts row fmt (h.dates c0 hc0 tr0 htr0)
      obtain ⟨b1, -, b3⟩ := namedFile_parts row' fmt (h.dates q.1 hq1 q.2 hq2)
      by_cases hQ : q.1 = c0 ∧ q.2.startDay = tr0.startDay
      · have er : row' = row := by
          rw [hQ.1, hrow] at hf
          exact (Option.some.inj hf).symm
        rw [List.filter_cons_of_pos (by rw [b1, b3, a1, a3, er, hQ.2]; simp), List.filter_cons_of_pos (by simpa using hQ), List.flatMap_cons, ih, er]
        rfl
      · rw [List.filter_cons_of_neg, List.filter_cons_of_neg (by simpa using hQ), ih]
        rw [b1, b3, a1, a3, decide_eq_true_eq]
        rintro ⟨x1, x2⟩
        apply hQ
        obtain ⟨y1, y2, y3⟩ := channel_injective (fmt := fmt) (h.codeChars row' m2).1 (h.codeChars row m1).1 [] (by simp) (by simpa using x2)
        have hsn := h.codes row' m2 row m1 (by simpa using y1) y2 y3
        refine ⟨?_, dayName_injective (h.dates q.1 hq1 q.2 hq2) (h.dates c0 hc0 tr0 htr0) x1⟩
        exact List.inj_on_of_nodup_map h.serials hq1 hc0 (by rw [← hrow1', ← hrow1, hsn])

/-- **C107.** Recordings of several instruments are converted, each into one file per trace; `rename_files` gives the files their codes, into
an empty folder; `merge_files_day` joins them. Then both come to their end, no file is written twice, and for every instrument in the table and
every day on which one of its files starts there is a file of this day and channel. It holds one trace: every sample of the files that start
on that day, at its time, and the last sample before it where samples are missing. Other files are not written. The order in which the folders
are read does not matter. -/
theorem C107_day_files {recs : List Converted} {table : List StationRow} {fmt : List Nat} (h : DaySetup recs table fmt)
    (dir pre fmt0 outdir : List Nat) (hfmt : 47 ∉ fmt0) (files : List InFile) (hne : files ≠ [])
    (hperm : files.Perm (recs.flatMap (Converted.files pre fmt0))) :
    ∃ ws, renameFiles table dir fmt defaultPattern files = (ws, true) ∧ (ws.map Prod.fst).Nodup ∧
      ∀ fs, fs.Perm (ws.map (foundFile dir)) →
        ∃ out, mergeFilesDay fs fs outdir = (out, true) ∧ (out.map Prod.fst).Nodup ∧
          (∀ c ∈ recs, ∀ row, (table.find? fun r => r.sn = c.sn) = some row → ∀ tr ∈ c.traces,
            ∃ t, (dayFileName outdir row fmt tr.startDay, [(row.channelId, t)]) ∈ out ∧
              stamps t.start t.data = holdIn (samples (c.traces.filter fun x => x.startDay = tr.startDay))) ∧
          ∀ w ∈ out, ∃ c ∈ recs, ∃ row, (table.find? fun r => r.sn = c.sn) = some row ∧ ∃ tr ∈ c.traces,
            w.1 = dayFileName outdir row fmt tr.startDay := by
  obtain ⟨ws, h1, h2, h3⟩ := renamed_files h dir pre fmt0 hfmt files hne hperm
  refine ⟨ws, h1, h2, ?_⟩
  intro fs hfs
  have hfs := hfs.trans h3
  obtain ⟨out, o1, o2, o3⟩ := C69_days (setupDir h fs hfs) fs (fun f hf => hf) outdir
  refine ⟨out, o1, o2, ?_, ?_⟩
  · intro c hc row hrow tr htr
    have hmem : namedFile row fmt tr ∈ fs := by
      rw [hfs.mem_iff, List.mem_filterMap]
      refine ⟨(c, tr), mem_pairsOf.mpr ⟨hc, htr⟩, ?_⟩
      unfold namedFiles
      rw [hrow]
      rfl
    obtain ⟨a1, -, a3⟩ := namedFile_parts row fmt (h.dates c hc tr htr)
    have hnd : recs.Nodup := h.serials.of_map _
    have hp : ((fs.filter fun g => g.name.take 10 = (namedFile row fmt tr).name.take 10 ∧
        g.name.drop 20 = (namedFile row fmt tr).name.drop 20).flatMap DayFile.traces).Perm
        ((c.traces.filter fun x => x.startDay = tr.startDay).map fun x => (row.channelId, x)) := by
      refine (((hfs.filter _).flatMap_right _)).trans ?_
      rw [same_day_files h hc htr hrow (pairsOf recs) fun q hq => mem_pairsOf.mp hq]
      have := pairsOf_filter (fun x => decide (x.startDay = tr.startDay)) c recs hnd
      simp only [decide_eq_true_eq] at this
      rw [this, if_pos hc]
    generalize hG : ((fs.filter fun g => g.name.take 10 = (namedFile row fmt tr).name.take 10 ∧
        g.name.drop 20 = (namedFile row fmt tr).name.drop 20).flatMap DayFile.traces) = G at hp
    have hG1 : G = (G.map Prod.snd).map fun x => (row.channelId, x) := by
      rw [List.map_map]
      refine (List.map_id _).symm.trans (List.map_congr_left fun x hx => ?_)
      obtain ⟨y, -, rfl⟩ := List.mem_map.mp (hp.mem_iff.mp hx)
      rfl
    have hp2 : (G.map Prod.snd).Perm (c.traces.filter fun x => x.startDay = tr.startDay) := by
      have := hp.map Prod.snd
      rw [List.map_map] at this
      simpa [Function.comp_def] using this
    obtain ⟨t, t1, t2⟩ := C70_hold _ _ hp2 (List.ne_nil_of_mem (a := tr) (List.mem_filter.mpr ⟨htr, by simp⟩)) (inOrder_filter (h.order c hc) _)
    refine ⟨t, (o3 _).mpr ⟨namedFile row fmt tr, hmem, ?_, ?_⟩, t2⟩
    · show _ = outdir ++ bytes "/" ++ (namedFile row fmt tr).name.take 10 ++ bytes "T00_00_00." ++ (namedFile row fmt tr).name.drop 20
      rw [a1, a3]
      unfold dayFileName
      simp only [List.append_assoc]
    · show _ = mergeById ((fs.filter fun g => g.name.take 10 = (namedFile row fmt tr).name.take 10 ∧
        g.name.drop 20 = (namedFile row fmt tr).name.drop 20).flatMap DayFile.traces)
      rw [hG, hG1, mergeById_single _ _ t t1]
  · intro w hw
    obtain ⟨f, hf, hw1, -⟩ := (o3 w).mp hw
    obtain ⟨q, hq, e⟩ := List.mem_filterMap.mp (hfs.mem_iff.mp hf)
    rw [mem_pairsOf] at hq
    obtain ⟨row, hrow, rfl⟩ := Option.map_eq_some_iff.mp e
    refine ⟨q.1, hq.1, row, hrow, q.2, hq.2, ?_⟩
    obtain ⟨a1, -, a3⟩ := namedFile_parts row fmt (h.dates q.1 hq.1 q.2 hq.2)
    rw [hw1]
    show outdir ++ bytes "/" ++ (namedFile row fmt q.2).name.take 10 ++ bytes "T00_00_00." ++ (namedFile row fmt q.2).name.drop 20 = _
    rw [a1, a3]
    unfold dayFileName
    simp only [List.append_assoc]

theorem mem_holdIn : ∀ {s : List (Int × Int)}, Increasing s → ∀ p ∈ s, p ∈ holdIn s
  | [], _, _, h => h
  | [a], _, _, h => h
  | a :: b :: l, hs, p, h => by
    unfold Increasing at hs
    rw [holdIn_two, List.mem_append]
    rcases List.mem_cons.mp h with rfl | h
    · left
      have := (List.pairwise_cons.mp hs).1 b (by simp)
      obtain ⟨n, hn⟩ : ∃ n, (b.1 - p.1).toNat = n + 1 := ⟨(b.1 - p.1).toNat - 1, by omega⟩
      rw [hn, List.replicate_succ, stamps]
      simp
    · right
      exact mem_holdIn (List.pairwise_cons.mp hs).2 p h

/-- **C107, nothing lost.** Every recorded sample is in the file of the channel for the day on which its converted file starts. -/
theorem C107_every_sample {recs : List Converted} {table : List StationRow} {fmt : List Nat} (h : DaySetup recs table fmt)
    (dir pre fmt0 outdir : List Nat) (hfmt : 47 ∉ fmt0) (files : List InFile) (hne : files ≠ [])
    (hperm : files.Perm (recs.flatMap (Converted.files pre fmt0))) :
    ∃ ws, renameFiles table dir fmt defaultPattern files = (ws, true) ∧
      ∀ fs, fs.Perm (ws.map (foundFile dir)) →
        ∃ out, mergeFilesDay fs fs outdir = (out, true) ∧
          ∀ c ∈ recs, ∀ row, (table.find? fun r => r.sn = c.sn) = some row → ∀ tr ∈ c.traces, ∀ p ∈ stamps tr.start tr.data,
            ∃ t, (dayFileName outdir row fmt tr.startDay, [(row.channelId, t)]) ∈ out ∧ p ∈ stamps t.start t.data := by
  obtain ⟨ws, h1, -, h3⟩ := C107_day_files h dir pre fmt0 outdir hfmt files hne hperm
  refine ⟨ws, h1, fun fs hfs => ?_⟩
  obtain ⟨out, o1, -, o3, -⟩ := h3 fs hfs
  refine ⟨out, o1, fun c hc row hrow tr htr p hp => ?_⟩
  obtain ⟨t, t1, t2⟩ := o3 c hc row hrow tr htr
  refine ⟨t, t1, ?_⟩
  rw [t2]
  refine mem_holdIn (inOrder_filter (h.order c hc) _).2 p ?_
  unfold samples
  rw [List.mem_flatMap]
  exact ⟨tr, List.mem_filter.mpr ⟨htr, by simp⟩, hp⟩

/-! ## From the conversion -/

theorem noShortGap_increasing {s : List (Int × Int)} (h : NoShortGap s) : Increasing s := by
  have : Trans (fun a b : Int × Int => a.1 < b.1) (fun a b : Int × Int => a.1 < b.1) (fun a b : Int × Int => a.1 < b.1) :=
    ⟨fun h1 h2 => lt_trans h1 h2⟩
  unfold Increasing
  refine List.isChain_iff_pairwise.mp (List.IsChain.imp (fun a b hab => ?_) h)
  omega

theorem samples_filter_day (d : Int) : ∀ (p : List Trace), (∀ tr ∈ p, ∀ q ∈ stamps tr.start tr.data, q.1 / 8640000 = tr.startDay) →
    samples (p.filter fun tr => tr.startDay = d) = (samples p).filter fun q => q.1 / 8640000 = d
  | [], _ => rfl
  | tr :: p, h => by
    have ih := samples_filter_day d p fun x hx => h x (by simp [hx])
    have h1 := h tr (by simp)
    rw [samples_cons, List.filter_append, ← ih]
    by_cases hd : tr.startDay = d
    · rw [List.filter_cons_of_pos (by simpa using hd), samples_cons, List.filter_eq_self (p := fun q : Int × Int => decide (q.1 / 8640000 = d)) (l := stamps tr.start tr.data) |>.mpr]
      intro q hq
      simp [h1 q hq, hd]
    · rw [List.filter_cons_of_neg (by simpa using hd), List.filter_eq_nil_iff (p := fun q : Int × Int => decide (q.1 / 8640000 = d)) (l := stamps tr.start tr.data) |>.mpr,
        List.nil_append]
      intro q hq
      simp [h1 q hq, hd]

theorem window_day {m : Int} (hm : 0 < m) (hday : m ∣ 86400) {tr : Trace} (hne : tr.data ≠ []) (hw : InOneWindow (1000000 * m) tr) :
    ∀ q ∈ stamps tr.start tr.data, q.1 / 8640000 = tr.startDay := by
  obtain ⟨k, hk⟩ := hw
  obtain ⟨x, l, hx⟩ := List.exists_cons_of_ne_nil hne
  have h0 := hk (tr.start, x) (by rw [hx, stamps]; simp)
  intro q hq
  have h1 := hk q hq
  obtain ⟨c, hc⟩ := hday
  have key : ∀ y : Int, k * (1000000 * m) ≤ 10000 * y → 10000 * y < (k + 1) * (1000000 * m) → y / 8640000 = k / c := by
    intro y y1 y2
    have hc0 : 0 < c := by
      by_contra hcc
      have : m * c ≤ 0 := mul_nonpos_of_nonneg_of_nonpos (by omega) (by omega)
      omega
    have e1 : k = c * (k / c) + k % c := (Int.mul_ediv_add_emod k c).symm
    have e2 := Int.emod_nonneg k (by omega : c ≠ 0)
    have e3 := Int.emod_lt_of_pos k hc0
    generalize k / c = a at *
    generalize k % c = r at *
    have f1 : k * (1000000 * m) = 1000000 * (86400 * a + r * m) := by rw [e1, hc]; ring
    have f2 : (k + 1) * (1000000 * m) = 1000000 * (86400 * a + (r + 1) * m) := by rw [e1, hc]; ring
    have g1 : 0 ≤ r * m := mul_nonneg e2 (by omega)
    have g2 : (r + 1) * m ≤ 86400 := by
      rw [hc, mul_comm m c]
      exact mul_le_mul_of_nonneg_right (by omega) (by omega)
    rw [f1] at y1
    rw [f2] at y2
    omega
  unfold Trace.startDay
  rw [key q.1 h1.1 h1.2, key tr.start h0.1 h0.2]

/-- The conversion of the data of one instrument, run for a number of steps. -/
structure Conversion where
  sn : List Nat
  job : Job
  steps : Nat

/-- What it writes. -/
def Conversion.written (v : Conversion) : List Trace := (convertLoops v.job none v.steps).written

/-- What is asked of the conversions: the file length is a whole number of seconds that divides a day, what is read is not before 1970, and no
gap in the samples written is shorter than a second. -/
structure Conversion.Good (v : Conversion) : Prop where
  length : ∃ m : Int, 0 < m ∧ m ∣ 86400 ∧ v.job.L = 1000000 * m
  read : ∀ b d, v.job.read b = .ok d → ∀ tr ∈ d, tr.data ≠ [] ∧ 0 ≤ tr.start
  gaps : NoShortGap (samples v.written)
  dates : ∀ tr ∈ v.written, Datable tr.start
  snChars : 46 ∉ v.sn ∧ 47 ∉ v.sn

/-- **C107, from the conversion on.** The data of several instruments are converted with a file length that divides a day, from the beginning,
renamed into an empty folder and merged. Then for every instrument of the table and every day with a sample of it, the file of this day and
channel holds exactly: the samples of this day which the conversion wrote, at their times, each repeated until the next. -/
theorem C107_days_of_conversion (vs : List Conversion) (hgood : ∀ v ∈ vs, v.Good) (hserials : (vs.map Conversion.sn).Nodup)
    (table : List StationRow) (fmt : List Nat)
    (codeChars : ∀ r ∈ table, (46 ∉ r.network ∧ 46 ∉ r.station ∧ 46 ∉ r.location) ∧ 44 ∉ r.network ∧ 44 ∉ r.station ∧ 44 ∉ r.location)
    (fmtChars : 46 ∉ fmt ∧ 44 ∉ fmt)
    (codes : ∀ r ∈ table, ∀ s ∈ table, r.network = s.network → r.station = s.station → r.location = s.location → r.sn = s.sn)
    (networks : ∀ r ∈ table, ∀ s ∈ table, r.station = s.station → r.location = s.location → r.network <:+ s.network → r.network = s.network)
    (dir pre fmt0 outdir : List Nat) (hfmt : 47 ∉ fmt0) (files : List InFile) (hne : files ≠ [])
    (hperm : files.Perm (vs.flatMap fun v => Converted.files pre fmt0 ⟨v.sn, v.written⟩)) :
    ∃ ws, renameFiles table dir fmt defaultPattern files = (ws, true) ∧ (ws.map Prod.fst).Nodup ∧
      ∀ fs, fs.Perm (ws.map (foundFile dir)) →
        ∃ out, mergeFilesDay fs fs outdir = (out, true) ∧ (out.map Prod.fst).Nodup ∧
          (∀ v ∈ vs, ∀ row, (table.find? fun r => r.sn = v.sn) = some row → ∀ p ∈ samples v.written,
            ∃ t, (dayFileName outdir row fmt (p.1 / 8640000), [(row.channelId, t)]) ∈ out ∧
              stamps t.start t.data = holdIn ((samples v.written).filter fun q => q.1 / 8640000 = p.1 / 8640000)) ∧
          ∀ w ∈ out, ∃ v ∈ vs, ∃ row, (table.find? fun r => r.sn = v.sn) = some row ∧ ∃ p ∈ samples v.written,
            w.1 = dayFileName outdir row fmt (p.1 / 8640000) := by
  have hpart : ∀ v ∈ vs, (∀ tr ∈ v.written, tr.data ≠ []) ∧ v.written.Pairwise (fun a b => a.start / 100 ≠ b.start / 100) ∧
      ∀ tr ∈ v.written, ∀ q ∈ stamps tr.start tr.data, q.1 / 8640000 = tr.startDay := by
    intro v hv
    obtain ⟨⟨m, m1, m2, m3⟩, hread, hgap, -, -⟩ := hgood v hv
    obtain ⟨hne, hp⟩ := written_parted v.job (l := 100 * m) (by omega) (by omega) none (by simp) v.steps
    have hc := starts_increase m3 hne hp hgap
    refine ⟨hne, ?_, ?_⟩
    · have : Trans (fun a b : Trace => a.start / 100 < b.start / 100) (fun a b : Trace => a.start / 100 < b.start / 100)
          (fun a b : Trace => a.start / 100 < b.start / 100) := ⟨fun h1 h2 => lt_trans h1 h2⟩
      exact (List.isChain_iff_pairwise.mp hc).imp fun h => by omega
    · intro tr htr
      refine window_day m1 m2 (hne tr htr) ?_
      rw [← m3]
      exact C30_one_window v.job (by omega) none (by simp) hread v.steps tr htr
  have hset : DaySetup (vs.map fun v => ⟨v.sn, v.written⟩) table fmt := by
    refine ⟨?_, ?_, ?_, ?_, ?_, codeChars, fmtChars, codes, networks⟩
    · rw [List.map_map]; exact hserials
    · intro c hc
      obtain ⟨v, hv, rfl⟩ := List.mem_map.mp hc
      exact (hgood v hv).snChars
    · intro c hc
      obtain ⟨v, hv, rfl⟩ := List.mem_map.mp hc
      exact ⟨(hpart v hv).1, noShortGap_increasing (hgood v hv).gaps⟩
    · intro c hc
      obtain ⟨v, hv, rfl⟩ := List.mem_map.mp hc
      exact (hpart v hv).2.1
    · intro c hc
      obtain ⟨v, hv, rfl⟩ := List.mem_map.mp hc
      exact (hgood v hv).dates
  obtain ⟨ws, h1, h2, h3⟩ := C107_day_files hset dir pre fmt0 outdir hfmt files hne (by rw [List.flatMap_map]; exact hperm)
  refine ⟨ws, h1, h2, fun fs hfs => ?_⟩
  obtain ⟨out, o1, o2, o3, o4⟩ := h3 fs hfs
  refine ⟨out, o1, o2, ?_, ?_⟩
  · intro v hv row hrow p hp
    unfold samples at hp
    obtain ⟨tr, htr, hp⟩ := List.mem_flatMap.mp hp
    have hd := (hpart v hv).2.2 tr htr p hp
    obtain ⟨t, t1, t2⟩ := o3 ⟨v.sn, v.written⟩ (List.mem_map.mpr ⟨v, hv, rfl⟩) row hrow tr htr
    rw [hd]
    refine ⟨t, t1, ?_⟩
    rw [t2, samples_filter_day _ _ (hpart v hv).2.2]
  · intro w hw
    obtain ⟨c, hc, row, hrow, tr, htr, e⟩ := o4 w hw
    obtain ⟨v, hv, rfl⟩ := List.mem_map.mp hc
    obtain ⟨x, l, hx⟩ := List.exists_cons_of_ne_nil ((hpart v hv).1 tr htr)
    exact ⟨v, hv, row, hrow, (tr.start, x), List.mem_flatMap.mpr ⟨tr, htr, by rw [hx, stamps]; simp⟩, e⟩

/-! ## An example -/

/-- Two instruments, one of which records over midnight. -/
def dayVs : List Conversion :=
  [⟨bytes "012", ⟨[0], 1, 3600000000, 253402300799000000, fun _ => .ok [⟨172799999500, [1, 2, 3]⟩, ⟨172799999850, List.replicate 250 4⟩]⟩, 9⟩,
   ⟨bytes "034", ⟨[0], 1, 3600000000, 253402300799000000, fun _ => .ok [⟨172799990000, [7, 8, 9]⟩]⟩, 9⟩]

def dayTable : List StationRow := [⟨bytes "034", bytes "XA", bytes "S34", [], .default⟩, ⟨bytes "012", bytes "XA", bytes "S12", bytes "01", .default⟩]

theorem dayVs_good : ∀ v ∈ dayVs, v.Good := by
  intro v hv
  unfold dayVs at hv
  rcases List.mem_cons.mp hv with rfl | hv
  · refine ⟨⟨3600, by decide, by decide, rfl⟩, ?_, ?_, ?_, by decide +kernel⟩
    · intro b d hd
      cases hd
      decide +kernel
    · unfold NoShortGap
      decide +kernel
    · unfold Datable
      decide +kernel
  · rw [List.mem_singleton] at hv
    subst hv
    refine ⟨⟨3600, by decide, by decide, rfl⟩, ?_, ?_, ?_, by decide +kernel⟩
    · intro b d hd
      cases hd
      decide +kernel
    · unfold NoShortGap
      decide +kernel
    · unfold Datable
      decide +kernel

/-- The first conversion writes three files: the three samples, the end of one day and the beginning of the next. -/
example : (dayVs.map Conversion.written) =
    [[⟨172799999500, [1, 2, 3]⟩, ⟨172799999850, List.replicate 150 4⟩, ⟨172800000000, List.replicate 100 4⟩], [⟨172799990000, [7, 8, 9]⟩]] := by
  decide +kernel

/-- The hypotheses of `C107_days_of_conversion` hold for the two instruments. -/
example : ∃ ws, renameFiles dayTable (bytes "renamed") (bytes "mseed") defaultPattern
      (dayVs.flatMap fun v => Converted.files (bytes "mseed") (bytes "mseed") ⟨v.sn, v.written⟩) = (ws, true) ∧
    ∃ out, mergeFilesDay (ws.map (foundFile (bytes "renamed"))) (ws.map (foundFile (bytes "renamed"))) (bytes "days") = (out, true) ∧
      out.map Prod.fst = [bytes "days/2024-10-03T00_00_00.XA.S12.01.HDF.mseed", bytes "days/2024-10-04T00_00_00.XA.S12.01.HDF.mseed",
        bytes "days/2024-10-03T00_00_00.XA.S34..HDF.mseed"] := by
  obtain ⟨files, hfiles⟩ : ∃ files, files = dayVs.flatMap fun v => Converted.files (bytes "mseed") (bytes "mseed") ⟨v.sn, v.written⟩ := ⟨_, rfl⟩
  have hne : files ≠ [] := by
    rw [hfiles]
    exact List.ne_nil_of_length_pos (by decide +kernel)
  rw [← hfiles]
  obtain ⟨ws, h1, -, h3⟩ := C107_days_of_conversion dayVs dayVs_good (by decide +kernel) dayTable (bytes "mseed") (by decide +kernel) (by decide +kernel)
    (by decide +kernel) (by decide +kernel) (bytes "renamed") (bytes "mseed") (bytes "mseed") (bytes "days") (by decide +kernel)
    files hne (List.Perm.of_eq hfiles)
  obtain ⟨out, o1, -⟩ := h3 _ (List.Perm.refl _)
  refine ⟨ws, h1, out, o1, ?_⟩
  have e : ws = (renameFiles dayTable (bytes "renamed") (bytes "mseed") defaultPattern files).1 := by rw [h1]
  have e2 : out = (mergeFilesDay (ws.map (foundFile (bytes "renamed"))) (ws.map (foundFile (bytes "renamed"))) (bytes "days")).1 := by rw [o1]
  rw [e2, e, hfiles]
  decide +kernel

end Gemlog
