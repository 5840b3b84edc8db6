import Verif.Spec.MakeInventory
import Verif.Props.Inventory

/-!
# Property C95: gem_make_inventory
-/

namespace Gemlog

/-- The table with codes from a function. -/
def codedRows (f : List Nat → List Nat × List Nat × List Nat × Elevation) (rows : List GpsSummary) : List (GpsSummary × (List Nat × List Nat × List Nat × Elevation)) :=
  rows.map fun r => (r, f r.sn)

theorem coded_inventory (f : List Nat → List Nat × List Nat × List Nat × Elevation) (rows : List GpsSummary) :
    ∃ inv, makeInventory ((codedRows f rows).map stationOfCoord) ⟨true, true, true, (codedRows f rows).map coordOfCoord⟩ = some inv ∧
      (∀ net sta ch, HasChannel inv net sta ch ↔ ∃ r, FirstWith (fun sn => ⟨(f sn).1, (f sn).2.1, (f sn).2.2.1⟩) rows ⟨net, sta, ch.location⟩ r ∧
        ShowsInstrument ch r ((elevationValue (f r.sn).2.2.2).getD 0)) ∧
      (inv.map NetworkInfo.name).Nodup ∧ (∀ n ∈ inv, (n.stations.map StationInfo.name).Nodup ∧
        ∀ s ∈ n.stations, (s.channels.map ChannelInfo.location).Nodup) := by
  have ht : (codedRows f rows).map stationOfCoord = rows.map fun r => stationOfCoord (r, f r.sn) := by unfold codedRows; rw [List.map_map]; rfl
  have hc : (codedRows f rows).map coordOfCoord = rows.map fun r => coordOfCoord (r, f r.sn) := by unfold codedRows; rw [List.map_map]; rfl
  have hT : ∀ net sta loc s, TableRowFor (rows.map fun r => stationOfCoord (r, f r.sn)) net sta loc s ↔
      ∃ r, FirstWith (fun sn => ⟨(f sn).1, (f sn).2.1, (f sn).2.2.1⟩) rows ⟨net, sta, loc⟩ r ∧ s = stationOfCoord (r, f r.sn) := by
    intro net sta loc s
    constructor
    · rintro ⟨pre, post, h1, h2, h3⟩
      obtain ⟨pre', rest, e1, e2, e3⟩ := List.map_eq_append_iff.mp h1
      obtain ⟨r, post', e4, e5, e6⟩ := List.map_eq_cons_iff.mp e3
      subst e1 e2 e4 e5 e6
      refine ⟨r, ⟨pre', post', rfl, ?_, ?_⟩, rfl⟩
      · obtain ⟨rfl, rfl, rfl⟩ := h2; rfl
      · intro x hx he
        refine h3 _ (List.mem_map_of_mem hx) ?_
        simp only [SeedCodes.mk.injEq] at he
        exact he
    · rintro ⟨r, ⟨pre, post, rfl, h2, h3⟩, rfl⟩
      refine ⟨pre.map fun r => stationOfCoord (r, f r.sn), post.map fun r => stationOfCoord (r, f r.sn), by rw [List.map_append, List.map_cons], ?_, ?_⟩
      · simp only [SeedCodes.mk.injEq] at h2
        exact h2
      · intro x hx
        obtain ⟨y, hy, rfl⟩ := List.mem_map.mp hx
        intro he
        apply h3 y hy
        simp only [SeedCodes.mk.injEq]
        exact he
  have hL : ∀ net sta loc sn c, LineFor ⟨true, true, true, rows.map fun r => coordOfCoord (r, f r.sn)⟩ net sta loc sn c ↔
      ∃ r, FirstWith (fun sn => ⟨(f sn).1, (f sn).2.1, (f sn).2.2.1⟩) rows ⟨net, sta, loc⟩ r ∧ c = coordOfCoord (r, f r.sn) := by
    intro net sta loc sn c
    unfold LineFor Belongs
    simp only [if_true]
    constructor
    · rintro ⟨pre, post, h1, h2, h3⟩
      obtain ⟨pre', rest, e1, e2, e3⟩ := List.map_eq_append_iff.mp h1
      obtain ⟨r, post', e4, e5, e6⟩ := List.map_eq_cons_iff.mp e3
      subst e1 e2 e4 e5 e6
      refine ⟨r, ⟨pre', post', rfl, ?_, ?_⟩, rfl⟩
      · obtain ⟨rfl, rfl, rfl⟩ := h2; rfl
      · intro x hx he
        refine h3 _ (List.mem_map_of_mem hx) ?_
        simp only [SeedCodes.mk.injEq] at he
        exact he
    · rintro ⟨r, ⟨pre, post, rfl, h2, h3⟩, rfl⟩
      refine ⟨pre.map fun r => coordOfCoord (r, f r.sn), post.map fun r => coordOfCoord (r, f r.sn), by rw [List.map_append, List.map_cons], ?_, ?_⟩
      · simp only [SeedCodes.mk.injEq] at h2
        exact h2
      · intro x hx
        obtain ⟨y, hy, rfl⟩ := List.mem_map.mp hx
        intro he
        apply h3 y hy
        simp only [SeedCodes.mk.injEq]
        exact he
  have huniq : ∀ c r r', FirstWith (fun sn => ⟨(f sn).1, (f sn).2.1, (f sn).2.2.1⟩) rows c r →
      FirstWith (fun sn => ⟨(f sn).1, (f sn).2.1, (f sn).2.2.1⟩) rows c r' → r = r' := by
    rintro c r r' ⟨pre, post, h1, h2, h3⟩ ⟨pre', post', h1', h2', h3'⟩
    rw [h1] at h1'
    rcases List.append_eq_append_iff.mp h1' with ⟨a, ha, hb⟩ | ⟨a, ha, hb⟩
    · cases a with
      | nil => simp at hb; exact hb.1
      | cons y a =>
        simp only [List.cons_append, List.cons.injEq] at hb
        subst ha
        exact absurd (by rw [← hb.1]; exact h2) (h3' y (by simp))
    · cases a with
      | nil => simp at hb; exact hb.1.symm
      | cons y a =>
        simp only [List.cons_append, List.cons.injEq] at hb
        subst ha
        exact absurd (by rw [← hb.1]; exact h2') (h3 y (by simp))
  have hfirst : ∀ x ∈ rows, ∃ r, FirstWith (fun sn => ⟨(f sn).1, (f sn).2.1, (f sn).2.2.1⟩) rows ⟨(f x.sn).1, (f x.sn).2.1, (f x.sn).2.2.1⟩ r := by
    intro x hx
    clear hT hL huniq ht hc
    induction rows with
    | nil => exact absurd hx (by simp)
    | cons y rows ih =>
      by_cases hy : (⟨(f y.sn).1, (f y.sn).2.1, (f y.sn).2.2.1⟩ : SeedCodes) = ⟨(f x.sn).1, (f x.sn).2.1, (f x.sn).2.2.1⟩
      · exact ⟨y, [], rows, rfl, hy, by simp⟩
      · rcases List.mem_cons.mp hx with rfl | hx'
        · exact absurd rfl hy
        · obtain ⟨r, pre, post, h1, h2, h3⟩ := ih hx'
          refine ⟨r, y :: pre, post, by rw [h1]; rfl, h2, ?_⟩
          intro z hz
          rcases List.mem_cons.mp hz with rfl | hz
          · exact hy
          · exact h3 z hz
  rw [ht, hc]
  have hmade : (makeInventory (rows.map fun r => stationOfCoord (r, f r.sn)) ⟨true, true, true, rows.map fun r => coordOfCoord (r, f r.sn)⟩).isSome := by
    rw [C62_made]
    refine ⟨.inl rfl, ?_, ?_⟩
    · intro h; exact absurd h (by simp)
    · intro x hx
      obtain ⟨y, hy, rfl⟩ := List.mem_map.mp hx
      obtain ⟨r, hr⟩ := hfirst y hy
      exact ⟨_, _, _, _, (hT _ _ _ _).mpr ⟨r, hr, rfl⟩, (hL _ _ _ _ _).mpr ⟨r, hr, rfl⟩⟩
  obtain ⟨inv, hinv⟩ := Option.isSome_iff_exists.mp hmade
  obtain ⟨h1, h2, h3⟩ := C62_channels _ _ inv hinv
  refine ⟨inv, hinv, ?_, h2, h3⟩
  intro net sta ch
  rw [h1]
  constructor
  · rintro ⟨s, hs, c, hc', hch⟩
    obtain ⟨r, hr, rfl⟩ := (hT _ _ _ _).mp hs
    obtain ⟨r', hr', rfl⟩ := (hL _ _ _ _ _).mp hc'
    obtain rfl := huniq _ _ _ hr hr'
    obtain ⟨q1, q2, q3, q4, q5, _⟩ := hch
    exact ⟨r, hr, q1, q2, q3, q4, (q5 rfl).1, (q5 rfl).2⟩
  · rintro ⟨r, hr, q1, q2, q3, q4, q5, q6⟩
    exact ⟨_, (hT _ _ _ _).mpr ⟨r, hr, rfl⟩, _, (hL _ _ _ _ _).mpr ⟨r, hr, rfl⟩, q1, q2, q3, q4, fun _ => ⟨q5, q6⟩, fun h => absurd h (by simp)⟩

theorem codesOf_assigned (table : List StationRow) (sn : List Nat) :
    (⟨(codesOf table sn).1, (codesOf table sn).2.1, (codesOf table sn).2.2.1⟩ : SeedCodes) = assignedCodes table sn ∧
    elevationValue (codesOf table sn).2.2.2 = assignedElevation table sn := by
  unfold codesOf assignedCodes assignedElevation
  cases table.find? fun r => decide (r.sn = sn) <;> exact ⟨rfl, rfl⟩

/-- **C95, inventories.** With a station table that can be read, and numbers as elevations of the instruments found: the inventory has, for every combination of codes given to some instrument in the
summary, exactly one channel: that of the first of these instruments, with its serial number, mean position, elevation and the times of its fixes. There are no other channels. -/
theorem C95_inventory (a : InventoryArgs) (cells : List (List (List Nat))) (table : List StationRow) (ha : a.station = some cells) (hc : readStation cells = some table)
    (hel : ∀ r ∈ terminalSummary a, (assignedElevation table r.sn).isSome) :
    ∃ inv, inventoryTerminal a = some inv ∧
      (∀ net sta ch, HasChannel inv net sta ch ↔ ∃ r e, FirstWith (assignedCodes table) (terminalSummary a) ⟨net, sta, ch.location⟩ r ∧
        assignedElevation table r.sn = some e ∧ ShowsInstrument ch r e) ∧
      (inv.map NetworkInfo.name).Nodup ∧ (∀ n ∈ inv, (n.stations.map StationInfo.name).Nodup ∧
        ∀ s ∈ n.stations, (s.channels.map ChannelInfo.location).Nodup) := by
  obtain ⟨inv, h1, h2, h3⟩ := coded_inventory (codesOf table) (terminalSummary a)
  have hfun : (fun sn => (⟨(codesOf table sn).1, (codesOf table sn).2.1, (codesOf table sn).2.2.1⟩ : SeedCodes)) = assignedCodes table :=
    funext fun sn => (codesOf_assigned table sn).1
  rw [hfun] at h2
  refine ⟨inv, ?_, ?_, h3⟩
  · unfold inventoryTerminal terminalCoords
    rw [ha]
    simp only [hc, Option.map_some]
    rw [if_pos]
    · exact h1
    · rw [List.all_eq_true]
      intro x hx
      obtain ⟨r, hr, rfl⟩ := List.mem_map.mp hx
      simp only
      rw [(codesOf_assigned table r.sn).2]
      exact hel r hr
  · intro net sta ch
    rw [h2]
    constructor
    · rintro ⟨r, hr, hs⟩
      have hmem : r ∈ terminalSummary a := by obtain ⟨pre, post, e, _⟩ := hr; rw [e]; simp
      obtain ⟨e, he⟩ := Option.isSome_iff_exists.mp (hel r hmem)
      rw [(codesOf_assigned table r.sn).2, he] at hs
      exact ⟨r, e, hr, he, hs⟩
    · rintro ⟨r, e, hr, he, hs⟩
      refine ⟨r, hr, ?_⟩
      rw [(codesOf_assigned table r.sn).2, he]
      exact hs

/-- **C95, no station table.** Without a station table, every instrument in the summary is a station of its own, named by its serial number, in a network and at a location without code, with
one channel; there are no other channels. -/
theorem C95_no_table (a : InventoryArgs) (ha : a.station = none) :
    ∃ inv, inventoryTerminal a = some inv ∧
      (∀ net sta ch, HasChannel inv net sta ch ↔ net = [] ∧ ch.location = [] ∧ ∃ r, FirstWith (fun sn => ⟨[], sn, []⟩) (terminalSummary a) ⟨[], sta, []⟩ r ∧
        r.sn = sta ∧ ShowsInstrument ch r (-9999)) := by
  obtain ⟨inv, h1, h2, h3⟩ := coded_inventory (fun sn => ([], sn, [], .default)) (terminalSummary a)
  refine ⟨inv, ?_, ?_⟩
  · unfold inventoryTerminal terminalCoords
    rw [ha]
    simp only
    rw [if_pos]
    · exact h1
    · rw [List.all_eq_true]
      intro x hx
      obtain ⟨r, hr, rfl⟩ := List.mem_map.mp hx
      rfl
  · intro net sta ch
    rw [h2]
    constructor
    · rintro ⟨r, hr, hs⟩
      obtain ⟨pre, post, e1, e2, e3⟩ := hr
      have e2' := e2
      simp only [SeedCodes.mk.injEq] at e2
      obtain ⟨rfl, rfl, e5⟩ := e2
      rw [← e5] at e3
      exact ⟨rfl, e5.symm, r, ⟨pre, post, e1, rfl, e3⟩, rfl, hs⟩
    · rintro ⟨rfl, hl, r, hr, rfl, hs⟩
      rw [hl]
      exact ⟨r, hr, hs⟩

theorem summary_sns (inp : GpsInput) (t1 t2 : Rat) (incl excl : Option SNFilter) : ((summarizeGps inp t1 t2 incl excl).map GpsSummary.sn).Nodup := by
  have hs : (summaryList inp incl excl).Pairwise (· < ·) := uniqueStr_sorted _
  have hnd : (summaryList inp incl excl).Nodup := hs.imp fun h => ne_of_lt h
  refine hnd.sublist ?_
  unfold summarizeGps
  generalize summaryList inp incl excl = l
  induction l with
  | nil => exact .slnil
  | cons x l ih =>
    rw [List.filterMap_cons]
    cases hx : summarizeOne inp t1 t2 x with
    | none => exact ih.cons x
    | some r =>
      have : r.sn = x := by
        unfold summarizeOne at hx
        by_cases h : 0 < (usedRows inp t1 t2 x).length
        · rw [if_pos h, Option.some.injEq] at hx
          rw [← hx]
          rfl
        · rw [if_neg h] at hx
          exact absurd hx (by simp)
      simp only [List.map_cons, this]
      exact ih.cons_cons x

/-- **C95, every instrument.** If the station table gives different codes to the instruments found, every one of them has a channel, and it shows that instrument. -/
theorem C95_every (a : InventoryArgs) (cells : List (List (List Nat))) (table : List StationRow) (ha : a.station = some cells) (hc : readStation cells = some table)
    (hel : ∀ r ∈ terminalSummary a, (assignedElevation table r.sn).isSome)
    (hd : ∀ r ∈ terminalSummary a, ∀ r' ∈ terminalSummary a, assignedCodes table r.sn = assignedCodes table r'.sn → r = r') :
    ∃ inv, inventoryTerminal a = some inv ∧
      (∀ r ∈ terminalSummary a, ∃ ch e, HasChannel inv (assignedCodes table r.sn).network (assignedCodes table r.sn).station ch ∧
        ch.location = (assignedCodes table r.sn).location ∧ assignedElevation table r.sn = some e ∧ ShowsInstrument ch r e) ∧
      ∀ net sta ch, HasChannel inv net sta ch → ∃ r ∈ terminalSummary a, ∃ e, assignedCodes table r.sn = ⟨net, sta, ch.location⟩ ∧
        assignedElevation table r.sn = some e ∧ ShowsInstrument ch r e := by
  obtain ⟨inv, h1, h2, _⟩ := C95_inventory a cells table ha hc hel
  refine ⟨inv, h1, ?_, ?_⟩
  · intro r hr
    obtain ⟨e, he⟩ := Option.isSome_iff_exists.mp (hel r hr)
    obtain ⟨pre, post, hsplit⟩ := List.append_of_mem hr
    have hnd := summary_sns (.list a.items) a.t1 a.t2 (a.includes.map .text) (a.excludes.map .text)
    change ((terminalSummary a).map GpsSummary.sn).Nodup at hnd
    refine ⟨⟨(assignedCodes table r.sn).location, r.sn, r.lat, r.lon, e, r.starttime - 3600, r.endtime + 3600⟩, e, ?_, rfl, he, rfl, rfl, rfl, rfl, rfl, rfl⟩
    rw [h2]
    refine ⟨r, e, ⟨pre, post, hsplit, rfl, ?_⟩, he, rfl, rfl, rfl, rfl, rfl, rfl⟩
    intro x hx hxe
    have hxr := hd x (by rw [hsplit]; simp [hx]) r hr hxe
    subst hxr
    rw [hsplit, List.map_append, List.map_cons, List.nodup_append] at hnd
    exact hnd.2.2 _ (List.mem_map_of_mem hx) _ (by simp) rfl
  · intro net sta ch hch
    obtain ⟨r, e, ⟨pre, post, q1, q2, _⟩, he, hs⟩ := (h2 net sta ch).mp hch
    exact ⟨r, by rw [q1]; simp, e, q2, he, hs⟩

/-- **C95, violated: instruments that are not in the station table.** They all get blank codes; the first of them, in the order of serial numbers, becomes a station without name, and for
all the others there is no channel in the inventory, and no error. -/
theorem C95_violated_unlisted (a : InventoryArgs) (cells : List (List (List Nat))) (table : List StationRow) (ha : a.station = some cells)
    (hc : readStation cells = some table) (hel : ∀ r ∈ terminalSummary a, (assignedElevation table r.sn).isSome) (pre mid post : List GpsSummary) (r r' : GpsSummary)
    (hrows : terminalSummary a = pre ++ r :: mid ++ r' :: post) (h1 : ∀ s ∈ table, s.sn ≠ r.sn) (h2 : ∀ s ∈ table, s.sn ≠ r'.sn) :
    ∃ inv, inventoryTerminal a = some inv ∧ ∀ net sta ch, HasChannel inv net sta ch → ch.sn ≠ r'.sn := by
  obtain ⟨inv, q1, q2, _⟩ := C95_inventory a cells table ha hc hel
  refine ⟨inv, q1, ?_⟩
  intro net sta ch hch heq
  obtain ⟨x, e, ⟨p, q, e1, e2, e3⟩, _, hs⟩ := (q2 net sta ch).mp hch
  have hnd := summary_sns (.list a.items) a.t1 a.t2 (a.includes.map .text) (a.excludes.map .text)
  change ((terminalSummary a).map GpsSummary.sn).Nodup at hnd
  have hxr : x = r' := by
    apply List.inj_on_of_nodup_map hnd
    · rw [e1]; simp
    · rw [hrows]; simp
    · rw [← hs.1, heq]
  subst hxr
  have hb : assignedCodes table r.sn = assignedCodes table x.sn := by
    have : ∀ sn, (∀ s ∈ table, s.sn ≠ sn) → assignedCodes table sn = ⟨[], [], []⟩ := by
      intro sn h
      unfold assignedCodes
      rw [List.find?_eq_none.mpr (by intro s hs; simpa using h s hs)]
      rfl
    rw [this _ h1, this _ h2]
  have hrp : r ∈ p := by
    rw [hrows] at e1
    rw [hrows] at hnd
    rcases List.append_eq_append_iff.mp e1 with ⟨l, hl, hl'⟩ | ⟨l, hl, hl'⟩
    · rw [hl]; simp
    · cases l with
      | nil => rw [List.append_nil] at hl; rw [← hl]; simp
      | cons y l =>
        simp only [List.cons_append, List.cons.injEq] at hl'
        rw [hl'.1, hl, List.map_append, List.nodup_append] at hnd
        exact absurd rfl (hnd.2.2 y.sn (by simp) y.sn (by simp))
  exact e3 r hrp (hb.trans e2)

/-- **C95, violated: a blank elevation.** If the table has no number as the elevation of an instrument found, for example a blank, there is no inventory at all. (The first instrument with its codes: the
others do not count.) -/
theorem C95_violated_elevation (a : InventoryArgs) (cells : List (List (List Nat))) (table : List StationRow) (ha : a.station = some cells)
    (hc : readStation cells = some table) (r : GpsSummary) (hr : FirstWith (assignedCodes table) (terminalSummary a) (assignedCodes table r.sn) r)
    (he : assignedElevation table r.sn = none) : inventoryTerminal a = none := by
  unfold inventoryTerminal terminalCoords
  rw [ha]
  simp only [hc, Option.map_some]
  apply if_neg
  rw [List.all_eq_true]
  intro h
  obtain ⟨pre, post, e, _⟩ := hr
  have := h (r, codesOf table r.sn) (List.mem_map.mpr ⟨r, by rw [e]; simp, rfl⟩)
  simp only at this
  rw [(codesOf_assigned table r.sn).2, he] at this
  exact absurd this (by simp)

/-- **C95, lists.** If all serial numbers, those found and those listed, have three characters, the lists with commas select exactly the listed instruments. -/
theorem C95_lists (a : InventoryArgs) (incl excl : Option (List (List Nat))) (hi : a.includes = incl.map joinCommas) (he : a.excludes = excl.map joinCommas)
    (hfound : ∀ name, LookedAt (.list a.items) name → (snOfName name).length = 3 ∧ ∀ c ∈ snOfName name, c ≠ 44)
    (h1 : ∀ l, incl = some l → ∀ w ∈ l, w.length = 3) (h2 : ∀ l, excl = some l → ∀ w ∈ l, w.length = 3) :
    terminalSummary a = summarizeGps (.list a.items) a.t1 a.t2 (incl.map .list) (excl.map .list) := by
  unfold terminalSummary summarizeGps summaryList
  congr 2
  apply List.filter_congr
  intro sn hsn
  obtain ⟨name, hn, rfl⟩ := List.mem_map.mp hsn
  obtain ⟨h3, hc⟩ := hfound name ((mem_gpsNames _ _).mp hn)
  rw [hi, he]
  unfold snWanted
  cases incl with
  | none =>
    cases excl with
    | none => rfl
    | some l => simp only [Option.map_none, Option.map_some]; rw [C61_command_line_partial _ l h3 hc (h2 l rfl)]
  | some k =>
    cases excl with
    | none => simp only [Option.map_none, Option.map_some]; rw [C61_command_line_partial _ k h3 hc (h1 k rfl)]
    | some l =>
      simp only [Option.map_some]
      rw [C61_command_line_partial _ k h3 hc (h1 k rfl), C61_command_line_partial _ l h3 hc (h2 l rfl)]

/-! ## A concrete run -/

/-- Three logs in a folder. -/
def demoLogs : List GpsItem :=
  [.dir [⟨bytes "078gps_000.txt", [⟨43, -116, 20⟩]⟩, ⟨bytes "077gps_000.txt", [⟨40, -110, 20⟩, ⟨42, -112, 30⟩]⟩, ⟨bytes "079gps_000.txt", [⟨44, -117, 25⟩]⟩]]

/-- A station table that has them all, and one that has only the last. -/
def demoStations : List (List (List Nat)) :=
  [[bytes "SN", bytes "Network", bytes "Station", bytes "Location", bytes "Elevation"], [bytes "077", bytes "NM", bytes "A", [], bytes "1022"],
    [bytes "078", bytes "NM", bytes "B", [], bytes "1016.5"], [bytes "079", bytes "NM", bytes "C", bytes "01", bytes "7"]]

def demoFewStations : List (List (List Nat)) :=
  [[bytes "SN", bytes "Network", bytes "Station", bytes "Location"], [bytes "079", bytes "NM", bytes "C", []]]

/-- The names of the networks and stations, and the serial numbers of the channels. -/
def inventoryNames (o : Option (List NetworkInfo)) : Option (List (List Nat × List (List Nat × List (List Nat)))) :=
  o.map fun inv => inv.map fun n => (n.name, n.stations.map fun s => (s.name, s.channels.map ChannelInfo.sn))

example : inventoryNames (inventoryTerminal { items := demoLogs, station := some demoStations, excludes := some (bytes "078,099") }) =
    some [(bytes "NM", [(bytes "A", [bytes "077"]), (bytes "C", [bytes "079"])])] := by decide +kernel

/-- The hypotheses of `C95_inventory` and `C95_every` hold for it. -/
example : ∃ table, readStation demoStations = some table ∧ (∀ r ∈ terminalSummary { items := demoLogs }, (assignedElevation table r.sn).isSome) ∧
    (terminalSummary { items := demoLogs }).length = 3 ∧
    ((terminalSummary { items := demoLogs }).map fun r => (assignedCodes table r.sn).station) = [bytes "A", bytes "B", bytes "C"] := by
  refine ⟨(readStation demoStations).getD [], ?_, ?_, ?_, ?_⟩ <;> decide +kernel

/-- A blank elevation. -/
example : inventoryTerminal { items := demoLogs, station := some [demoStations.headD [], [bytes "077", bytes "NM", bytes "A", [], bytes "1022"],
    [bytes "078", bytes "NM", bytes "B", [], []]] } = none := by decide +kernel

/-- Without a table: three stations. -/
example : inventoryNames (inventoryTerminal { items := demoLogs }) =
    some [([], [(bytes "077", [bytes "077"]), (bytes "078", [bytes "078"]), (bytes "079", [bytes "079"])])] := by decide +kernel

/-- 077 and 078 are not in the table: 078 is lost. -/
example : inventoryNames (inventoryTerminal { items := demoLogs, station := some demoFewStations }) =
    some [([], [([], [bytes "077"])]), (bytes "NM", [(bytes "C", [bytes "079"])])] := by decide +kernel

end Gemlog
