import Verif.Model.GpsLog
import Verif.Props.Tables
import Verif.Props.MakeInventory

/-!
# C120: from the raw files to the position in the inventory
-/

namespace Gemlog

/-! ## Specification -/

/-- A rectangle of positions. -/
structure Rectangle where
  south : Rat
  north : Rat
  west : Rat
  east : Rat

def Rectangle.Contains (b : Rectangle) (lat lon : Rat) : Prop := b.south ≤ lat ∧ lat ≤ b.north ∧ b.west ≤ lon ∧ lon ≤ b.east

/-- All fixes logged in the files are in the rectangle. -/
def StaysIn (log : Entry → List Event) (files : List Entry) (b : Rectangle) : Prop :=
  ∀ e ∈ files, ∀ p ∈ (log e).filterMap Event.fixPoint, b.Contains p.2.1 p.2.2

/-! ## Proof -/

theorem mean_between {v : List Rat} (hne : v ≠ []) {a b : Rat} (h : ∀ x ∈ v, a ≤ x ∧ x ≤ b) : a ≤ Stats.mean v ∧ Stats.mean v ≤ b := by
  have hs : a * v.length ≤ v.sum ∧ v.sum ≤ b * v.length := by
    clear hne
    induction v with
    | nil => simp
    | cons x v ih =>
      obtain ⟨h1, h2⟩ := ih fun y hy => h y (by simp [hy])
      obtain ⟨h3, h4⟩ := h x (by simp)
      simp only [List.length_cons, List.sum_cons]
      push_cast
      constructor <;> linarith
  have hp : (0 : Rat) < v.length := by exact_mod_cast List.length_pos_of_ne_nil hne
  unfold Stats.mean
  exact ⟨by rw [le_div_iff₀ hp]; exact hs.1, by rw [div_le_iff₀ hp]; exact hs.2⟩

theorem gpsLogName_looked {sn : List Nat} (hsn : sn ≠ []) (hd : ∀ c ∈ sn, isDigit c = true) (k : Nat) : LooksLikeLog (gpsLogName sn k) ∧ BeforeGps (gpsLogName sn k) sn := by
  have h4 : bytes "gps_" = bytes "gps" ++ [95] := by decide +kernel
  have h5 : bytes ".txt" = [46] ++ bytes "txt" := by decide +kernel
  have hdig : ∀ c ∈ sn, c ≠ 103 ∧ c ≠ 46 := by
    intro c hc
    have := hd c hc
    unfold isDigit at this
    simp only [Bool.and_eq_true, decide_eq_true_eq] at this
    omega
  refine ⟨⟨⟨sn, [95] ++ padNum 3 k ++ [46], ?_⟩, ?_⟩, .inl ⟨[95] ++ padNum 3 k ++ bytes ".txt", ?_, ?_⟩⟩
  · unfold gpsLogName; rw [h4, h5]; simp
  · intro r h
    obtain ⟨c, l, rfl⟩ := List.exists_cons_of_ne_nil hsn
    unfold gpsLogName at h
    rw [show bytes "." = [46] by decide +kernel] at h
    simp only [List.cons_append, List.nil_append, List.cons.injEq] at h
    exact (hdig c (by simp)).2 h.1
  · unfold gpsLogName; rw [h4]; simp
  · intro a b h
    by_contra hlt
    have hx : (gpsLogName sn k)[a.length]? = some 103 := by
      rw [h, show bytes "gps" = [103, 112, 115] by decide +kernel]
      simp
    unfold gpsLogName at hx
    rw [List.append_assoc, List.append_assoc, List.getElem?_append_left (by omega)] at hx
    exact (hdig 103 (List.mem_of_getElem? hx)).1 rfl

theorem isMedian_between {v : List Rat} {m : Rat} (hm : Stats.IsMedian m v) {a b : Rat} (h : ∀ x ∈ v, a ≤ x ∧ x ≤ b) : a ≤ m ∧ m ≤ b := by
  obtain ⟨s, hp, _, hc⟩ := hm
  have h' : ∀ x ∈ s, a ≤ x ∧ x ≤ b := fun x hx => h x (hp.subset hx)
  rcases hc with ⟨l, r, rfl, _⟩ | ⟨l, r, x, y, rfl, _, rfl⟩
  · exact h' m (by simp)
  · obtain ⟨h1, h2⟩ := h' x (by simp)
    obtain ⟨h3, h4⟩ := h' y (by simp)
    constructor <;> linarith

theorem removeOutliers_fixed {x : List GpsRow} (h : outlierPass x = x) : removeOutliers x = x := by
  unfold removeOutliers
  cases x.length with
  | zero => rfl
  | succ n => rw [removeOutliersGo, h, if_neg (by omega)]

/-- **C48, fixes close together.** If all fixes lie within less than 5e-5 degrees (about 5 m), in latitude and in longitude, none of them is removed. -/
theorem C48_close_together (x : List GpsRow) (box : Rectangle) (hbox : ∀ p ∈ x, box.Contains p.lat p.lon) (h1 : box.north - box.south < 5 / 100000)
    (h2 : box.east - box.west < 5 / 100000) : removeOutliers x = x := by
  by_cases hne : x = []
  · rw [hne]; rfl
  apply removeOutliers_fixed
  have hlat := isMedian_between (medianRat_isMedian (x.map GpsRow.lat) (by simpa using hne)) (a := box.south) (b := box.north) (by
    intro y hy
    obtain ⟨p, hp, rfl⟩ := List.mem_map.mp hy
    exact ⟨(hbox p hp).1, (hbox p hp).2.1⟩)
  have hlon := isMedian_between (medianRat_isMedian (x.map GpsRow.lon) (by simpa using hne)) (a := box.west) (b := box.east) (by
    intro y hy
    obtain ⟨p, hp, rfl⟩ := List.mem_map.mp hy
    exact (hbox p hp).2.2)
  unfold outlierPass
  simp only
  rw [List.filter_eq_self]
  intro p hp
  obtain ⟨q1, q2, q3, q4⟩ := hbox p hp
  unfold closeTo
  rw [Bool.and_eq_true, Bool.or_eq_true, Bool.or_eq_true]
  refine ⟨.inl (decide_eq_true ?_), .inl (decide_eq_true ?_)⟩ <;> rw [abs_lt] <;> constructor <;> linarith

example : removeOutliers [⟨43, -116, 0⟩, ⟨43 + 3 / 100000, -116, 1⟩, ⟨43, -116 - 4 / 100000, 2⟩] = [⟨43, -116, 0⟩, ⟨43 + 3 / 100000, -116, 1⟩, ⟨43, -116 - 4 / 100000, 2⟩] :=
  C48_close_together _ ⟨43, 43 + 3 / 100000, -116 - 4 / 100000, -116⟩ (by unfold Rectangle.Contains; simp; norm_num) (by norm_num) (by norm_num)

/-- A log with fixes in a rectangle and in the period: the summary has one row for the instrument, inside the rectangle and among the times of the fixes. -/
theorem summary_in_rectangle (a b : List (List Nat × List GpsRow)) (sn : List Nat) (rows : List GpsRow) (h3 : ∀ e ∈ a ++ (sn, rows) :: b, e.1.length = 3)
    (hlast : ∀ e ∈ b, e.1 ≠ sn) (hk : conversions sn a < 1000) (hd : ∀ c ∈ sn, isDigit c = true) (t1 t2 : Rat) (hne : rows ≠ [])
    (box : Rectangle) (hbox : ∀ p ∈ rows, box.Contains p.lat p.lon) (ht : ∀ p ∈ rows, t1 ≤ p.t ∧ p.t ≤ t2) :
    ∃ r ∈ summarizeGps (.list [.dir (gpsFolderAfter (a ++ (sn, rows) :: b))]) t1 t2 none none, r.sn = sn ∧ box.Contains r.lat r.lon ∧
      r.starttime ∈ rows.map GpsRow.t ∧ r.endtime ∈ rows.map GpsRow.t ∧
      (box.north - box.south < 5 / 100000 → box.east - box.west < 5 / 100000 → r.num = rows.length ∧ ∀ p ∈ rows, r.starttime ≤ p.t ∧ p.t ≤ r.endtime) := by
  have hread := C49_history_partial a b sn rows h3 hlast hk
  obtain ⟨_, g2, g3⟩ := C61_summary_partial (.list [.dir (gpsFolderAfter (a ++ (sn, rows) :: b))]) t1 t2 none none
  have hsn : sn.length = 3 := h3 (sn, rows) (by simp)
  obtain ⟨hpass, hsub, hkeep, _⟩ := C48_safe rows
  have hmem : (⟨gpsLogName sn (conversions sn a), rows⟩ : GpsFile) ∈ gpsFolderAfter (a ++ (sn, rows) :: b) := (folder_spec _ h3).2.2.2 a (sn, rows) b rfl
  obtain ⟨q1, q2⟩ := gpsLogName_looked (sn := sn) (by intro h; rw [h] at hsn; simp at hsn) hd (conversions sn a)
  have hitems : readGps (GpsInput.list [.dir (gpsFolderAfter (a ++ (sn, rows) :: b))]).items sn = rows := hread
  have hused : ((removeOutliers (readGps (GpsInput.list [.dir (gpsFolderAfter (a ++ (sn, rows) :: b))]).items sn)).filter fun p => decide (t1 ≤ p.t ∧ p.t ≤ t2)) =
      removeOutliers rows := by
    rw [hitems, List.filter_eq_self]
    intro p hp
    exact decide_eq_true (ht p (hsub.subset hp))
  obtain ⟨r, hr, hrsn⟩ := (g3 sn).mpr ⟨⟨_, .inl ⟨_, _, by simp [GpsInput.items], hmem, rfl, q1⟩, q2⟩, ⟨by simp, by simp⟩, by
    dsimp only; rw [hused]; exact hkeep hne⟩
  have hdesc := g2 r hr
  rw [hrsn] at hdesc
  simp only [hused] at hdesc
  have hne' := hkeep hne
  have hb' : ∀ p ∈ removeOutliers rows, box.Contains p.lat p.lon := fun p hp => hbox p (hsub.subset hp)
  have hlat := mean_between (v := (removeOutliers rows).map GpsRow.lat) (by simpa using hne') (a := box.south) (b := box.north) (by
    intro x hx
    obtain ⟨p, hp, rfl⟩ := List.mem_map.mp hx
    exact ⟨(hb' p hp).1, (hb' p hp).2.1⟩)
  have hlon := mean_between (v := (removeOutliers rows).map GpsRow.lon) (by simpa using hne') (a := box.west) (b := box.east) (by
    intro x hx
    obtain ⟨p, hp, rfl⟩ := List.mem_map.mp hx
    exact (hb' p hp).2.2)
  rw [← hdesc.lat] at hlat
  rw [← hdesc.lon] at hlon
  refine ⟨r, hr, hrsn, ⟨hlat.1, hlat.2, hlon.1, hlon.2⟩, (hsub.map _).subset hdesc.first.1, (hsub.map _).subset hdesc.last.1, ?_⟩
  intro w1 w2
  have e := C48_close_together rows box hbox w1 w2
  rw [e] at hdesc
  exact ⟨hdesc.num, fun p hp => ⟨hdesc.first.2 p hp, hdesc.last.2 p hp⟩⟩

/-- **C120.** Let the files of an instrument hold recordings without defects (the conditions of `C66_convert`), let all fixes lie in a rectangle and between 1970 and
9999, and let one of them be more than 5 ms after the start of the data. Then the conversion completes, and whatever other instruments were converted into the same GPS folder before or after, and
however often (up to 999 times) the instrument itself was converted before: the summary of the GPS folder has a row for the instrument, and the inventory made from it a channel of a station named by its serial
number. Both give a position inside the rectangle and times of logged fixes. If the rectangle is smaller than 5e-5 degrees, the summary uses all fixes in the GPS file, and the channel covers all of them. -/
theorem C120_position (d : RawDisk) (dir : List Entry) (SN : List Nat) (log : Entry → List Event) (nums : List (Option Int)) (ns : List Int)
    (hns : convertNums true dir SN nums = .ok ns) (n : Int) (hn : pyInt SN = some n) (specs : Specs) (hspecs : gemSpecs n = .ok specs)
    (hfit : Reproduces d.fit) (hfit1 : ReproducesLines d.fit) (blockdays : Rat) (l t2 : Int) (hb : 0 < blockdays) (hl : 0 < l)
    (r0 : BlockSpan) (rs : List BlockSpan)
    (hblocks : List.Forall₂ (fun block r => ∃ first rest, CleanBlock d dir SN log block r first rest)
      (jobOf d.env dir SN ns blockdays (10000 * l) t2).blocks (r0 :: rs))
    (horder : (r0 :: rs).IsChain fun x y => x.stop < y.start) (hpos : 1 ≤ r0.start) (hlong : 103 / 100 ≤ r0.stop - r0.start)
    (hfar : ∀ r ∈ r0 :: rs, 1000000 * r.stop + 10000 * l + ⌈86400000000 * blockdays⌉ + 1000000 ≤ t2)
    (h3 : SN.length = 3) (hdigits : ∀ c ∈ SN, isDigit c = true) (box : Rectangle) (hbox : ∀ block, StaysIn log (findFiles dir SN block) box)
    (hper : ∀ q ∈ (jobOf d.env dir SN ns blockdays (10000 * l) t2).blocks.zip (r0 :: rs), ∀ p ∈ loggedFixes log q.2 (findFiles dir SN q.1), 0 ≤ p.2.1 ∧ p.2.1 ≤ 253402214400)
    (hsome : ∃ q ∈ (jobOf d.env dir SN ns blockdays (10000 * l) t2).blocks.zip (r0 :: rs), ∃ p ∈ loggedFixes log q.2 (findFiles dir SN q.1), r0.start + 5 / 1000 ≤ p.2.1) :
    ∃ s tb, Settles (convertT (tableJobOf d.env dir SN ns blockdays (10000 * l) t2) none) (.done (s, tb)) ∧
      ∀ (a b : List (List Nat × List GpsRow)), (∀ e ∈ a ++ b, e.1.length = 3) → (∀ e ∈ b, e.1 ≠ SN) → conversions SN a < 1000 →
      ∃ r ∈ summarizeGps (.list [.dir (gpsFolderAfter (a ++ (SN, gpsLogOf tb) :: b))]) 0 253402214400 none none,
        r.sn = SN ∧ box.Contains r.lat r.lon ∧ r.starttime ∈ tb.gps.map Fix.t ∧ r.endtime ∈ tb.gps.map Fix.t ∧
        (box.north - box.south < 5 / 100000 → box.east - box.west < 5 / 100000 → r.num = tb.gps.length ∧ ∀ f ∈ tb.gps, r.starttime ≤ f.t ∧ f.t ≤ r.endtime) ∧
        ∃ inv, inventoryTerminal { items := [.dir (gpsFolderAfter (a ++ (SN, gpsLogOf tb) :: b))] } = some inv ∧
          (∃ ch, HasChannel inv [] SN ch) ∧
          ∀ net ch, HasChannel inv net SN ch → net = [] ∧ ch.sn = SN ∧ box.Contains ch.lat ch.lon ∧ ch.start = r.starttime - 3600 ∧ ch.stop = r.endtime + 3600 := by
  obtain ⟨s, tb, hset, _, _, _, h, b0, bs, _, _, hh, hbl, hgps⟩ := C67_clean d dir SN log nums ns hns n hn specs hspecs hfit hfit1 blockdays l t2 hb hl r0 rs hblocks horder
    hpos hlong hfar
  refine ⟨s, tb, hset, ?_⟩
  intro a b hab hbn hk
  rw [hbl, List.zip_cons_cons] at hper hsome
  -- every fix in the file is a logged one
  have hfix : ∀ f ∈ tb.gps, (∃ lat lon, f.lat = some lat ∧ f.lon = some lon ∧ box.Contains lat lon) ∧ 0 ≤ f.t ∧ f.t ≤ 253402214400 := by
    intro f hf
    have hm : fixRow f ∈ tb.gps.map fixRow := List.mem_map_of_mem hf
    rw [hgps, List.mem_append] at hm
    obtain ⟨q, hq, hm⟩ : ∃ q ∈ (b0, r0) :: bs.zip rs, fixRow f ∈ loggedFixes log q.2 (findFiles dir SN q.1) := by
      rcases hm with hm | hm
      · exact ⟨(b0, r0), by simp, (List.mem_filter.mp hm).1⟩
      · obtain ⟨q, hq, hm⟩ := List.mem_flatMap.mp hm
        exact ⟨q, by simp [hq], hm⟩
    refine ⟨?_, hper q hq _ hm⟩
    unfold loggedFixes at hm
    obtain ⟨p, hp, e⟩ := List.mem_map.mp hm
    obtain ⟨en, hen, hp⟩ := List.mem_flatMap.mp hp
    unfold fixRow at e
    simp only [Prod.mk.injEq] at e
    exact ⟨p.2.1, p.2.2, e.2.2.1.symm, e.2.2.2.symm, hbox q.1 en hen p hp⟩
  have hne : gpsLogOf tb ≠ [] := by
    unfold gpsLogOf
    intro hc
    rw [List.map_eq_nil_iff] at hc
    rw [hc] at hgps
    simp only [List.map_nil] at hgps
    obtain ⟨q, hq, p, hp, hlate⟩ := hsome
    have hg := hgps.symm
    rw [List.append_eq_nil_iff] at hg
    rcases List.mem_cons.mp hq with rfl | hq
    · have : p ∈ List.filter (fun p => decide ((h : Rat) / 1000000 - 1 < p.2.1)) (loggedFixes log r0 (findFiles dir SN b0)) :=
        List.mem_filter.mpr ⟨hp, decide_eq_true (by linarith)⟩
      rw [hg.1] at this
      simp at this
    · have : p ∈ (bs.zip rs).flatMap fun q => loggedFixes log q.2 (findFiles dir SN q.1) := List.mem_flatMap.mpr ⟨q, hq, hp⟩
      rw [hg.2] at this
      simp at this
  have hlen : ∀ e ∈ a ++ (SN, gpsLogOf tb) :: b, e.1.length = 3 := by
    intro e he
    rcases List.mem_append.mp he with he | he
    · exact hab e (by simp [he])
    · rcases List.mem_cons.mp he with rfl | he
      · exact h3
      · exact hab e (by simp [he])
  have hmt : (gpsLogOf tb).map GpsRow.t = tb.gps.map Fix.t := by unfold gpsLogOf; rw [List.map_map]; rfl
  obtain ⟨r, hr, e1, e2, e3, e4, e5⟩ := summary_in_rectangle a b SN (gpsLogOf tb) hlen hbn hk hdigits 0 253402214400 hne box (by
    intro p hp
    obtain ⟨f, hf, rfl⟩ := List.mem_map.mp hp
    obtain ⟨⟨lat, lon, g1, g2, g3⟩, _⟩ := hfix f hf
    unfold gpsLogRow
    rw [g1, g2]
    exact g3) (by
    intro p hp
    obtain ⟨f, hf, rfl⟩ := List.mem_map.mp hp
    exact (hfix f hf).2)
  rw [hmt] at e3 e4
  refine ⟨r, hr, e1, e2, e3, e4, ?_, ?_⟩
  · intro w1 w2
    obtain ⟨g1, g2⟩ := e5 w1 w2
    refine ⟨by rw [g1]; unfold gpsLogOf; rw [List.length_map], fun f hf => g2 (gpsLogRow f) (List.mem_map_of_mem hf)⟩
  · obtain ⟨inv, i1, i2⟩ := C95_no_table { items := [.dir (gpsFolderAfter (a ++ (SN, gpsLogOf tb) :: b))] } rfl
    refine ⟨inv, i1, ?_, ?_⟩
    · obtain ⟨pre, post, hrows⟩ := List.append_of_mem hr
      have hnd := summary_sns (.list [.dir (gpsFolderAfter (a ++ (SN, gpsLogOf tb) :: b))]) 0 253402214400 none none
      refine ⟨⟨[], r.sn, r.lat, r.lon, -9999, r.starttime - 3600, r.endtime + 3600⟩, (i2 _ _ _).mpr ⟨rfl, rfl, r, ⟨pre, post, hrows, by rw [e1], ?_⟩, e1,
        ⟨rfl, rfl, rfl, rfl, rfl, rfl⟩⟩⟩
      intro x hx he
      simp only [SeedCodes.mk.injEq, true_and, and_true] at he
      rw [hrows, List.map_append, List.nodup_append] at hnd
      exact hnd.2.2 x.sn (List.mem_map_of_mem hx) r.sn (by simp) (he.trans e1.symm)
    · intro net ch hch
      obtain ⟨g1, g2, r', ⟨pre, post, hrows, g3, g4⟩, g5, g6⟩ := (i2 _ _ _).mp hch
      have hrr : r' = r := by
        apply List.inj_on_of_nodup_map (summary_sns (.list [.dir (gpsFolderAfter (a ++ (SN, gpsLogOf tb) :: b))]) 0 253402214400 none none)
        · change r' ∈ terminalSummary { items := [.dir (gpsFolderAfter (a ++ (SN, gpsLogOf tb) :: b))] }
          rw [hrows]; simp
        · exact hr
        · rw [g5, e1]
      subst hrr
      obtain ⟨k1, k2, k3, _, k4, k5⟩ := g6
      exact ⟨g1, k1.trans e1, by rw [k2, k3]; exact e2, k4, k5⟩

/-- **C120, with a station table.** As `C120_position`, with a station table that can be read, has numbers as elevations and gives different codes to all instruments in the GPS folder: the inventory has a
channel with the codes of the instrument, and every channel with these codes shows the serial number, a position inside the rectangle, the elevation in the table, and the times of the fixes with an hour to spare. -/
theorem C120_codes (d : RawDisk) (dir : List Entry) (SN : List Nat) (log : Entry → List Event) (nums : List (Option Int)) (ns : List Int)
    (hns : convertNums true dir SN nums = .ok ns) (n : Int) (hn : pyInt SN = some n) (specs : Specs) (hspecs : gemSpecs n = .ok specs)
    (hfit : Reproduces d.fit) (hfit1 : ReproducesLines d.fit) (blockdays : Rat) (l t2 : Int) (hb : 0 < blockdays) (hl : 0 < l)
    (r0 : BlockSpan) (rs : List BlockSpan)
    (hblocks : List.Forall₂ (fun block r => ∃ first rest, CleanBlock d dir SN log block r first rest)
      (jobOf d.env dir SN ns blockdays (10000 * l) t2).blocks (r0 :: rs))
    (horder : (r0 :: rs).IsChain fun x y => x.stop < y.start) (hpos : 1 ≤ r0.start) (hlong : 103 / 100 ≤ r0.stop - r0.start)
    (hfar : ∀ r ∈ r0 :: rs, 1000000 * r.stop + 10000 * l + ⌈86400000000 * blockdays⌉ + 1000000 ≤ t2)
    (h3 : SN.length = 3) (hdigits : ∀ c ∈ SN, isDigit c = true) (box : Rectangle) (hbox : ∀ block, StaysIn log (findFiles dir SN block) box)
    (hper : ∀ q ∈ (jobOf d.env dir SN ns blockdays (10000 * l) t2).blocks.zip (r0 :: rs), ∀ p ∈ loggedFixes log q.2 (findFiles dir SN q.1), 0 ≤ p.2.1 ∧ p.2.1 ≤ 253402214400)
    (hsome : ∃ q ∈ (jobOf d.env dir SN ns blockdays (10000 * l) t2).blocks.zip (r0 :: rs), ∃ p ∈ loggedFixes log q.2 (findFiles dir SN q.1), r0.start + 5 / 1000 ≤ p.2.1)
    (cells : List (List (List Nat))) (table : List StationRow) (hcells : readStation cells = some table) :
    ∃ s tb, Settles (convertT (tableJobOf d.env dir SN ns blockdays (10000 * l) t2) none) (.done (s, tb)) ∧
      ∀ (a b : List (List Nat × List GpsRow)), (∀ e ∈ a ++ b, e.1.length = 3) → (∀ e ∈ b, e.1 ≠ SN) → conversions SN a < 1000 →
      let args : InventoryArgs := { items := [.dir (gpsFolderAfter (a ++ (SN, gpsLogOf tb) :: b))], station := some cells }
      (∀ r ∈ terminalSummary args, (assignedElevation table r.sn).isSome) →
      (∀ r ∈ terminalSummary args, ∀ r' ∈ terminalSummary args, assignedCodes table r.sn = assignedCodes table r'.sn → r = r') →
      ∃ inv, inventoryTerminal args = some inv ∧
        (∃ ch, HasChannel inv (assignedCodes table SN).network (assignedCodes table SN).station ch ∧ ch.location = (assignedCodes table SN).location) ∧
        ∀ ch, HasChannel inv (assignedCodes table SN).network (assignedCodes table SN).station ch → ch.location = (assignedCodes table SN).location →
          ch.sn = SN ∧ box.Contains ch.lat ch.lon ∧ some ch.elevation = assignedElevation table SN ∧
          (∃ f ∈ tb.gps, ch.start = f.t - 3600) ∧ ∃ f ∈ tb.gps, ch.stop = f.t + 3600 := by
  obtain ⟨s, tb, hset, hall⟩ := C120_position d dir SN log nums ns hns n hn specs hspecs hfit hfit1 blockdays l t2 hb hl r0 rs hblocks horder hpos hlong hfar h3 hdigits box hbox hper
    hsome
  refine ⟨s, tb, hset, ?_⟩
  intro a b hab hbn hk args hel hdiff
  obtain ⟨r, hr, e1, e2, e3, e4, _, _⟩ := hall a b hab hbn hk
  have hr' : r ∈ terminalSummary args := hr
  obtain ⟨inv, i1, i2, i3⟩ := C95_every args cells table rfl hcells hel hdiff
  refine ⟨inv, i1, ?_, ?_⟩
  · obtain ⟨ch, e, g1, g2, _⟩ := i2 r hr'
    rw [e1] at g1 g2
    exact ⟨ch, g1, g2⟩
  · intro ch hch hloc
    obtain ⟨r', hr'', e, g1, g2, g3⟩ := i3 _ _ ch hch
    have hrr : r' = r := by
      apply hdiff r' hr'' r hr'
      rw [g1, e1, hloc]
    subst hrr
    obtain ⟨k1, k2, k3, k4, k5, k6⟩ := g3
    obtain ⟨f, hf, ef⟩ := List.mem_map.mp e3
    obtain ⟨f', hf', ef'⟩ := List.mem_map.mp e4
    exact ⟨k1.trans e1, by rw [k2, k3]; exact e2, by rw [k4, ← e1, g2], ⟨f, hf, by rw [k5, ef]⟩, f', hf', by rw [k6, ef']⟩

/-- The hypotheses hold for the directory of the example of `C66_convert`: the logger stays in one place. -/
example : (∀ block, StaysIn longOf (findFiles longDir (bytes "012") block) ⟨43, 43, 116, 116⟩) ∧ (bytes "012").length = 3 ∧ (∀ c ∈ bytes "012", isDigit c = true) ∧
    (∀ q ∈ (jobOf longDisk.env longDir (bytes "012") [1, 13] 1 (10000 * 360000) 253402300799000000).blocks.zip [longSpan 0, longSpan 2],
      ∀ p ∈ loggedFixes longOf q.2 (findFiles longDir (bytes "012") q.1), 0 ≤ p.2.1 ∧ p.2.1 ≤ 253402214400) ∧
    ∃ q ∈ (jobOf longDisk.env longDir (bytes "012") [1, 13] 1 (10000 * 360000) 253402300799000000).blocks.zip [longSpan 0, longSpan 2],
      ∃ p ∈ loggedFixes longOf q.2 (findFiles longDir (bytes "012") q.1), (longSpan 0).start + 5 / 1000 ≤ p.2.1 := by
  have hbl : (jobOf longDisk.env longDir (bytes "012") [1, 13] 1 (10000 * 360000) 253402300799000000).blocks = [[1], [13]] := by decide +kernel
  have hone : ∀ s ∈ [0, 2], ∀ p ∈ (longLog s).filterMap Event.fixPoint, (43 ≤ p.2.1 ∧ p.2.1 ≤ 43) ∧ 116 ≤ p.2.2 ∧ p.2.2 ≤ 116 := by decide +kernel
  refine ⟨?_, by decide +kernel, by decide +kernel, ?_, ?_⟩
  · intro block e _ p hp
    unfold longOf at hp
    split_ifs at hp
    · obtain ⟨⟨h1, h2⟩, h3⟩ := hone 0 (by simp) p hp
      exact ⟨h1, h2, h3⟩
    · obtain ⟨⟨h1, h2⟩, h3⟩ := hone 2 (by simp) p hp
      exact ⟨h1, h2, h3⟩
  · rw [hbl]; decide +kernel
  · rw [hbl]; decide +kernel

end Gemlog
