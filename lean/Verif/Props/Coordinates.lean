import Mathlib.Data.List.Forall2
import Verif.Model.Coordinates
import Verif.Model.Terminals
import Verif.Props.Slowness
import Verif.Props.Database
import Verif.Props.Rename
import Verif.Spec.Stats

/-!
# C102: positions of the sensors, whatever form they are given in

Specification: the position of a sensor is its longitude and latitude projected (by `geo`) around the mean longitude and the mean latitude of all channels; its height
is its elevation.
-/

namespace Gemlog

/-- The row for a sensor at `lon`, `lat`, `elev`, seen from a centre. -/
def sensorRow (geo : GeoKm) (lon0 lat0 : Rat) (net sta loc : List Nat) (lon lat elev : Rat) : SensorRow :=
  ⟨some net, some sta, some loc, (geo lon0 lat0 lon lat).1, (geo lon0 lat0 lon lat).2, some elev⟩

/-- No code has a dot. -/
def InvChannel.NoDots (c : InvChannel) : Prop := 46 ∉ c.network ∧ 46 ∉ c.station ∧ 46 ∉ c.location ∧ 46 ∉ c.channel

/-- Two channels have the same codes. -/
def InvChannel.SameCodes (c d : InvChannel) : Prop :=
  c.network = d.network ∧ c.station = d.station ∧ c.location = d.location ∧ c.channel = d.channel

/-- Two channels are at the same place. -/
def InvChannel.SamePlace (c d : InvChannel) : Prop := c.lon = d.lon ∧ c.lat = d.lat ∧ c.elev = d.elev

theorem split_seed {c : InvChannel} (h : c.NoDots) : pySplit 46 c.seed = [c.network, c.station, c.location, c.channel] := by
  obtain ⟨h1, h2, h3, h4⟩ := h
  unfold InvChannel.seed
  rw [pySplit_append _ _ h1, pySplit_append _ _ h2, pySplit_append _ _ h3, pySplit_word _ h4]

theorem seed_eq {c d : InvChannel} (hc : c.NoDots) (hd : d.NoDots) (h : c.seed = d.seed) : c.SameCodes d := by
  have := split_seed hc
  rw [h, split_seed hd] at this
  simp only [List.cons.injEq, and_true] at this
  exact ⟨this.1.symm, this.2.1.symm, this.2.2.1.symm, this.2.2.2.symm⟩

theorem seed_of_same {c d : InvChannel} (h : c.SameCodes d) : c.seed = d.seed := by
  obtain ⟨h1, h2, h3, h4⟩ := h
  unfold InvChannel.seed
  rw [h1, h2, h3, h4]

theorem perm_map_lift {α β : Type} (f : α → β) {l : List β} {m : List α} (h : l.Perm (m.map f)) : ∃ m' : List α, m'.Perm m ∧ l = m'.map f := by
  have e : (Relation.Comp (fun (l : List β) (m' : List α) => l = m'.map f) List.Perm) l m := by
    rw [List.eq_map_comp_perm]
    exact h
  obtain ⟨m', h1, h2⟩ := e
  exact ⟨m', h2, h1⟩

/-- The first channel with the same codes. -/
def firstLike (inv : List InvChannel) (c : InvChannel) : InvChannel := (seedChannel inv c.seed).getD c

theorem seedChannel_some {inv : List InvChannel} {c : InvChannel} (h : c ∈ inv) : seedChannel inv c.seed = some (firstLike inv c) := by
  unfold firstLike
  cases hf : seedChannel inv c.seed with
  | none =>
    have := List.find?_eq_none.mp hf c h
    simp at this
  | some d => rfl

theorem firstLike_spec {inv : List InvChannel} {c : InvChannel} (h : c ∈ inv) : firstLike inv c ∈ inv ∧ (firstLike inv c).seed = c.seed := by
  have h1 := seedChannel_some h
  unfold seedChannel at h1
  have h2 := List.find?_some h1
  exact ⟨List.mem_of_find?_eq_some h1, by simpa using h2⟩

theorem mean_perm {l m : List Rat} (h : l.Perm m) : meanRat l = Stats.mean m := by
  unfold meanRat Stats.mean
  rw [h.sum_eq, h.length_eq]

/-- Every channel is listed, with the position of the first channel that has its codes. -/
theorem inventory_rows (geo : GeoKm) (inv : List InvChannel) (hd : ∀ c ∈ inv, c.NoDots) :
    ∃ rows, getCoordinates geo (.inventory inv) = .ok rows ∧
      rows.Perm (inv.map fun c =>
        sensorRow geo (Stats.mean (inv.map fun c => (firstLike inv c).lon)) (Stats.mean (inv.map fun c => (firstLike inv c).lat))
          c.network c.station c.location (firstLike inv c).lon (firstLike inv c).lat (firstLike inv c).elev) := by
  obtain ⟨inv', hp, he⟩ := perm_map_lift InvChannel.seed (sortNames_perm (inv.map InvChannel.seed))
  have hmem : ∀ c ∈ inv', c ∈ inv := fun c hc => hp.subset hc
  have h1 : (inv'.map InvChannel.seed).mapM (seedChannel inv) = some (inv'.map (firstLike inv)) := by
    clear he hp
    induction inv' with
    | nil => rfl
    | cons c l ih =>
      rw [List.map_cons, List.mapM_cons, seedChannel_some (hmem c List.mem_cons_self), ih (fun x hx => hmem x (List.mem_cons_of_mem _ hx))]
      rfl
  set lon := Stats.mean (inv.map fun c => (firstLike inv c).lon) with hlon
  set lat := Stats.mean (inv.map fun c => (firstLike inv c).lat) with hlat
  have e1 : meanRat ((inv'.map (firstLike inv)).map InvChannel.lon) = lon := by
    rw [List.map_map]; exact mean_perm (hp.map _)
  have e2 : meanRat ((inv'.map (firstLike inv)).map InvChannel.lat) = lat := by
    rw [List.map_map]; exact mean_perm (hp.map _)
  have h2 : (((inv'.map InvChannel.seed).zip (inv'.map (firstLike inv))).mapM fun q => inventoryRow q.1 (geo lon lat q.2.lon q.2.lat) q.2.elev) =
      some (inv'.map fun c => sensorRow geo lon lat c.network c.station c.location (firstLike inv c).lon (firstLike inv c).lat (firstLike inv c).elev) := by
    clear he hp h1 e1 e2
    induction inv' with
    | nil => rfl
    | cons c l ih =>
      rw [List.map_cons, List.map_cons, List.zip_cons_cons, List.mapM_cons, ih (fun x hx => hmem x (List.mem_cons_of_mem _ hx))]
      unfold inventoryRow
      rw [split_seed (hd c (hmem c List.mem_cons_self))]
      rfl
  refine ⟨_, ?_, hp.map _⟩
  unfold getCoordinates
  dsimp only
  rw [he, h1]
  dsimp only
  rw [e1, e2, h2]

/-- **C102, inventory.** If channels with the same codes are at the same place, the table has exactly one row for each channel: its codes, its position around the mean
longitude and latitude of the channels, and its elevation. -/
theorem C102_inventory (geo : GeoKm) (inv : List InvChannel) (hd : ∀ c ∈ inv, c.NoDots)
    (hs : ∀ c ∈ inv, ∀ d ∈ inv, c.SameCodes d → c.SamePlace d) :
    ∃ rows, getCoordinates geo (.inventory inv) = .ok rows ∧
      rows.Perm (inv.map fun c => sensorRow geo (Stats.mean (inv.map InvChannel.lon)) (Stats.mean (inv.map InvChannel.lat))
          c.network c.station c.location c.lon c.lat c.elev) := by
  obtain ⟨rows, h1, h2⟩ := inventory_rows geo inv hd
  have hf : ∀ c ∈ inv, (firstLike inv c).SamePlace c := by
    intro c hc
    obtain ⟨ha, hb⟩ := firstLike_spec hc
    exact hs _ ha c hc (seed_eq (hd _ ha) (hd c hc) hb)
  refine ⟨rows, h1, ?_⟩
  have e1 : (inv.map fun c => (firstLike inv c).lon) = inv.map InvChannel.lon := List.map_congr_left fun c hc => (hf c hc).1
  have e2 : (inv.map fun c => (firstLike inv c).lat) = inv.map InvChannel.lat := List.map_congr_left fun c hc => (hf c hc).2.1
  rw [e1, e2] at h2
  refine h2.trans (List.Perm.of_eq ?_)
  apply List.map_congr_left
  intro c hc
  obtain ⟨a, b, d⟩ := hf c hc
  rw [a, b, d]

/-- **C102, violated: a sensor that was moved.** If an instrument has two epochs at different places, both rows are at the place of the first, so that the lags recorded
after the move are inverted with the wrong position. -/
theorem C102_violated_moved (geo : GeoKm) (c : InvChannel) (hd : c.NoDots) (lon' lat' elev' : Rat) :
    getCoordinates geo (.inventory [c, { c with lon := lon', lat := lat', elev := elev' }]) =
      .ok [sensorRow geo c.lon c.lat c.network c.station c.location c.lon c.lat c.elev,
           sensorRow geo c.lon c.lat c.network c.station c.location c.lon c.lat c.elev] := by
  set d : InvChannel := { c with lon := lon', lat := lat', elev := elev' } with hdd
  have hsd : d.seed = c.seed := rfl
  have hdn : d.NoDots := hd
  have f1 : firstLike [c, d] c = c := by
    unfold firstLike seedChannel
    rw [List.find?_cons_of_pos (by simp)]
    rfl
  have f2 : firstLike [c, d] d = c := by
    unfold firstLike seedChannel
    rw [hsd, List.find?_cons_of_pos (by simp)]
    rfl
  obtain ⟨rows, h1, h2⟩ := inventory_rows geo [c, d] (by
    intro x hx
    simp only [List.mem_cons, List.not_mem_nil, or_false] at hx
    rcases hx with rfl | rfl
    · exact hd
    · exact hdn)
  have m1 : Stats.mean ([c, d].map fun x => (firstLike [c, d] x).lon) = c.lon := by
    simp only [List.map_cons, List.map_nil, f1, f2]
    unfold Stats.mean
    simp only [List.sum_cons, List.sum_nil, List.length_cons, List.length_nil]
    push_cast
    ring
  have m2 : Stats.mean ([c, d].map fun x => (firstLike [c, d] x).lat) = c.lat := by
    simp only [List.map_cons, List.map_nil, f1, f2]
    unfold Stats.mean
    simp only [List.sum_cons, List.sum_nil, List.length_cons, List.length_nil]
    push_cast
    ring
  rw [m1, m2] at h2
  simp only [List.map_cons, List.map_nil, f1, f2] at h2
  rw [h1]
  congr 1
  have hrep : ([sensorRow geo c.lon c.lat c.network c.station c.location c.lon c.lat c.elev,
      sensorRow geo c.lon c.lat d.network d.station d.location c.lon c.lat c.elev] : List SensorRow) =
      List.replicate 2 (sensorRow geo c.lon c.lat c.network c.station c.location c.lon c.lat c.elev) := rfl
  rw [hrep] at h2
  exact List.perm_replicate.mp h2

/-- A trace has longitude, latitude and elevation. -/
def CoordTrace.At (t : CoordTrace) (lon lat elev : Rat) : Prop :=
  t.coords.longitude = some lon ∧ t.coords.latitude = some lat ∧ t.coords.elevation = some elev

theorem stream_lonlat (geo : GeoKm) (st : List CoordTrace) (pos : CoordTrace → Rat × Rat × Rat)
    (h : ∀ t ∈ st, t.At (pos t).1 (pos t).2.1 (pos t).2.2) :
    getCoordinates geo (.stream st) = .ok (st.map fun t =>
      sensorRow geo (Stats.mean (st.map fun t => (pos t).1)) (Stats.mean (st.map fun t => (pos t).2.1)) t.network t.station t.location
        (pos t).1 (pos t).2.1 (pos t).2.2) := by
  have h1 : (st.mapM fun tr : CoordTrace => tr.coords.lonlat?) = some (st.map pos) := by
    apply mapM_some_map
    intro t ht
    obtain ⟨a, b, c⟩ := h t ht
    unfold TraceCoords.lonlat?
    rw [a, b, c]
  unfold getCoordinates streamPositions getGeometry
  dsimp only
  rw [h1]
  dsimp only
  congr 1
  rw [List.map_map, List.map_map, List.map_map, List.map_map, List.map_map]
  have hz : ∀ (l : List CoordTrace) (f : CoordTrace → Rat × Rat × Rat) (g : CoordTrace × (Rat × Rat × Rat) → SensorRow),
      (l.zip (l.map f)).map g = l.map fun t => g (t, f t) := by
    intro l f g
    induction l with
    | nil => rfl
    | cons a l ih => simp only [List.map_cons, List.zip_cons_cons, ih]
  rw [hz]
  apply List.map_congr_left
  intro t ht
  unfold sensorRow
  simp only [Function.comp_apply, SensorRow.mk.injEq, true_and]
  refine ⟨rfl, rfl, ?_⟩
  congr 1
  ring

/-- **C102, stream with longitude and latitude.** One row for each trace, in order, with its codes, its position around the mean of the traces, and its elevation
itself, not the height above the centre. -/
theorem C102_stream (geo : GeoKm) (st : List CoordTrace) (lon lat elev : CoordTrace → Rat)
    (h : ∀ t ∈ st, t.At (lon t) (lat t) (elev t)) :
    getCoordinates geo (.stream st) = .ok (st.map fun t =>
      sensorRow geo (Stats.mean (st.map lon)) (Stats.mean (st.map lat)) t.network t.station t.location (lon t) (lat t) (elev t)) :=
  stream_lonlat geo st (fun t => (lon t, lat t, elev t)) h

/-- **C102, stream with x and y.** If no trace has longitude and latitude, the positions are those given, unchanged. -/
theorem C102_stream_xy (geo : GeoKm) (st : List CoordTrace) (x y elev : CoordTrace → Rat) (hne : st ≠ [])
    (h : ∀ t ∈ st, t.coords = { x := some (x t), y := some (y t), elevation := some (elev t) }) :
    getCoordinates geo (.stream st) =
      .ok (st.map fun t => ⟨some t.network, some t.station, some t.location, x t, y t, some (elev t)⟩) := by
  have h1 : (st.mapM fun tr : CoordTrace => tr.coords.lonlat?) = none := by
    cases st with
    | nil => exact absurd rfl hne
    | cons t l =>
      rw [List.mapM_cons]
      have : t.coords.lonlat? = none := by rw [h t List.mem_cons_self]; rfl
      rw [this]
      rfl
  have h2 : (st.mapM fun tr : CoordTrace => tr.coords.xy?) = some (st.map fun t => (x t, y t, elev t)) := by
    apply mapM_some_map
    intro t ht
    rw [h t ht]
    rfl
  unfold getCoordinates streamPositions
  dsimp only
  rw [h1]
  dsimp only
  rw [h2]
  dsimp only
  congr 1
  clear h1 h2 h hne
  induction st with
  | nil => rfl
  | cons a l ih => simp only [List.map_cons, List.zip_cons_cons, ih]

/-- **C102, violated: mixed coordinates.** If one trace has x and y, and another longitude and latitude, there is no table at all. -/
theorem C102_violated_mixed (geo : GeoKm) (st : List CoordTrace) (s t : CoordTrace) (hs : s ∈ st) (ht : t ∈ st)
    (h1 : s.coords.longitude = none ∨ s.coords.latitude = none) (h2 : t.coords.x = none ∨ t.coords.y = none) :
    getCoordinates geo (.stream st) = .error .other := by
  have key : ∀ (f : CoordTrace → Option (Rat × Rat × Rat)) (l : List CoordTrace) (u : CoordTrace), u ∈ l → f u = none → l.mapM f = none := by
    intro f l u hu hf
    induction l with
    | nil => simp at hu
    | cons a l ih =>
      rw [List.mapM_cons]
      rcases List.mem_cons.mp hu with rfl | hu
      · rw [hf]; rfl
      · rw [ih hu]
        cases f a <;> rfl
  have e1 : (st.mapM fun tr : CoordTrace => tr.coords.lonlat?) = none := key _ st s hs (by
    unfold TraceCoords.lonlat?
    rcases h1 with h | h
    · rw [h]
    · rw [h]
      cases s.coords.longitude <;> rfl)
  have e2 : (st.mapM fun tr : CoordTrace => tr.coords.xy?) = none := key _ st t ht (by
    unfold TraceCoords.xy?
    rcases h2 with h | h
    · rw [h]
    · rw [h]
      cases t.coords.x <;> rfl)
  unfold getCoordinates streamPositions
  dsimp only
  rw [e1]
  dsimp only
  rw [e2]

/-- **C102, stream and inventory agree.** If the traces of a stream carry the positions of the channels of an inventory, one trace for each channel in any order, both
give the same rows, up to their order. -/
theorem C102_same (geo : GeoKm) (inv : List InvChannel) (st : List CoordTrace) (hd : ∀ c ∈ inv, c.NoDots)
    (hs : ∀ c ∈ inv, ∀ d ∈ inv, c.SameCodes d → c.SamePlace d)
    (hst : st.Perm (inv.map fun c => ⟨c.network, c.station, c.location, { longitude := some c.lon, latitude := some c.lat, elevation := some c.elev }⟩)) :
    ∃ rows rows', getCoordinates geo (.inventory inv) = .ok rows ∧ getCoordinates geo (.stream st) = .ok rows' ∧ rows.Perm rows' := by
  obtain ⟨rows, h1, h2⟩ := C102_inventory geo inv hd hs
  have hat : ∀ t ∈ st, t.At (t.coords.longitude.getD 0) (t.coords.latitude.getD 0) (t.coords.elevation.getD 0) := by
    intro t ht
    obtain ⟨c, -, rfl⟩ := List.mem_map.mp (hst.subset ht)
    exact ⟨rfl, rfl, rfl⟩
  refine ⟨rows, _, h1, C102_stream geo st _ _ _ hat, h2.trans ?_⟩
  have e1 : Stats.mean (st.map fun t => t.coords.longitude.getD 0) = Stats.mean (inv.map InvChannel.lon) := by
    have := hst.map fun t => t.coords.longitude.getD 0
    rw [List.map_map] at this
    unfold Stats.mean
    rw [this.sum_eq, this.length_eq]
    rfl
  have e2 : Stats.mean (st.map fun t => t.coords.latitude.getD 0) = Stats.mean (inv.map InvChannel.lat) := by
    have := hst.map fun t => t.coords.latitude.getD 0
    rw [List.map_map] at this
    unfold Stats.mean
    rw [this.sum_eq, this.length_eq]
    rfl
  rw [e1, e2]
  have := hst.map fun t => sensorRow geo (Stats.mean (inv.map InvChannel.lon)) (Stats.mean (inv.map InvChannel.lat)) t.network t.station t.location
    (t.coords.longitude.getD 0) (t.coords.latitude.getD 0) (t.coords.elevation.getD 0)
  rw [List.map_map] at this
  exact this.symm

/-- **C102, arrays.** Arrays of the same length are the positions, in order; other arrays are refused. -/
theorem C102_arrays (geo : GeoKm) (x y : List Rat) :
    (x.length = y.length → ∃ rows, getCoordinates geo (.arrays x y) = .ok rows ∧ rows.map SensorRow.x = x ∧ rows.map SensorRow.y = y) ∧
    (x.length ≠ y.length → getCoordinates geo (.arrays x y) = .error .other) := by
  refine ⟨?_, ?_⟩
  · intro h
    refine ⟨_, by unfold getCoordinates; dsimp only; rw [if_pos h], ?_, ?_⟩
    · rw [List.map_map]
      exact List.map_fst_zip (by omega)
    · rw [List.map_map]
      exact List.map_snd_zip (by omega)
  · intro h
    unfold getCoordinates
    dsimp only
    rw [if_neg h]

/-- **C102, violated: arrays have no names.** Positions given as arrays cannot be used for the inversion: every sensor is called `None.None.None`, so that the sensors of a
table of lags are not found, unless one is called that. -/
theorem C102_violated_arrays (geo : GeoKm) (x y : List Rat) (rows : List SensorRow) (hr : getCoordinates geo (.arrays x y) = .ok rows)
    (tbl : LagTable) (ids : List (List Nat)) (hkeys : (tbl.map Prod.fst).filter (isInfix (bytes "rms")) = ids.map (bytes "rms_" ++ ·))
    (hu : ∀ id ∈ ids, 95 ∉ id) (id : List Nat) (hid : id ∈ ids) (hn : id ≠ bytes "None.None.None") :
    ∃ e, invertForSlowness tbl (rows.map SensorRow.toLoc) = .error e := by
  have hids : ∀ r ∈ rows.map SensorRow.toLoc, r.id ≠ id := by
    intro r hr'
    obtain ⟨q, hq, rfl⟩ := List.mem_map.mp hr'
    unfold getCoordinates at hr
    dsimp only at hr
    by_cases hl : x.length = y.length
    · rw [if_pos hl] at hr
      obtain rfl := Except.ok.inj hr
      obtain ⟨p, -, rfl⟩ := List.mem_map.mp hq
      exact fun h => hn h.symm
    · rw [if_neg hl] at hr
      cases hr
  have hnone : findLoc (rows.map SensorRow.toLoc) id = none := by
    unfold findLoc
    rw [List.find?_eq_none.mpr]
    · rfl
    · intro r hr'
      simpa using hids r hr'
  have hg : (cyclicPairs ids).mapM (designRow (rows.map SensorRow.toLoc)) = none := by
    have hm : id ∈ (cyclicPairs ids).map Prod.fst := by rw [cyclicPairs_fst]; exact hid
    obtain ⟨p, hp, rfl⟩ := List.mem_map.mp hm
    clear hm
    revert hp
    generalize cyclicPairs ids = ps
    intro hp
    induction ps with
    | nil => simp at hp
    | cons a l ih =>
      rw [List.mapM_cons]
      rcases List.mem_cons.mp hp with rfl | hp
      · have : designRow (rows.map SensorRow.toLoc) p = none := by
          unfold designRow
          rw [hnone]
        rw [this]; rfl
      · rw [ih hp]
        cases designRow (rows.map SensorRow.toLoc) a <;> rfl
  unfold invertForSlowness
  rw [shortIds_eq hkeys hu]
  dsimp only
  rw [hg]
  exact ⟨_, rfl⟩

/-- The name of the sensor of a channel. -/
def InvChannel.sensor (c : InvChannel) : List Nat := c.network ++ bytes "." ++ c.station ++ bytes "." ++ c.location

/-- **C102, from the command line.** Take an inventory in which all channels of a sensor are at the same place, and a table of lags of some of its sensors, which are not on
one line. In every window in which the lags are those of a plane wave crossing the projected positions, the output has exactly its slowness vector. -/
theorem C102_directions (geo : GeoKm) (inv : List InvChannel) (hd : ∀ c ∈ inv, c.NoDots)
    (hs : ∀ c ∈ inv, ∀ d ∈ inv, c.sensor = d.sensor → c.SamePlace d)
    (readLags : List Nat → Option LagTable) (readInv : List Nat → Option (List InvChannel)) (print : LagTable → List (Option (Rat × Rat)) → List Nat)
    (writable : List Nat → Bool) (fs : FileSys) (input location out text1 text2 : List Nat) (tbl : LagTable)
    (h1 : fs input = some text1) (h2 : readLags text1 = some tbl) (h3 : fs location = some text2) (h4 : readInv text2 = some inv)
    (h5 : writable out = true) (ids : List (List Nat)) (pos : List Nat → Rat × Rat) (n : Nat)
    (hpos : ∀ c ∈ inv, pos c.sensor = geo (Stats.mean (inv.map InvChannel.lon)) (Stats.mean (inv.map InvChannel.lat)) c.lon c.lat)
    (hids : ∀ id ∈ ids, ∃ c ∈ inv, c.sensor = id)
    (hkeys : (tbl.map Prod.fst).filter (isInfix (bytes "rms")) = ids.map (bytes "rms_" ++ ·)) (hu : ∀ id ∈ ids, 95 ∉ id)
    (hnc : ¬ CollinearAt pos ids) (hlen : (tbl.headD ([], [])).2.length = n)
    (hlags : ∀ p ∈ ids.zip (ids.drop 1), ∃ col, tbl.lookup (bytes "lag_" ++ p.1 ++ bytes "_" ++ p.2) = some col ∧ col.length = n) :
    let r := directionTerminal readLags (fun t => (readInv t).bind fun inv => (getCoordinates geo (.inventory inv)).toOption.map (List.map SensorRow.toLoc))
      print writable fs ⟨some input, some location, some out⟩
    ∃ res, res.length = n ∧ r.1 = none ∧ r.2 out = some (print tbl res) ∧ (∀ p, p ≠ out → r.2 p = fs p) ∧
      ∀ (w : Nat) (s : Rat × Rat), w < n →
        (∀ p ∈ ids.zip (ids.drop 1), ∃ col, tbl.lookup (bytes "lag_" ++ p.1 ++ bytes "_" ++ p.2) = some col ∧
          col[w]? = some (some (planeLag s (pos p.1) (pos p.2)))) →
        res[w]? = some (some s) := by
  obtain ⟨rows, hr, hp⟩ := C102_inventory geo inv hd (by
    intro c hc d hd' h
    apply hs c hc d hd'
    unfold InvChannel.sensor
    rw [h.1, h.2.1, h.2.2.1])
  have hloc : Located (rows.map SensorRow.toLoc) pos ids := by
    have hmem : ∀ r : LocRow, r ∈ rows.map SensorRow.toLoc ↔ ∃ c ∈ inv, r = ⟨c.network, c.station, c.location,
        (pos c.sensor).1, (pos c.sensor).2⟩ := by
      intro r
      rw [(hp.map SensorRow.toLoc).mem_iff, List.map_map, List.mem_map]
      constructor
      · rintro ⟨c, hc, rfl⟩
        refine ⟨c, hc, ?_⟩
        rw [hpos c hc]
        rfl
      · rintro ⟨c, hc, rfl⟩
        refine ⟨c, hc, ?_⟩
        rw [hpos c hc]
        rfl
    intro id hid
    obtain ⟨c, hc, rfl⟩ := hids id hid
    refine ⟨⟨_, (hmem _).mpr ⟨c, hc, rfl⟩, rfl⟩, ?_⟩
    intro r hr hri
    obtain ⟨d, hd', rfl⟩ := (hmem r).mp hr
    have : d.sensor = c.sensor := Eq.symm hri
    rw [this]
  obtain ⟨res, a, b, c⟩ := C52_plane_wave tbl _ ids pos n hkeys hu hloc hnc hlen hlags
  have hb : ((fs location).bind fun t => (readInv t).bind fun inv => (getCoordinates geo (.inventory inv)).toOption.map (List.map SensorRow.toLoc)) =
      some (rows.map SensorRow.toLoc) := by
    rw [h3, Option.bind_some, h4, Option.bind_some, hr]
    rfl
  dsimp only
  unfold directionTerminal
  simp only [h1, h2, hb, h5, a, Option.bind_some, Bool.not_true, Bool.false_eq_true, if_false]
  refine ⟨res, b, trivial, ?_, ?_, c⟩
  · unfold FileSys.write; rw [if_pos rfl]
  · intro p hp; unfold FileSys.write; rw [if_neg hp, if_neg hp]

/-! ## Examples -/

/-- A flat projection. -/
def flatGeo : GeoKm := fun lon0 lat0 lon lat => ((lon - lon0) * 100, (lat - lat0) * 100)

def demoInv : List InvChannel :=
  [⟨bytes "X", bytes "B", [], bytes "HDF", 1, 0, 30⟩, ⟨bytes "X", bytes "A", [], bytes "HDF", 0, 0, 10⟩, ⟨bytes "X", bytes "A", [], bytes "HDG", 0, 0, 10⟩,
   ⟨bytes "X", bytes "C", [], bytes "HDF", 0, 1, 20⟩]

example : (∀ c ∈ demoInv, c.NoDots) ∧ (∀ c ∈ demoInv, ∀ d ∈ demoInv, c.sensor = d.sensor → c.SamePlace d) ∧
    (getCoordinates flatGeo (.inventory demoInv)).toOption.map (List.map fun r => (r.station, r.x, r.y, r.z)) =
      some [(some (bytes "A"), -25, -25, some 10), (some (bytes "A"), -25, -25, some 10), (some (bytes "B"), 75, -25, some 30), (some (bytes "C"), -25, 75, some 20)] := by
  unfold InvChannel.NoDots InvChannel.SamePlace
  decide +kernel

/-- Lags of a wave with slowness 1 towards the east. -/
def demoLags2 : LagTable :=
  [(bytes "rms_X.A.", [some 1]), (bytes "lag_X.A._X.B.", [some (-100)]), (bytes "rms_X.B.", [some 1]), (bytes "lag_X.B._X.C.", [some 100]),
   (bytes "rms_X.C.", [some 1]), (bytes "lag_X.C._X.A.", [some 0])]

example : (invertForSlowness demoLags2 (((getCoordinates flatGeo (.inventory demoInv)).toOption.getD []).map SensorRow.toLoc)).toOption = some [some (1, 0)] := by
  decide +kernel

end Gemlog
