import Verif.Model.Inventory
import Verif.Props.Summary

/-!
# C62: station inventories; C63: station tables
-/

namespace Gemlog

/-! ## Specification -/

/-- `s` is the first row of the station table with these codes. -/
def TableRowFor (table : List StationRow) (net sta loc : List Nat) (s : StationRow) : Prop :=
  ∃ pre post, table = pre ++ s :: post ∧ (s.network = net ∧ s.station = sta ∧ s.location = loc) ∧
    ∀ x ∈ pre, ¬ (x.network = net ∧ x.station = sta ∧ x.location = loc)

/-- A line of the coordinates belongs to these codes and serial number: by the codes if the coordinates have them, and otherwise
by the number that the serial number stands for. -/
def Belongs (coords : Coords) (net sta loc sn : List Nat) (r : CoordRow) : Prop :=
  if coords.hasCodes = true then r.network = net ∧ r.station = sta ∧ r.location = loc
  else ∃ n : Int, pyInt r.sn = some n ∧ pyInt sn = some n

/-- `r` is the first such line. -/
def LineFor (coords : Coords) (net sta loc sn : List Nat) (r : CoordRow) : Prop :=
  ∃ pre post, coords.rows = pre ++ r :: post ∧ Belongs coords net sta loc sn r ∧
    ∀ x ∈ pre, ¬ Belongs coords net sta loc sn x

/-- The inventory has this channel under these network and station codes. -/
def HasChannel (inv : List NetworkInfo) (net sta : List Nat) (ch : ChannelInfo) : Prop :=
  ∃ n ∈ inv, n.name = net ∧ ∃ s ∈ n.stations, s.name = sta ∧ ch ∈ s.channels

/-- The channel has the position of the line, and covers its times with an hour to spare (everything from 1970 to 9999 if the
coordinates have no times). -/
def ChannelFrom (coords : Coords) (ch : ChannelInfo) (sn : List Nat) (r : CoordRow) : Prop :=
  ch.sn = sn ∧ ch.lat = r.lat ∧ ch.lon = r.lon ∧ ch.elevation = r.elevation ∧
  (coords.hasTimes = true → ch.start = r.starttime - 3600 ∧ ch.stop = r.endtime + 3600) ∧
  (coords.hasTimes = false → ch.start = 0 ∧ ch.stop = 253402300799)

/-- All serial numbers are numbers, where this matters. -/
def NumericSNs (table : List StationRow) (coords : Coords) : Prop :=
  coords.hasCodes = false → (∀ s ∈ table, ∀ net sta loc, TableRowFor table net sta loc s → (pyInt s.sn).isSome) ∧
    (table ≠ [] → ∀ r ∈ coords.rows, (pyInt r.sn).isSome)

/-! ## Lemmas -/

theorem uniqueGo_spec : ∀ (l seen : List (List Nat)), seen.Nodup →
    (uniqueGo seen l).Nodup ∧ ∀ x, x ∈ uniqueGo seen l ↔ x ∈ seen ∨ x ∈ l
  | [], seen, h => by simp [uniqueGo, h]
  | a :: l, seen, h => by
    rw [uniqueGo]
    split
    · rename_i hc
      obtain ⟨h1, h2⟩ := uniqueGo_spec l seen h
      refine ⟨h1, fun x => ?_⟩
      rw [h2, List.mem_cons]
      constructor
      · rintro (h | h)
        · exact .inl h
        · exact .inr (.inr h)
      · rintro (h | rfl | h)
        · exact .inl h
        · exact .inl hc
        · exact .inr h
    · rename_i hc
      have hnd : (seen ++ [a]).Nodup := by
        rw [List.nodup_append]
        refine ⟨h, by simp, ?_⟩
        intro x hx y hy
        rw [List.mem_singleton.mp hy]
        rintro rfl
        exact hc hx
      obtain ⟨h1, h2⟩ := uniqueGo_spec l (seen ++ [a]) hnd
      refine ⟨h1, fun x => ?_⟩
      rw [h2, List.mem_append, List.mem_singleton, List.mem_cons, or_assoc]

theorem uniqueIn_nodup (l : List (List Nat)) : (uniqueIn l).Nodup := (uniqueGo_spec l [] List.nodup_nil).1

theorem mem_uniqueIn (l : List (List Nat)) (x : List Nat) : x ∈ uniqueIn l ↔ x ∈ l := by
  have := (uniqueGo_spec l [] List.nodup_nil).2 x
  simpa [uniqueIn] using this

theorem rowFor_iff (table : List StationRow) (net sta loc : List Nat) (s : StationRow) :
    (table.find? fun r => r.network = net && r.station = sta && r.location = loc) = some s ↔ TableRowFor table net sta loc s := by
  unfold TableRowFor
  rw [List.find?_eq_some_iff_append]
  simp only [Bool.and_eq_true, decide_eq_true_eq, Bool.not_eq_true', Bool.and_eq_false_iff, decide_eq_false_iff_not]
  constructor
  · rintro ⟨h1, pre, post, h2, h3⟩
    refine ⟨pre, post, h2, ⟨h1.1.1, h1.1.2, h1.2⟩, fun x hx => ?_⟩
    have := h3 x hx
    tauto
  · rintro ⟨pre, post, h2, h1, h3⟩
    refine ⟨⟨⟨h1.1, h1.2.1⟩, h1.2.2⟩, pre, post, h2, fun x hx => ?_⟩
    have := h3 x hx
    tauto

theorem rowFor_exists {table : List StationRow} {net sta loc : List Nat} :
    (∃ s, TableRowFor table net sta loc s) ↔ ∃ r ∈ table, r.network = net ∧ r.station = sta ∧ r.location = loc := by
  constructor
  · rintro ⟨s, pre, post, rfl, h, _⟩
    exact ⟨s, by simp, h⟩
  · rintro ⟨r, hr, h1, h2, h3⟩
    cases hf : table.find? fun r => r.network = net && r.station = sta && r.location = loc with
    | some s => exact ⟨s, (rowFor_iff _ _ _ _ _).mp hf⟩
    | none =>
      have := List.find?_eq_none.mp hf r hr
      simp [h1, h2, h3] at this

theorem lineFor_of_filter {coords : Coords} {net sta loc sn : List Nat} {p : CoordRow → Bool}
    (hp : ∀ r ∈ coords.rows, p r = true ↔ Belongs coords net sta loc sn r) :
    (∀ r rest, coords.rows.filter p = r :: rest → LineFor coords net sta loc sn r) ∧
    (coords.rows.filter p = [] → ∀ r, ¬ LineFor coords net sta loc sn r) := by
  have hh := List.head?_filter (p := p) (l := coords.rows)
  constructor
  · intro r rest h
    rw [h, List.head?_cons] at hh
    obtain ⟨h1, pre, post, h2, h3⟩ := List.find?_eq_some_iff_append.mp hh.symm
    refine ⟨pre, post, h2, (hp r (by rw [h2]; simp)).mp h1, ?_⟩
    intro x hx hb
    have := h3 x hx
    rw [(hp x (by rw [h2]; simp [hx])).mpr hb] at this
    simp at this
  · rintro h r ⟨pre, post, h2, h3, _⟩
    have hr : r ∈ coords.rows := by rw [h2]; simp
    have : r ∈ coords.rows.filter p := List.mem_filter.mpr ⟨hr, (hp r hr).mpr h3⟩
    rw [h] at this
    simp at this

theorem LineFor.unique {coords : Coords} {net sta loc sn : List Nat} {r r' : CoordRow} (h : LineFor coords net sta loc sn r)
    (h' : LineFor coords net sta loc sn r') : r = r' := by
  obtain ⟨pre, post, e, b, n⟩ := h
  obtain ⟨pre', post', e', b', n'⟩ := h'
  rw [e] at e'
  rcases List.append_eq_append_iff.mp e' with ⟨m, rfl, h2⟩ | ⟨m, rfl, h2⟩
  · cases m with
    | nil => simp at h2; exact h2.1
    | cons x m =>
      simp only [List.cons_append, List.cons.injEq] at h2
      exact absurd b (h2.1 ▸ n' x (by simp))
  · cases m with
    | nil => simp at h2; exact h2.1.symm
    | cons x m =>
      simp only [List.cons_append, List.cons.injEq] at h2
      exact absurd b' (h2.1 ▸ n x (by simp))

/-- The result of the search for lines. -/
theorem coordLines_spec (coords : Coords) (net sta loc sn : List Nat) (hok : coords.hasSN = true ∨ coords.hasCodes = true) :
    (coordLines coords net sta loc sn = none ↔ coords.hasCodes = false ∧
      ¬ ((pyInt sn).isSome = true ∧ ∀ r ∈ coords.rows, (pyInt r.sn).isSome = true)) ∧
    (∀ r rest, coordLines coords net sta loc sn = some (r :: rest) → LineFor coords net sta loc sn r) ∧
    (coordLines coords net sta loc sn = some [] → ∀ r, ¬ LineFor coords net sta loc sn r) := by
  unfold coordLines
  cases hc : coords.hasCodes with
  | true =>
    rw [if_neg (by simp)]
    have := @lineFor_of_filter coords net sta loc sn (fun r => r.network = net && r.station = sta && r.location = loc) (by
      intro r _
      unfold Belongs
      rw [if_pos hc]
      simp [and_assoc])
    refine ⟨by simp, ?_, ?_⟩
    · intro r rest h
      exact this.1 r rest (by simpa using h)
    · intro h
      exact this.2 (by simpa using h)
  | false =>
    have hs : coords.hasSN = true := by simpa [hc] using hok
    rw [hs, if_pos (by simp)]
    by_cases hn : ((pyInt sn).isSome && coords.rows.all fun r => (pyInt r.sn).isSome) = true
    · rw [if_pos hn]
      simp only [Bool.and_eq_true, List.all_eq_true] at hn
      obtain ⟨n, hsn⟩ := Option.isSome_iff_exists.mp hn.1
      have := @lineFor_of_filter coords net sta loc sn (fun r => pyInt r.sn = pyInt sn) (by
        intro r hr
        unfold Belongs
        rw [hc]
        simp [hsn])
      refine ⟨⟨fun h => by simp at h, fun h => absurd hn h.2⟩, ?_, ?_⟩
      · intro r rest h
        exact this.1 r rest (by simpa using h)
      · intro h
        exact this.2 (by simpa using h)
    · rw [if_neg hn]
      simp only [Bool.and_eq_true, List.all_eq_true] at hn
      refine ⟨by simpa using hn, by simp, by simp⟩

theorem channelFrom_iff (coords : Coords) (ch : ChannelInfo) (loc sn : List Nat) (r : CoordRow) :
    ch = channelOf coords loc sn r ↔ ch.location = loc ∧ ChannelFrom coords ch sn r := by
  unfold ChannelFrom channelOf
  obtain ⟨a, b, c, d, e, f, g⟩ := ch
  cases coords.hasTimes <;> simp

theorem channelsOf_spec {table : List StationRow} {coords : Coords} {net sta : List Nat}
    (hok : coords.hasSN = true ∨ coords.hasCodes = true) : ∀ (locs : List (List Nat)) (chs : List ChannelInfo),
    channelsOf table coords net sta locs = some chs → (chs.map ChannelInfo.location).Sublist locs ∧
      ∀ ch, ch ∈ chs ↔ ch.location ∈ locs ∧ ∃ s, TableRowFor table net sta ch.location s ∧
        ∃ r, LineFor coords net sta ch.location s.sn r ∧ ChannelFrom coords ch s.sn r
  | [], chs, h => by
    simp only [channelsOf, Option.some.injEq] at h
    subst h
    simp
  | loc :: locs, chs, h => by
    rw [channelsOf] at h
    cases hf : table.find? fun r => r.network = net && r.station = sta && r.location = loc with
    | none => rw [hf] at h; simp at h
    | some s =>
      rw [hf] at h
      have hrow := (rowFor_iff _ _ _ _ _).mp hf
      have huniq : ∀ s', TableRowFor table net sta loc s' → s' = s := by
        intro s' hs'
        have := (rowFor_iff _ _ _ _ _).mpr hs'
        rw [hf] at this
        simpa using this.symm
      obtain ⟨_, c2, c3⟩ := coordLines_spec coords net sta loc s.sn hok
      simp only at h
      cases hl : coordLines coords net sta loc s.sn with
      | none => rw [hl] at h; simp at h
      | some lines =>
        rw [hl] at h
        cases lines with
        | nil =>
          simp only at h
          obtain ⟨i1, i2⟩ := channelsOf_spec hok locs chs h
          refine ⟨i1.cons loc, fun ch => ?_⟩
          rw [i2, List.mem_cons]
          constructor
          · rintro ⟨h1, h2⟩; exact ⟨.inr h1, h2⟩
          · rintro ⟨h1 | h1, s', h2, r, h3, h4⟩
            · exfalso
              rw [h1] at h2 h3
              rw [huniq s' h2] at h3
              exact c3 hl r h3
            · exact ⟨h1, s', h2, r, h3, h4⟩
        | cons r rest =>
          simp only at h
          cases hrec : channelsOf table coords net sta locs with
          | none => rw [hrec] at h; simp at h
          | some l =>
            rw [hrec] at h
            simp only [Option.map_some, Option.some.injEq] at h
            subst h
            obtain ⟨i1, i2⟩ := channelsOf_spec hok locs l hrec
            have hline := c2 r rest hl
            refine ⟨by simpa [channelOf] using i1.cons_cons loc, fun ch => ?_⟩
            rw [List.mem_cons, i2, List.mem_cons, channelFrom_iff]
            constructor
            · rintro (⟨h1, h2⟩ | ⟨h1, h2⟩)
              · exact ⟨.inl h1, s, h1 ▸ hrow, r, h1 ▸ hline, h2⟩
              · exact ⟨.inr h1, h2⟩
            · rintro ⟨h1 | h1, s', h2, r', h3, h4⟩
              · left
                rw [h1] at h2 h3
                rw [huniq s' h2] at h3 h4
                rw [h3.unique hline] at h4
                exact ⟨h1, h4⟩
              · exact .inr ⟨h1, s', h2, r', h3, h4⟩

theorem channelsOf_none {table : List StationRow} {coords : Coords} {net sta : List Nat} : ∀ (locs : List (List Nat)),
    channelsOf table coords net sta locs = none ↔ ∃ loc ∈ locs, ∀ s, TableRowFor table net sta loc s →
      coordLines coords net sta loc s.sn = none
  | [] => by simp [channelsOf]
  | loc :: locs => by
    have ih := channelsOf_none (table := table) (coords := coords) (net := net) (sta := sta) locs
    rw [channelsOf]
    have hiff := fun s => rowFor_iff table net sta loc s
    cases hf : table.find? fun r => r.network = net && r.station = sta && r.location = loc with
    | none =>
      simp only [true_iff]
      refine ⟨loc, by simp, fun s hs => ?_⟩
      have := (hiff s).mpr hs
      rw [hf] at this
      simp at this
    | some s =>
      have hrow := (hiff s).mp hf
      have huniq : ∀ s', TableRowFor table net sta loc s' → s' = s := by
        intro s' hs'
        have := (hiff s').mpr hs'
        rw [hf] at this
        simpa using this.symm
      simp only
      cases hl : coordLines coords net sta loc s.sn with
      | none =>
        simp only [true_iff]
        exact ⟨loc, by simp, fun s' hs' => by rw [huniq s' hs']; exact hl⟩
      | some lines =>
        have hne : ¬ ∀ s', TableRowFor table net sta loc s' → coordLines coords net sta loc s'.sn = none := by
          intro h
          have := h s hrow
          rw [hl] at this
          simp at this
        have hcons : (∃ l ∈ loc :: locs, ∀ s, TableRowFor table net sta l s → coordLines coords net sta l s.sn = none) ↔
            ∃ l ∈ locs, ∀ s, TableRowFor table net sta l s → coordLines coords net sta l s.sn = none := by
          simp only [List.mem_cons, exists_eq_or_imp]
          constructor
          · rintro (h | h)
            · exact absurd h hne
            · exact h
          · exact .inr
        rw [hcons, ← ih]
        cases lines with
        | nil => simp
        | cons r rest => simp

theorem stationsOf_spec {table : List StationRow} {coords : Coords} {net : List Nat} : ∀ (stas : List (List Nat))
    (ss : List StationInfo), stationsOf table coords net stas = some ss → (ss.map StationInfo.name).Sublist stas ∧
      (∀ s ∈ ss, s.channels ≠ [] ∧ s = stationOf s.name s.channels) ∧
      ∀ sta chs, chs ≠ [] → ((∃ s ∈ ss, s.name = sta ∧ s.channels = chs) ↔ sta ∈ stas ∧ channelsOf table coords net sta
        (uniqueIn ((table.filter fun r => r.network = net && r.station = sta).map StationRow.location)) = some chs)
  | [], ss, h => by
    simp only [stationsOf, Option.some.injEq] at h
    subst h
    simp
  | sta :: stas, ss, h => by
    rw [stationsOf] at h
    cases hc : channelsOf table coords net sta
        (uniqueIn ((table.filter fun r => r.network = net && r.station = sta).map StationRow.location)) with
    | none => rw [hc] at h; simp at h
    | some chs =>
      rw [hc] at h
      cases chs with
      | nil =>
        simp only at h
        obtain ⟨i1, i2, i3⟩ := stationsOf_spec stas ss h
        refine ⟨i1.cons sta, i2, ?_⟩
        intro sta' chs' hne
        rw [i3 sta' chs' hne, List.mem_cons]
        constructor
        · rintro ⟨h1, h2⟩; exact ⟨.inr h1, h2⟩
        · rintro ⟨h1 | h1, h2⟩
          · subst h1
            rw [hc] at h2
            simp only [Option.some.injEq] at h2
            exact absurd h2.symm hne
          · exact ⟨h1, h2⟩
      | cons c cs =>
        simp only at h
        cases hrec : stationsOf table coords net stas with
        | none => rw [hrec] at h; simp at h
        | some l =>
          rw [hrec] at h
          simp only [Option.map_some, Option.some.injEq] at h
          subst h
          obtain ⟨i1, i2, i3⟩ := stationsOf_spec stas l hrec
          refine ⟨by simpa [stationOf] using i1.cons_cons sta, ?_, ?_⟩
          · intro s hs
            rcases List.mem_cons.mp hs with rfl | hs
            · exact ⟨by simp [stationOf], rfl⟩
            · exact i2 s hs
          · intro sta' chs' hne
            constructor
            · rintro ⟨s, hs, h1, h2⟩
              rcases List.mem_cons.mp hs with rfl | hs
              · have e1 : sta = sta' := h1
                have e2 : c :: cs = chs' := h2
                subst e1
                exact ⟨by simp, by rw [hc, e2]⟩
              · have := (i3 sta' chs' hne).mp ⟨s, hs, h1, h2⟩
                exact ⟨by simp [this.1], this.2⟩
            · rintro ⟨h1, h2⟩
              rcases List.mem_cons.mp h1 with rfl | h1
              · rw [hc] at h2
                simp only [Option.some.injEq] at h2
                exact ⟨_, List.mem_cons_self .., rfl, h2⟩
              · obtain ⟨s, hs, h3⟩ := (i3 sta' chs' hne).mpr ⟨h1, h2⟩
                exact ⟨s, by simp [hs], h3⟩

theorem stationsOf_none {table : List StationRow} {coords : Coords} {net : List Nat} : ∀ (stas : List (List Nat)),
    stationsOf table coords net stas = none ↔ ∃ sta ∈ stas, channelsOf table coords net sta
        (uniqueIn ((table.filter fun r => r.network = net && r.station = sta).map StationRow.location)) = none
  | [] => by simp [stationsOf]
  | sta :: stas => by
    have ih := stationsOf_none (table := table) (coords := coords) (net := net) stas
    rw [stationsOf]
    simp only [List.mem_cons, exists_eq_or_imp]
    rw [← ih]
    cases hc : channelsOf table coords net sta
        (uniqueIn ((table.filter fun r => r.network = net && r.station = sta).map StationRow.location)) with
    | none => simp
    | some chs => cases chs <;> simp

theorem networksOf_spec {table : List StationRow} {coords : Coords} : ∀ (nets : List (List Nat))
    (inv : List NetworkInfo), networksOf table coords nets = some inv → inv.map NetworkInfo.name = nets ∧
      ∀ n ∈ inv, n.stations ≠ [] ∧ n.start = minRat (n.stations.map StationInfo.start) ∧
        n.stop = maxRat (n.stations.map StationInfo.stop) ∧
        stationsOf table coords n.name (uniqueIn ((table.filter fun r => r.network = n.name).map StationRow.station)) =
          some n.stations
  | [], inv, h => by
    simp only [networksOf, Option.some.injEq] at h
    subst h
    simp
  | net :: nets, inv, h => by
    rw [networksOf] at h
    cases hs : stationsOf table coords net (uniqueIn ((table.filter fun r => r.network = net).map StationRow.station)) with
    | none => rw [hs] at h; simp at h
    | some ss =>
      rw [hs] at h
      cases ss with
      | nil => simp at h
      | cons s ss =>
        simp only at h
        cases hrec : networksOf table coords nets with
        | none => rw [hrec] at h; simp at h
        | some l =>
          rw [hrec] at h
          simp only [Option.map_some, Option.some.injEq] at h
          subst h
          obtain ⟨i1, i2⟩ := networksOf_spec nets l hrec
          refine ⟨by simp [i1], ?_⟩
          intro n hn
          rcases List.mem_cons.mp hn with rfl | hn
          · exact ⟨by simp, rfl, rfl, hs⟩
          · exact i2 n hn

theorem networksOf_none {table : List StationRow} {coords : Coords} : ∀ (nets : List (List Nat)),
    networksOf table coords nets = none ↔ ∃ net ∈ nets,
      stationsOf table coords net (uniqueIn ((table.filter fun r => r.network = net).map StationRow.station)) = none ∨
      stationsOf table coords net (uniqueIn ((table.filter fun r => r.network = net).map StationRow.station)) = some []
  | [] => by simp [networksOf]
  | net :: nets => by
    have ih := networksOf_none (table := table) (coords := coords) nets
    rw [networksOf]
    simp only [List.mem_cons, exists_eq_or_imp]
    rw [← ih]
    cases hs : stationsOf table coords net (uniqueIn ((table.filter fun r => r.network = net).map StationRow.station)) with
    | none => simp
    | some ss => cases ss <;> simp

theorem makeInventory_ok {table : List StationRow} {coords : Coords} {inv : List NetworkInfo}
    (h : makeInventory table coords = some inv) : (coords.hasSN = true ∨ coords.hasCodes = true) ∧
      networksOf table coords (uniqueIn (table.map StationRow.network)) = some inv := by
  unfold makeInventory at h
  cases h1 : coords.hasSN <;> cases h2 : coords.hasCodes <;> simp [h1, h2] at h ⊢ <;> exact h

theorem mem_stations {table : List StationRow} {net sta : List Nat} :
    sta ∈ uniqueIn ((table.filter fun r => r.network = net).map StationRow.station) ↔
      ∃ r ∈ table, r.network = net ∧ r.station = sta := by
  rw [mem_uniqueIn, List.mem_map]
  simp only [List.mem_filter, decide_eq_true_eq, and_assoc]

theorem mem_locations {table : List StationRow} {net sta loc : List Nat} :
    loc ∈ uniqueIn ((table.filter fun r => r.network = net && r.station = sta).map StationRow.location) ↔
      ∃ r ∈ table, r.network = net ∧ r.station = sta ∧ r.location = loc := by
  rw [mem_uniqueIn, List.mem_map]
  simp only [List.mem_filter, Bool.and_eq_true, decide_eq_true_eq, and_assoc]

/-! ## C62 -/

/-- **C62, channels.** An inventory that is made has a channel under network, station and location codes exactly if the station
table has these codes and the coordinates have a line for them (for their first row in the table); the channel has the
position of the first such line and its times with an hour to spare. Codes occur once: no network, station of a network or location
of a station is repeated. -/
theorem C62_channels (table : List StationRow) (coords : Coords) (inv : List NetworkInfo)
    (h : makeInventory table coords = some inv) :
    (∀ net sta ch, HasChannel inv net sta ch ↔ ∃ s, TableRowFor table net sta ch.location s ∧
      ∃ r, LineFor coords net sta ch.location s.sn r ∧ ChannelFrom coords ch s.sn r) ∧
    (inv.map NetworkInfo.name).Nodup ∧ (∀ n ∈ inv, (n.stations.map StationInfo.name).Nodup ∧
      ∀ s ∈ n.stations, (s.channels.map ChannelInfo.location).Nodup) := by
  obtain ⟨hok, hn⟩ := makeInventory_ok h
  obtain ⟨n1, n2⟩ := networksOf_spec _ _ hn
  refine ⟨?_, by rw [n1]; exact uniqueIn_nodup _, ?_⟩
  · intro net sta ch
    constructor
    · rintro ⟨n, hn, rfl, s, hs, rfl, hch⟩
      obtain ⟨_, _, _, h4⟩ := n2 n hn
      obtain ⟨_, s2, s3⟩ := stationsOf_spec _ _ h4
      obtain ⟨h5, h6⟩ := (s3 s.name s.channels (s2 s hs).1).mp ⟨s, hs, rfl, rfl⟩
      exact (((channelsOf_spec hok _ _ h6).2 ch).mp hch).2
    · rintro ⟨s, h1, r, h2, h3⟩
      obtain ⟨x, hx, x1, x2, x3⟩ := rowFor_exists.mp ⟨s, h1⟩
      have hnet : net ∈ inv.map NetworkInfo.name := by
        rw [n1, mem_uniqueIn, List.mem_map]
        exact ⟨x, hx, x1⟩
      obtain ⟨n, hn, rfl⟩ := List.mem_map.mp hnet
      obtain ⟨_, _, _, h4⟩ := n2 n hn
      obtain ⟨_, s2, s3⟩ := stationsOf_spec _ _ h4
      have hsta : sta ∈ uniqueIn ((table.filter fun r => r.network = n.name).map StationRow.station) :=
        mem_stations.mpr ⟨x, hx, x1, x2⟩
      cases hc : channelsOf table coords n.name sta
          (uniqueIn ((table.filter fun r => r.network = n.name && r.station = sta).map StationRow.location)) with
      | none =>
        have := (stationsOf_none _).mpr ⟨sta, hsta, hc⟩
        rw [h4] at this
        simp at this
      | some chs =>
        have hch : ch ∈ chs := ((channelsOf_spec hok _ _ hc).2 ch).mpr
          ⟨mem_locations.mpr ⟨x, hx, x1, x2, x3⟩, s, h1, r, h2, h3⟩
        obtain ⟨st, hst, e1, e2⟩ := (s3 sta chs (List.ne_nil_of_mem hch)).mpr ⟨hsta, hc⟩
        exact ⟨n, hn, rfl, st, hst, e1, by rw [e2]; exact hch⟩
  · intro n hn
    obtain ⟨_, _, _, h4⟩ := n2 n hn
    obtain ⟨s1, s2, s3⟩ := stationsOf_spec _ _ h4
    refine ⟨(uniqueIn_nodup _).sublist s1, ?_⟩
    intro s hs
    obtain ⟨h5, h6⟩ := (s3 s.name s.channels (s2 s hs).1).mp ⟨s, hs, rfl, rfl⟩
    exact (uniqueIn_nodup _).sublist (channelsOf_spec hok _ _ h6).1

/-- **C62, stations and networks.** Every station listed has channels; its position and elevation are the means over them, and its
times enclose theirs exactly. Every network of the table is listed and has stations, and its times enclose theirs exactly. -/
theorem C62_stations (table : List StationRow) (coords : Coords) (inv : List NetworkInfo)
    (h : makeInventory table coords = some inv) :
    (∀ net, (∃ n ∈ inv, n.name = net) ↔ ∃ r ∈ table, r.network = net) ∧
    ∀ n ∈ inv, n.stations ≠ [] ∧
      (n.start ∈ n.stations.map StationInfo.start ∧ ∀ s ∈ n.stations, n.start ≤ s.start) ∧
      (n.stop ∈ n.stations.map StationInfo.stop ∧ ∀ s ∈ n.stations, s.stop ≤ n.stop) ∧
      ∀ s ∈ n.stations, s.channels ≠ [] ∧
        s.lat = Stats.mean (s.channels.map ChannelInfo.lat) ∧ s.lon = Stats.mean (s.channels.map ChannelInfo.lon) ∧
        s.elevation = Stats.mean (s.channels.map ChannelInfo.elevation) ∧
        (s.start ∈ s.channels.map ChannelInfo.start ∧ ∀ c ∈ s.channels, s.start ≤ c.start) ∧
        (s.stop ∈ s.channels.map ChannelInfo.stop ∧ ∀ c ∈ s.channels, c.stop ≤ s.stop) := by
  obtain ⟨hok, hn⟩ := makeInventory_ok h
  obtain ⟨n1, n2⟩ := networksOf_spec _ _ hn
  refine ⟨?_, ?_⟩
  · intro net
    have : (∃ n ∈ inv, n.name = net) ↔ net ∈ inv.map NetworkInfo.name := by rw [List.mem_map]
    rw [this, n1, mem_uniqueIn, List.mem_map]
  · intro n hn
    obtain ⟨h1, h2, h3, h4⟩ := n2 n hn
    obtain ⟨_, s2, _⟩ := stationsOf_spec _ _ h4
    have hst : n.stations.map StationInfo.start ≠ [] := by simpa using h1
    have hsp : n.stations.map StationInfo.stop ≠ [] := by simpa using h1
    refine ⟨h1, ?_, ?_, ?_⟩
    · rw [h2]
      exact ⟨(minRat_spec _ hst).1, fun s hs => (minRat_spec _ hst).2 _ (List.mem_map.mpr ⟨s, hs, rfl⟩)⟩
    · rw [h3]
      exact ⟨(maxRat_spec _ hsp).1, fun s hs => (maxRat_spec _ hsp).2 _ (List.mem_map.mpr ⟨s, hs, rfl⟩)⟩
    · intro s hs
      obtain ⟨h5, h6⟩ := s2 s hs
      have hct : s.channels.map ChannelInfo.start ≠ [] := by simpa using h5
      have hcp : s.channels.map ChannelInfo.stop ≠ [] := by simpa using h5
      refine ⟨h5, ?_, ?_, ?_, ?_, ?_⟩
      · rw [h6]; rfl
      · rw [h6]; rfl
      · rw [h6]; rfl
      · have e : s.start = minRat (s.channels.map ChannelInfo.start) := by rw [h6]; rfl
        rw [e]
        exact ⟨(minRat_spec _ hct).1, fun c hc => (minRat_spec _ hct).2 _ (List.mem_map.mpr ⟨c, hc, rfl⟩)⟩
      · have e : s.stop = maxRat (s.channels.map ChannelInfo.stop) := by rw [h6]; rfl
        rw [e]
        exact ⟨(maxRat_spec _ hcp).1, fun c hc => (maxRat_spec _ hcp).2 _ (List.mem_map.mpr ⟨c, hc, rfl⟩)⟩

/-- **C62, when an inventory is made.** Exactly if the coordinates have serial numbers or codes, the serial numbers are numbers
where they are compared, and each network of the station table has some row with coordinates. -/
theorem C62_made (table : List StationRow) (coords : Coords) :
    (makeInventory table coords).isSome ↔ (coords.hasSN = true ∨ coords.hasCodes = true) ∧ NumericSNs table coords ∧
      ∀ x ∈ table, ∃ sta loc s r, TableRowFor table x.network sta loc s ∧ LineFor coords x.network sta loc s.sn r := by
  by_cases hok : coords.hasSN = true ∨ coords.hasCodes = true
  · have hm : makeInventory table coords = networksOf table coords (uniqueIn (table.map StationRow.network)) := by
      unfold makeInventory
      rcases hok with h | h <;> simp [h]
    have hnum : NumericSNs table coords ↔ ∀ net sta loc s, TableRowFor table net sta loc s →
        coordLines coords net sta loc s.sn ≠ none := by
      unfold NumericSNs
      constructor
      · intro h net sta loc s hs hn
        obtain ⟨h1, h2⟩ := (coordLines_spec coords net sta loc s.sn hok).1.mp hn
        obtain ⟨h3, h4⟩ := h h1
        obtain ⟨pre, post, e, _, _⟩ := id hs
        exact h2 ⟨h3 s (by rw [e]; simp) net sta loc hs, h4 (by rw [e]; simp)⟩
      · intro h hc
        have key : ∀ net sta loc s, TableRowFor table net sta loc s →
            (pyInt s.sn).isSome = true ∧ ∀ r ∈ coords.rows, (pyInt r.sn).isSome = true := by
          intro net sta loc s hs
          by_contra hcon
          exact h net sta loc s hs ((coordLines_spec coords net sta loc s.sn hok).1.mpr ⟨hc, hcon⟩)
        refine ⟨fun s _ net sta loc hs => (key net sta loc s hs).1, fun hne => ?_⟩
        obtain ⟨x, hx⟩ := List.exists_mem_of_ne_nil table hne
        obtain ⟨s, hs⟩ := rowFor_exists.mpr ⟨x, hx, rfl, rfl, rfl⟩
        exact (key _ _ _ s hs).2
    rw [hm, ← Option.ne_none_iff_isSome, Ne, networksOf_none, hnum]
    simp only [hok, true_and]
    constructor
    · intro h
      push Not at h
      have hch : ∀ net sta loc s, TableRowFor table net sta loc s → coordLines coords net sta loc s.sn ≠ none := by
        intro net sta loc s hs hn
        obtain ⟨x, hx, x1, x2, x3⟩ := rowFor_exists.mp ⟨s, hs⟩
        refine (h net (by rw [mem_uniqueIn]; exact List.mem_map.mpr ⟨x, hx, x1⟩)).1 ?_
        refine (stationsOf_none _).mpr ⟨sta, mem_stations.mpr ⟨x, hx, x1, x2⟩, ?_⟩
        refine (channelsOf_none _).mpr ⟨loc, mem_locations.mpr ⟨x, hx, x1, x2, x3⟩, ?_⟩
        intro s' hs'
        have e := ((rowFor_iff _ _ _ _ _).mpr hs).symm.trans ((rowFor_iff _ _ _ _ _).mpr hs')
        simp only [Option.some.injEq] at e
        rw [← e]
        exact hn
      refine ⟨hch, ?_⟩
      intro x hx
      obtain ⟨h1, h2⟩ := h x.network (by rw [mem_uniqueIn]; exact List.mem_map.mpr ⟨x, hx, rfl⟩)
      obtain ⟨ss, hss⟩ := Option.ne_none_iff_exists'.mp h1
      rw [hss] at h2
      obtain ⟨st, hst⟩ := List.exists_mem_of_ne_nil ss (by simpa using h2)
      obtain ⟨_, s2, s3⟩ := stationsOf_spec _ _ hss
      obtain ⟨_, h6⟩ := (s3 st.name st.channels (s2 st hst).1).mp ⟨st, hst, rfl, rfl⟩
      obtain ⟨ch, hch'⟩ := List.exists_mem_of_ne_nil st.channels (s2 st hst).1
      obtain ⟨_, s, hs, r, hr, _⟩ := ((channelsOf_spec hok _ _ h6).2 ch).mp hch'
      exact ⟨st.name, ch.location, s, r, hs, hr⟩
    · rintro ⟨hch, hrow⟩ ⟨net, hnet, h⟩
      rw [mem_uniqueIn, List.mem_map] at hnet
      obtain ⟨x, hx, rfl⟩ := hnet
      have hsome : stationsOf table coords x.network
          (uniqueIn ((table.filter fun r => r.network = x.network).map StationRow.station)) ≠ none := by
        intro hn
        obtain ⟨sta, hsta, h1⟩ := (stationsOf_none _).mp hn
        obtain ⟨loc, hloc, h2⟩ := (channelsOf_none _).mp h1
        obtain ⟨s, hs⟩ := rowFor_exists.mpr (mem_locations.mp hloc)
        exact hch _ _ _ s hs (h2 s hs)
      rcases h with h | h
      · exact hsome h
      · obtain ⟨sta, loc, s, r, hs, hr⟩ := hrow x hx
        obtain ⟨y, hy, y1, y2, y3⟩ := rowFor_exists.mp ⟨s, hs⟩
        have hsta : sta ∈ uniqueIn ((table.filter fun r => r.network = x.network).map StationRow.station) :=
          mem_stations.mpr ⟨y, hy, y1, y2⟩
        cases hc : channelsOf table coords x.network sta
            (uniqueIn ((table.filter fun r => r.network = x.network && r.station = sta).map StationRow.location)) with
        | none =>
          have := (stationsOf_none _).mpr ⟨sta, hsta, hc⟩
          rw [h] at this
          simp at this
        | some chs =>
          have hmem : channelOf coords loc s.sn r ∈ chs := ((channelsOf_spec hok _ _ hc).2 _).mpr
            ⟨mem_locations.mpr ⟨y, hy, y1, y2, y3⟩, s, hs, r, hr, ((channelFrom_iff coords _ loc s.sn r).mp rfl).2⟩
          obtain ⟨_, _, s3⟩ := stationsOf_spec _ _ h
          obtain ⟨st, hst, _⟩ := (s3 sta chs (List.ne_nil_of_mem hmem)).mpr ⟨hsta, hc⟩
          simp at hst
  · simp only [hok, false_and, iff_false]
    unfold makeInventory
    simp only [not_or, Bool.not_eq_true] at hok
    simp [hok.1, hok.2]

/-- A network with two stations, one of them with two locations, and a row without coordinates. -/
example : makeInventory [⟨bytes "077", bytes "NM", bytes "A", bytes "01", .default⟩, ⟨bytes "078", bytes "NM", bytes "B", [], .default⟩,
    ⟨bytes "079", bytes "NM", bytes "A", bytes "02", .default⟩, ⟨bytes "080", bytes "NM", bytes "C", [], .default⟩]
    ⟨true, false, true, [⟨bytes "79", [], [], [], 44, -116, 10, 5000, 9000⟩, ⟨bytes "78", [], [], [], 45, -117, 30, 5000, 9000⟩,
      ⟨bytes "77", [], [], [], 43, -116, 20, 4000, 8000⟩]⟩ =
    some [⟨bytes "NM", [⟨bytes "A", [⟨bytes "01", bytes "077", 43, -116, 20, 400, 11600⟩, ⟨bytes "02", bytes "079", 44, -116, 10, 1400, 12600⟩],
        87 / 2, -116, 15, 400, 12600⟩,
      ⟨bytes "B", [⟨[], bytes "078", 45, -117, 30, 1400, 12600⟩], 45, -117, 30, 1400, 12600⟩], 400, 12600⟩] := by
  decide +kernel

/-- **C62 is false if a network has no coordinates at all.** Then no inventory is made, not even for the other networks. -/
theorem C62_violated_network (table : List StationRow) (coords : Coords) (x : StationRow) (hx : x ∈ table)
    (hno : ∀ sta loc s r, TableRowFor table x.network sta loc s → ¬ LineFor coords x.network sta loc s.sn r) :
    makeInventory table coords = none := by
  cases h : makeInventory table coords with
  | none => rfl
  | some inv =>
    have := (C62_made table coords).mp (by rw [h]; rfl)
    obtain ⟨sta, loc, s, r, h1, h2⟩ := this.2.2 x hx
    exact absurd h2 (hno sta loc s r h1)

/-- One instrument of network XX was not recovered: no inventory for network NM either. -/
example : makeInventory [⟨bytes "077", bytes "NM", bytes "A", [], .default⟩, ⟨bytes "078", bytes "XX", bytes "B", [], .default⟩]
    ⟨true, false, true, [⟨bytes "77", [], [], [], 43, -116, 20, 4000, 8000⟩]⟩ = none := by
  decide +kernel

/-! ## C63 -/

theorem findIdx_lower {header : List (List Nat)} {name : List Nat} {i : Nat} (h : header[i]?.map lower = some name)
    (hnd : (header.map lower).Nodup) : columnOf header name = some i := by
  unfold columnOf
  have hi : i < header.length := by
    cases hh : header[i]? with
    | none => rw [hh] at h; simp at h
    | some x => exact (List.getElem?_eq_some_iff.mp hh).1
  rw [List.getElem?_eq_getElem hi, Option.map_some, Option.some.injEq] at h
  rw [List.findIdx?_eq_some_iff_getElem]
  refine ⟨hi, by simpa using h, ?_⟩
  intro j hj
  simp only [decide_eq_true_eq]
  intro hc
  have := (List.getElem_inj (h₀ := by rw [List.length_map]; omega) (h₁ := by rw [List.length_map]; omega) hnd).mp
    (show (header.map lower)[j]'(by rw [List.length_map]; omega) = (header.map lower)[i]'(by rw [List.length_map]; omega) by
      rw [List.getElem_map, List.getElem_map, hc, h])
  omega

theorem textCell_of_lower {s : List Nat} (h : lower s ∈ headerNames) : isTextCell s = true := by
  unfold isTextCell
  have hlow : ∀ w ∈ naWords, lower w ∉ headerNames := by decide +kernel
  have hhead : ∀ w ∈ headerNames, ∃ c l, w = c :: l ∧ 97 ≤ c ∧ c ≤ 122 := by
    intro w hw
    unfold headerNames at hw
    simp only [List.mem_cons, List.not_mem_nil, or_false] at hw
    rcases hw with rfl | rfl | rfl | rfl | rfl
    · exact ⟨115, bytes "n", by decide +kernel, by omega, by omega⟩
    · exact ⟨110, bytes "etwork", by decide +kernel, by omega, by omega⟩
    · exact ⟨115, bytes "tation", by decide +kernel, by omega, by omega⟩
    · exact ⟨108, bytes "ocation", by decide +kernel, by omega, by omega⟩
    · exact ⟨101, bytes "levation", by decide +kernel, by omega, by omega⟩
  rw [Bool.and_eq_true]
  refine ⟨?_, by simpa using fun hw => hlow s hw h⟩
  obtain ⟨c, l, e, h1, h2⟩ := hhead _ h
  cases s with
  | nil => simp [lower] at e
  | cons d s =>
    simp only [lower, List.map_cons, List.cons.injEq] at e
    rw [List.any_eq_true]
    refine ⟨d, by simp, ?_⟩
    have hd := e.1
    unfold isDigit
    split_ifs at hd <;> simp <;> omega

/-- **C63 (missing: tables without location or network column, or without header line, see below).** A station table whose
header names the columns SN, network, station, location and perhaps elevation, in any order and capitalisation, is read
completely: one row per line, each field from its column as text, the elevation -9999 if there is none. -/
theorem C63_header_partial (header : List (List Nat)) (rows : List (List (List Nat))) (sn net sta loc : Nat)
    (hnames : ∀ h ∈ header, lower h ∈ [bytes "sn", bytes "network", bytes "station", bytes "location", bytes "elevation"])
    (hnd : (header.map lower).Nodup)
    (h1 : header[sn]?.map lower = some (bytes "sn")) (h2 : header[net]?.map lower = some (bytes "network"))
    (h3 : header[sta]?.map lower = some (bytes "station")) (h4 : header[loc]?.map lower = some (bytes "location")) :
    ∃ table, readStation (header :: rows) = some table ∧
      List.Forall₂ (fun row s => s.sn = row.getD sn [] ∧ s.network = row.getD net [] ∧ s.station = row.getD sta [] ∧
        s.location = row.getD loc [] ∧
        (∀ el : Nat, header[el]?.map lower = some (bytes "elevation") → s.elevation = .cell (row.getD el [])) ∧
        ((∀ el : Nat, header[el]?.map lower ≠ some (bytes "elevation")) → s.elevation = .default)) rows table := by
  have hall : header.all isTextCell = true := List.all_eq_true.mpr fun h hh => textCell_of_lower (hnames h hh)
  have hall' : (header.all fun h => decide (lower h ∈ headerNames)) = true :=
    List.all_eq_true.mpr fun h hh => by simpa [headerNames] using hnames h hh
  rw [readStation, if_pos hall, if_pos hall', findIdx_lower h1 hnd, findIdx_lower h2 hnd, findIdx_lower h3 hnd, findIdx_lower h4 hnd]
  refine ⟨_, rfl, ?_⟩
  unfold tableRows
  rw [List.forall₂_map_right_iff, List.forall₂_same]
  intro row _
  refine ⟨rfl, rfl, rfl, rfl, ?_, ?_⟩
  · intro el he
    rw [findIdx_lower he hnd]
  · intro hno
    cases hc : columnOf header (bytes "elevation") with
    | none => rfl
    | some i =>
      exfalso
      unfold columnOf at hc
      rw [List.findIdx?_eq_some_iff_getElem] at hc
      obtain ⟨hi, hc, _⟩ := hc
      refine hno i ?_
      rw [List.getElem?_eq_getElem hi]
      simpa using hc

/-- The table of the documentation. -/
example : readStation [[bytes "SN", bytes "Network", bytes "Station", bytes "Location", bytes "Elevation"],
    [bytes "077", bytes "NM", bytes "LADR1", [], bytes "1022"]] =
    some [⟨bytes "077", bytes "NM", bytes "LADR1", [], .cell (bytes "1022")⟩] := by
  decide +kernel

/-- **C63 is false without a location or network column**, although the documentation of `gem_make_inventory` calls them
optional: such a table is not read, whatever its rows. -/
theorem C63_violated_optional (header : List (List Nat)) (rows : List (List (List Nat)))
    (hnames : ∀ h ∈ header, lower h ∈ [bytes "sn", bytes "network", bytes "station", bytes "location", bytes "elevation"])
    (hno : (∀ h ∈ header, lower h ≠ bytes "location") ∨ ∀ h ∈ header, lower h ≠ bytes "network") :
    readStation (header :: rows) = none := by
  have hall : header.all isTextCell = true := List.all_eq_true.mpr fun h hh => textCell_of_lower (hnames h hh)
  have hall' : (header.all fun h => decide (lower h ∈ headerNames)) = true :=
    List.all_eq_true.mpr fun h hh => by simpa [headerNames] using hnames h hh
  rw [readStation, if_pos hall, if_pos hall']
  have hnone : ∀ name, (∀ h ∈ header, lower h ≠ name) → columnOf header name = none := by
    intro name h
    unfold columnOf
    rw [List.findIdx?_eq_none_iff]
    intro x hx
    simpa using h x hx
  rcases hno with h | h
  · rw [hnone _ h]
    cases columnOf header (bytes "sn") <;> cases columnOf header (bytes "network") <;> cases columnOf header (bytes "station") <;> rfl
  · rw [hnone _ h]
    cases columnOf header (bytes "sn") <;> rfl

/-- The two shorter tables of the documentation. -/
example : readStation [[bytes "SN", bytes "Network", bytes "Station", bytes "Elevation"], [bytes "077", bytes "NM", bytes "LADR1", bytes "1022"]] = none ∧
    readStation [[bytes "sn", bytes "station"], [bytes "077", bytes "LADR1"]] = none := by
  decide +kernel

/-- **C63 is false without a header line**, although the code means to accept such tables: the first line contains the serial
number, which pandas reads as a number (or blank codes, which it reads as missing). -/
theorem C63_violated_no_header (first : List (List Nat)) (rows : List (List (List Nat)))
    (h : ∃ cell ∈ first, ∀ c ∈ cell, 48 ≤ c ∧ c ≤ 57) : readStation (first :: rows) = none := by
  rw [readStation, if_neg]
  rw [List.all_eq_true]
  push Not
  obtain ⟨cell, hc, hd⟩ := h
  refine ⟨cell, hc, ?_⟩
  unfold isTextCell
  have : (cell.any fun c => !(isDigit c || c = 32 || c = 43 || c = 45 || c = 46)) = false := by
    rw [List.any_eq_false]
    intro c hcc
    have := hd c hcc
    simp [isDigit, this.1, this.2]
  rw [this]
  simp

example : readStation [[bytes "077", bytes "NM", bytes "LADR1", bytes "00"]] = none :=
  C63_violated_no_header _ [] ⟨bytes "077", by simp, by decide +kernel⟩

/-- **C63, without a header line.** If every cell of the first line contains a letter and is no word for a missing value (and they are not
all column names), a table of four or five columns is read from its first line on: serial number, network, station, location and elevation,
in this order. -/
theorem C63_no_header (first : List (List Nat)) (rows : List (List (List Nat)))
    (htext : ∀ cell ∈ first, (∃ c ∈ cell, 65 ≤ c ∧ c ≤ 90 ∨ 97 ≤ c ∧ c ≤ 122) ∧ cell ∉ naWords)
    (hsn : ∃ cell ∈ first, lower cell ∉ [bytes "sn", bytes "network", bytes "station", bytes "location", bytes "elevation"])
    (hlen : first.length = 4 ∨ first.length = 5) :
    ∃ table, readStation (first :: rows) = some table ∧
      List.Forall₂ (fun row s => s.sn = row.getD 0 [] ∧ s.network = row.getD 1 [] ∧ s.station = row.getD 2 [] ∧ s.location = row.getD 3 [] ∧
        (first.length = 5 → s.elevation = .cell (row.getD 4 [])) ∧ (first.length = 4 → s.elevation = .default)) (first :: rows) table := by
  have h1 : first.all isTextCell = true := by
    rw [List.all_eq_true]
    intro cell hc
    obtain ⟨⟨c, hcc, hl⟩, hna⟩ := htext cell hc
    unfold isTextCell
    rw [Bool.and_eq_true, List.any_eq_true]
    refine ⟨⟨c, hcc, ?_⟩, by simpa using hna⟩
    have : isDigit c = false := by unfold isDigit; simp; omega
    simp [this]
    omega
  have h2 : ¬ (first.all fun h => decide (lower h ∈ headerNames)) = true := by
    rw [List.all_eq_true]
    push Not
    obtain ⟨cell, hc, hd⟩ := hsn
    exact ⟨cell, hc, by simpa [headerNames] using hd⟩
  rw [readStation, if_pos h1, if_neg h2]
  rcases hlen with hlen | hlen
  · rw [if_pos hlen]
    refine ⟨_, rfl, ?_⟩
    unfold tableRows
    rw [List.forall₂_map_right_iff, List.forall₂_same]
    intro row _
    exact ⟨rfl, rfl, rfl, rfl, by omega, fun _ => rfl⟩
  · rw [if_neg (by omega), if_pos hlen]
    refine ⟨_, rfl, ?_⟩
    unfold tableRows
    rw [List.forall₂_map_right_iff, List.forall₂_same]
    intro row _
    exact ⟨rfl, rfl, rfl, rfl, fun _ => rfl, by omega⟩

example : ∃ table, readStation [[bytes "G077", bytes "NM", bytes "LADR1", bytes "A0"], [bytes "G078", bytes "NM", bytes "LADR2", bytes "A1"]] =
    some table ∧ table.map StationRow.station = [bytes "LADR1", bytes "LADR2"] := by
  obtain ⟨table, h, hf⟩ := C63_no_header [bytes "G077", bytes "NM", bytes "LADR1", bytes "A0"] [[bytes "G078", bytes "NM", bytes "LADR2", bytes "A1"]]
    (by decide +kernel) (by decide +kernel) (by decide)
  refine ⟨table, h, ?_⟩
  cases hf with
  | cons h1 hf =>
    cases hf with
    | cons h2 hf =>
      cases hf
      rw [List.map_cons, List.map_cons, h1.2.2.1, h2.2.2.1]
      rfl

/-- **C63, effect on `gemconvert`.** With a codes file that cannot be read, `gemconvert -c` converts nothing. -/
theorem C63_violated_gemconvert (listdir : List Nat → Option (List (List Nat))) (cells : List Nat → List (List (List Nat)))
    (f : List Nat) (hf : codesOfCells (cells f) = none) (hne : f ≠ []) :
    gemconvert ⟨listdir, fun g => codesOfCells (cells g)⟩ [bytes "-c", f] = .usage := by
  have hopt : getopt convertShort convertLong [bytes "-c", f] = some [(bytes "-c", f)] := by
    obtain ⟨c, l, rfl⟩ := List.exists_cons_of_ne_nil hne
    have e : bytes "-c" = [45, 99] := by decide +kernel
    rw [e]
    have hs : shortHasArg 99 convertShort = some true := by decide +kernel
    simp [getopt, getoptGo, doShorts, hs, takeValue]
  unfold gemconvert
  rw [hopt]
  have ho : applyOpts {} [(bytes "-c", f)] = some { ({} : CliOpts) with codes := some f } := by
    have hk : optKind (bytes "-c") = some .codesfile := by decide +kernel
    simp [applyOpts, applyOpt, hk]
  simp only [ho]
  cases listdir ({} : CliOpts).inputdir with
  | none => rfl
  | some files => simp [hf]

/-- The minimal table of the documentation is such a file. -/
example : codesOfCells [[bytes "sn", bytes "station"], [bytes "077", bytes "LADR1"], [bytes "088", bytes "LADR2"]] = none := by
  decide +kernel

end Gemlog
