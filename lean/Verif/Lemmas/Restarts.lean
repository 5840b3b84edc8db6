import Verif.Spec.Restarts
import Verif.Props.Whole

/-! # Helper facts: files with clocks of their own -/

namespace Gemlog

/-- The same event, counted from another origin (helper). -/
def Event.shift (k : Int) (e : Event) : Event := ⟨e.T + 8192 * k, e.line⟩

/-- The same file, counted from another origin (helper). -/
def ClockedFile.shifted (f : ClockedFile) (k : Int) : ClockedFile := ⟨f.offset - f.rate * (8192 * k), f.rate, f.events.map (Event.shift k)⟩

theorem shifted_utc (f : ClockedFile) (k : Int) (T : Rat) : (f.shifted k).utc (T + 8192 * k) = f.utc T := by
  unfold ClockedFile.utc ClockedFile.shifted
  ring

theorem shift_step (k : Int) (e : Event) : (e.shift k).step = e.step := rfl
theorem shift_isFix (k : Int) (e : Event) : (e.shift k).isFix = e.isFix := rfl
theorem shift_isStatus (k : Int) (e : Event) : (e.shift k).isStatus = e.isStatus := rfl
theorem shift_isOther (k : Int) (e : Event) : (e.shift k).isOther = e.isOther := rfl

theorem shift_filter_T (k : Int) (p : Event → Bool) (hp : ∀ e : Event, p (e.shift k) = p e) (es : List Event) :
    ((es.map (Event.shift k)).filter p).map Event.T = ((es.filter p).map Event.T).map (· + 8192 * (k : Rat)) := by
  rw [List.filter_map, show p ∘ Event.shift k = p from funext hp, List.map_map, List.map_map]
  rfl

theorem shift_sampleTimes (k : Int) (es : List Event) :
    sampleTimes (es.map (Event.shift k)) = (sampleTimes es).map (· + 8192 * (k : Rat)) := shift_filter_T k _ (fun _ => rfl) es

theorem shift_fixTimes (k : Int) (es : List Event) :
    fixTimes (es.map (Event.shift k)) = (fixTimes es).map (· + 8192 * (k : Rat)) := shift_filter_T k _ (fun _ => rfl) es

theorem shift_pressures (k : Int) (es : List Event) : pressuresOf (es.map (Event.shift k)) = pressuresOf es := by
  unfold pressuresOf
  rw [List.filterMap_map]
  rfl

theorem shift_wrapped {T s : Rat} (k : Int) (h : WrappedReading 8192 T s) : WrappedReading 8192 (T + 8192 * k) s := by
  obtain ⟨h1, h2, j, h3⟩ := h
  exact ⟨h1, h2, j + k, by push_cast; linarith⟩

theorem shift_printed (k : Int) : ∀ (es : List Event) (prev : Option Rat), TimesPrinted prev es →
    TimesPrinted (prev.map (· + 8192 * (k : Rat))) (es.map (Event.shift k))
  | [], _, _ => trivial
  | ⟨T, line⟩ :: es, prev, h => by
    cases line with
    | sample ms s => exact ⟨shift_wrapped k h.1, shift_printed k es _ h.2⟩
    | letters x y =>
      obtain ⟨⟨q, rfl, hT⟩, h2⟩ := h
      refine ⟨⟨q + 8192 * k, rfl, ?_⟩, shift_printed k es _ h2⟩
      simp only [Event.shift] at hT ⊢
      linarith
    | fix => exact ⟨shift_wrapped k h.1, shift_printed k es _ h.2⟩
    | status => exact ⟨shift_wrapped k h.1, shift_printed k es _ h.2⟩
    | other => exact shift_printed k es _ h

theorem shift_fixAt (k : Int) (e : Event) (t : Int) : (e.shift k).FixAt t ↔ e.FixAt t := by
  rcases e with ⟨T, line⟩
  cases line <;> exact Iff.rfl

theorem shifted_sound {f : ClockedFile} (h : SoundFile f.offset f.rate f.events) (k : Int) :
    SoundFile (f.shifted k).offset (f.shifted k).rate (f.shifted k).events := by
  unfold ClockedFile.shifted
  simp only
  have hfix : fixTimes f.events ≠ [] := by
    intro h0
    have := h.enough
    rw [h0] at this
    simp at this
  refine ⟨?_, by rw [List.length_map]; exact h.length, shift_printed k _ none h.printed, ?_, ?_, ?_, ?_, ?_, ?_, ?_, ?_⟩
  · intro e he
    obtain ⟨e', he', rfl⟩ := List.mem_map.mp he
    exact h.valid e' he'
  · rw [shift_filter_T k _ (fun e => by rw [shift_isOther]), List.isChain_map]
    exact h.near.imp (by intro x y h; constructor <;> linarith [h.1, h.2])
  · rw [shift_sampleTimes]
    simpa using h.samples
  · rw [shift_sampleTimes, List.isChain_map]
    exact h.steady.imp (by intro x y h; constructor <;> linarith [h.1, h.2])
  · obtain ⟨e, he, hs⟩ := h.status
    exact ⟨e.shift k, List.mem_map.mpr ⟨e, he, rfl⟩, hs⟩
  · intro e he hf
    obtain ⟨e', he', rfl⟩ := List.mem_map.mp he
    obtain ⟨t, h1, h2⟩ := h.fixes e' he' hf
    refine ⟨t, (shift_fixAt k e' t).mpr h1, ?_⟩
    rw [h2]
    unfold Event.shift
    ring
  · rw [shift_fixTimes, List.length_map]; exact h.enough
  · rw [shift_fixTimes, List.pairwise_map]
    exact h.increasing.imp (by intro x y h; linarith)
  · rw [shift_sampleTimes, shift_fixTimes, headD_map_add _ h.samples, getLastD_map_add _ h.samples, headD_map_add _ hfix, getLastD_map_add _ hfix]
    have := h.covers
    ring_nf at this ⊢
    exact this

theorem shifted_record (f : ClockedFile) (k : Int) : (f.shifted k).record = f.record := by
  unfold ClockedFile.record
  rw [show (f.shifted k).events = f.events.map (Event.shift k) from rfl, shift_sampleTimes, shift_pressures, List.map_map]
  congr 1
  apply List.map_congr_left
  intro T _
  simp only [Function.comp]
  rw [show T + 8192 * (k : Rat) + 893 / 100 = (T + 893 / 100) + 8192 * k by ring, shifted_utc]

theorem shifted_fixes (f : ClockedFile) (k : Int) : (f.shifted k).fixes = f.fixes := by
  unfold ClockedFile.fixes
  rw [show (f.shifted k).events = f.events.map (Event.shift k) from rfl, List.filterMap_map, List.map_filterMap, List.map_filterMap]
  apply List.filterMap_congr
  intro e _
  rcases e with ⟨T, line⟩
  cases line <;> first | rfl | (simp only [Function.comp, Event.fixPoint, Event.shift, Option.map_some, shifted_utc])

theorem shifted_status (f : ClockedFile) (k : Int) : (f.shifted k).status = f.status := by
  unfold ClockedFile.status
  rw [show (f.shifted k).events = f.events.map (Event.shift k) from rfl, List.filterMap_map, List.map_filterMap, List.map_filterMap]
  apply List.filterMap_congr
  intro e _
  rcases e with ⟨T, line⟩
  cases line <;> rfl

theorem shifted_add (f : ClockedFile) (j k : Int) : (f.shifted j).shifted k = f.shifted (j + k) := by
  unfold ClockedFile.shifted
  simp only [ClockedFile.mk.injEq, true_and, List.map_map]
  refine ⟨by push_cast; ring, ?_⟩
  apply List.map_congr_left
  intro e _
  unfold Function.comp Event.shift
  simp only [Event.mk.injEq, and_true]
  push_cast
  ring

theorem shifted_zero (f : ClockedFile) : f.shifted 0 = f := by
  unfold ClockedFile.shifted
  have : Event.shift 0 = id := by
    funext e
    unfold Event.shift
    simp
  simp [this]

/-! ## One file -/

/-- The contents of a file as used (helper). -/
def ClockedFile.used (f : ClockedFile) : FileData := usedData f.offset f.rate f.events

theorem used_shift (f : ClockedFile) : f.used.shift (2 ^ 13) = (f.shifted 1).used := by
  unfold ClockedFile.used usedData FileData.addDataTime FileData.shift fileDataOf
  have he : (f.shifted 1).events = f.events.map (Event.shift 1) := rfl
  rw [he, shift_sampleTimes, shift_pressures, shift_filter_T 1 _ (shift_isStatus 1), List.filter_map, List.filter_map,
    show Event.isStatus ∘ Event.shift 1 = Event.isStatus from rfl, show Event.isFix ∘ Event.shift 1 = Event.isFix from rfl]
  simp only [FileData.mk.injEq]
  refine ⟨?_, ?_, ?_⟩
  · rw [List.zip_map_left, List.map_map, List.map_map]
    apply List.map_congr_left
    intro p _
    simp only [Function.comp, Prod.map, id, Prod.mk.injEq, and_true]
    push_cast
    ring
  · have hv : ((f.events.filter Event.isStatus).map (Event.shift 1)).map (fun e => e.vals.map some)
        = (f.events.filter Event.isStatus).map (fun e => e.vals.map some) := by rw [List.map_map]; rfl
    rw [hv]
    generalize (f.events.filter Event.isStatus).map Event.T = A
    generalize (f.events.filter Event.isStatus).map (fun e => e.vals.map some) = B
    rw [List.zip_map_left]
    apply List.map_congr_left
    intro p _
    simp only [Prod.map, id, Prod.mk.injEq, and_true]
    push_cast
    ring
  · rw [List.map_map, List.map_map]
    apply List.map_congr_left
    intro e he
    rcases e with ⟨T, line⟩
    cases line <;> simp [Event.isFix] at he
    simp only [Function.comp, Event.fixRec, Event.grawD, Event.graw, Event.shift, Option.getD_some, Fix.mk.injEq, GRaw.mk.injEq, and_true, true_and]
    refine ⟨by push_cast; ring, ?_⟩
    unfold ClockedFile.shifted
    simp only
    push_cast
    ring

theorem exists_near (x start : Rat) : ∃ k : Int, -4096 ≤ x + 8192 * k - start ∧ x + 8192 * k - start < 4096 := by
  refine ⟨-⌊(x - start + 4096) / 8192⌋, ?_, ?_⟩
  · have := Int.floor_le ((x - start + 4096) / 8192)
    push_cast
    linarith
  · have := Int.lt_floor_add_one ((x - start + 4096) / 8192)
    push_cast
    linarith

/-- Header row of a file (helper). -/
def ClockedFile.Row (f : ClockedFile) (row : HeaderRow) : Prop := GoodRow f.offset f.rate f.events row

theorem used_head {f : ClockedFile} (hc : SoundFile f.offset f.rate f.events) {x : Rat} (hx : (sampleTimes f.events).head? = some x) :
    ∃ v l, f.used.data = (x + 893 / 100, v) :: l := by
  have ht : f.used.data.map Prod.fst = _ := usedData_times f.offset f.rate f.events
  cases hd : f.used.data with
  | nil => exact absurd hd (usedData_ne hc)
  | cons p l =>
    rw [hd] at ht
    cases hs : sampleTimes f.events with
    | nil => exact absurd hs hc.samples
    | cons y t =>
      rw [hs] at ht hx
      simp only [List.map_cons, List.cons.injEq, List.head?_cons, Option.some.injEq] at ht hx
      refine ⟨p.2, l, ?_⟩
      rw [← hx, ← ht.1]

theorem shifted_sampleFirst (f : ClockedFile) (k : Int) : BeginsWithSample (f.shifted k).events ↔ BeginsWithSample f.events := by
  unfold BeginsWithSample
  rw [show (f.shifted k).events = f.events.map (Event.shift k) from rfl, shift_filter_T k _ (fun e => by rw [shift_isOther]), shift_sampleTimes,
    List.head?_map (f := fun x : Rat => x + 8192 * (k : Rat)), List.head?_map (f := fun x : Rat => x + 8192 * (k : Rat))]
  have hinj : Function.Injective fun x : Rat => x + 8192 * (k : Rat) := fun a b h => by simpa using h
  exact (Option.map_injective hinj).eq_iff

theorem readOne_soundFile (d : RawDisk) (e : Entry) {f : ClockedFile} (start : Rat) (hb : 0 < f.rate) (hb1 : f.rate ≤ 1)
    (hfit : Reproduces d.fit) (hfit1 : ReproducesLines d.fit) (hc : SoundFile f.offset f.rate f.events)
    (hbeg : ∀ x ∈ ((f.events.filter fun e => !e.isOther).map Event.T).head?, ∀ y ∈ (sampleTimes f.events).head?, x ≤ y + 4096)
    (ht : d.content e = textOf f.events) (hsn : ∃ sn, d.readSN e = .ok sn) :
    ∃ k row, readOne d.env.ops true "0.9" e start = (row, .ok (f.shifted k).used) ∧ (f.shifted k).Row row ∧
      ∀ x ∈ (sampleTimes (f.shifted k).events).head?, start ≤ x + 893 / 100 ∧ (BeginsWithSample (f.shifted k).events → x + 893 / 100 < start + 8192) := by
  -- the origin of the count chosen by the reader
  obtain ⟨y, ys, hy⟩ := List.exists_cons_of_ne_nil hc.samples
  obtain ⟨x, hx⟩ : ∃ x, ((f.events.filter fun e => !e.isOther).map Event.T).head? = some x := by
    cases hh : (f.events.filter fun e => !e.isOther).map Event.T with
    | nil =>
      exfalso
      apply hc.samples
      rw [List.map_eq_nil_iff] at hh
      unfold sampleTimes
      rw [← filter_dataEvents _ (fun e h => step_notOther h)]
      unfold dataEvents
      rw [hh]; rfl
    | cons x l => exact ⟨x, rfl⟩
  obtain ⟨k, hk1, hk2⟩ := exists_near x start
  have hck := shifted_sound hc k
  have hnear : NearStart start (f.shifted k).events := by
    intro z hz
    rw [show (f.shifted k).events = f.events.map (Event.shift k) from rfl, shift_filter_T k _ (fun e => by rw [shift_isOther]), List.head?_map, hx] at hz
    simp only [Option.map_some, Option.mem_def, Option.some.injEq] at hz
    rw [← hz]
    exact ⟨hk1, hk2⟩
  have htk : d.content e = textOf (f.shifted k).events := by
    rw [ht]
    unfold textOf ClockedFile.shifted
    rw [List.map_map]
    rfl
  have hr : d.env.ops.read e start true "0.9" = .ok (f.shifted k).used := readSingle_cleanFile d e hck hnear htk
  have hhead : ∀ j : Int, (sampleTimes (f.shifted j).events).head? = some (y + 8192 * j) := by
    intro j
    rw [show (f.shifted j).events = f.events.map (Event.shift j) from rfl, shift_sampleTimes, hy]
    rfl
  -- the rest, whichever origin it is
  have main : ∀ j : Int, alignStart (f.shifted k).used start = .ok (f.shifted j).used →
      ∃ row, readOne d.env.ops true "0.9" e start = (row, .ok (f.shifted j).used) ∧ (f.shifted j).Row row := by
    intro j hal
    have hcj := shifted_sound hc j
    obtain ⟨info, h1, h2, h3, h4⟩ := drift_cleanFile hfit hfit1 (show 0 < (f.shifted j).rate from hb) hb1 hcj
    obtain ⟨sn, hsn⟩ := hsn
    have hg : (f.shifted j).used.gps ≠ [] := by
      intro h
      have := hcj.enough
      rw [← (used_fixTimes _ _ _).1] at this
      unfold ClockedFile.used at h
      rw [h] at this
      simp at this
    refine ⟨⟨info, (f.shifted j).used.data.length, sn⟩, ?_, h2, h3, h4⟩
    unfold readOne readVersioned
    rw [if_pos (by decide), hr]
    simp only [Except.bind, hal]
    have hdis : discontinuous ((f.shifted j).used.data.map Prod.fst) = false := by
      unfold ClockedFile.used
      rw [discontinuous_iff, usedData_times, List.isChain_map]
      exact hcj.steady.imp (by intro x y h; constructor <;> linarith [h.1, h.2])
    rw [hdis]
    simp only [Bool.false_eq_true, if_false]
    have hdr : d.env.ops.drift e (f.shifted j).used true = .ok info := h1
    have hsn' : d.env.ops.readSN e = .ok sn := hsn
    rw [hdr]
    simp only [hsn', hg, ne_eq, not_false_eq_true, or_true, if_true, Bool.true_eq_false]
  have hal : alignStart (f.shifted k).used start =
      .ok (if y + 8192 * k + 893 / 100 < start then (f.shifted k).used.shift (2 ^ 13) else (f.shifted k).used) := by
    obtain ⟨v, l, hv⟩ := used_head hck (hhead k)
    unfold alignStart
    rw [hv]
  by_cases hlt : y + 8192 * k + 893 / 100 < start
  · rw [if_pos hlt, used_shift, shifted_add] at hal
    obtain ⟨row, r1, r2⟩ := main _ hal
    refine ⟨k + 1, row, r1, r2, ?_⟩
    intro z hz
    rw [hhead] at hz
    simp only [Option.mem_def, Option.some.injEq] at hz
    have := hbeg x hx y (by rw [hy]; rfl)
    rw [← hz]
    push_cast
    exact ⟨by linarith, fun _ => by linarith⟩
  · rw [if_neg hlt] at hal
    obtain ⟨row, r1, r2⟩ := main _ hal
    refine ⟨k, row, r1, r2, ?_⟩
    intro z hz
    rw [hhead] at hz
    simp only [Option.mem_def, Option.some.injEq] at hz
    rw [← hz]
    refine ⟨by linarith, fun hf => ?_⟩
    have hxy : x = y := by
      have := (shifted_sampleFirst f k).mp hf
      unfold BeginsWithSample at this
      rw [hx, hy] at this
      simpa using this
    rw [← hxy]
    linarith

/-! ## Several files -/

/-- Every file begins at or after the end of the one before (helper). -/
def Follow : Rat → List ClockedFile → Prop
  | _, [] => True
  | start, f :: fs => (∀ x ∈ (sampleTimes f.events).head?, start ≤ x + 893 / 100 ∧ (BeginsWithSample f.events → x + 893 / 100 < start + 8192)) ∧ Follow (endTime f.events) fs

/-- The same file, counted from some origin (helper). -/
def SameFile (f g : ClockedFile) : Prop := ∃ k, g = f.shifted k

/-- What is asked of every file of `SoundSessions` (helper). -/
def ClockedFile.Sound (f : ClockedFile) : Prop :=
  SoundFile f.offset f.rate f.events ∧ (0 < f.rate ∧ f.rate ≤ 1) ∧
    ∀ x ∈ ((f.events.filter fun e => !e.isOther).map Event.T).head?, ∀ y ∈ (sampleTimes f.events).head?, x ≤ y + 4096

theorem loop_sound (d : RawDisk) (hfit : Reproduces d.fit) (hfit1 : ReproducesLines d.fit)
    (log : Entry → ClockedFile) : ∀ (entries : List Entry) (acc : Several Entry),
    (∀ e ∈ entries, (log e).Sound) → (∀ e ∈ entries, d.content e = textOf (log e).events) →
    (∀ e ∈ entries, ∃ sn, d.readSN e = .ok sn) →
    ∃ gs rows st, List.Forall₂ SameFile (entries.map log) gs ∧ severalLoop d.env.ops true "0.9" entries acc = .ok
        ⟨acc.metadata ++ gs.flatMap (fun g => g.used.metadata), acc.gps ++ gs.flatMap (fun g => g.used.gps),
          acc.data ++ gs.flatMap (fun g => g.used.data), acc.header ++ rows, acc.problems, st⟩ ∧
      List.Forall₂ ClockedFile.Row gs rows ∧ Follow acc.startMillis gs := by
  intro entries
  induction entries with
  | nil => intro acc _ _ _; exact ⟨[], [], acc.startMillis, .nil, by simp [severalLoop], .nil, trivial⟩
  | cons e entries ih =>
    intro acc hs ht hsn
    obtain ⟨hc, ⟨hb, hb1⟩, hbeg⟩ := hs e (by simp)
    obtain ⟨k, row, h1, h2, h3⟩ := readOne_soundFile d e acc.startMillis hb hb1 hfit hfit1 hc hbeg (ht e (by simp)) (hsn e (by simp))
    rw [severalLoop, severalStep, h1]
    simp only
    have hlast : lastTime acc.startMillis (acc.data ++ ((log e).shifted k).used.data) = endTime ((log e).shifted k).events :=
      usedData_lastTime (shifted_sound hc k) _ _
    rw [hlast]
    obtain ⟨gs, rows, st, i0, i1, i2, i3⟩ := ih ⟨acc.metadata ++ ((log e).shifted k).used.metadata, acc.gps ++ ((log e).shifted k).used.gps,
      acc.data ++ ((log e).shifted k).used.data, acc.header ++ [row], acc.problems, endTime ((log e).shifted k).events⟩
      (fun x hx => hs x (by simp [hx])) (fun x hx => ht x (by simp [hx])) (fun x hx => hsn x (by simp [hx]))
    refine ⟨(log e).shifted k :: gs, row :: rows, st, .cons ⟨k, rfl⟩ i0, ?_, .cons h2 i2, h3, i3⟩
    rw [i1]
    simp [List.append_assoc]

theorem same_collision {f f' g g' : ClockedFile} (hf : SameFile f f') (hg : SameFile g g') (h : NoCollision f g) : NoCollision f' g' := by
  obtain ⟨i, rfl⟩ := hf
  obtain ⟨j, rfl⟩ := hg
  intro x hx y hy ⟨k, hk⟩
  rw [show (f.shifted i).events = f.events.map (Event.shift i) from rfl, shift_sampleTimes, List.getLast?_map] at hx
  rw [show (g.shifted j).events = g.events.map (Event.shift j) from rfl, shift_sampleTimes, List.head?_map] at hy
  simp only [Option.mem_def, Option.map_eq_some_iff] at hx hy
  obtain ⟨x', hx', rfl⟩ := hx
  obtain ⟨y', hy', rfl⟩ := hy
  have := h x' hx' y' hy' ⟨k + i - j, by push_cast; linarith⟩
  rw [show x' + 8192 * (i : Rat) + 893 / 100 = (x' + 893 / 100) + 8192 * i by ring,
    show y' + 8192 * (j : Rat) + 893 / 100 = (y' + 893 / 100) + 8192 * j by ring, shifted_utc, shifted_utc]
  exact this

theorem forall₂_isChain {α : Type} {R : α → α → Prop} {S : α → α → Prop} (hS : ∀ a a' b b', S a a' → S b b' → R a b → R a' b') :
    ∀ {l m : List α}, List.Forall₂ S l m → l.IsChain R → m.IsChain R := by
  intro l m h
  induction h with
  | nil => intro _; exact .nil
  | @cons a a' l m h0 hrest ih =>
    intro hc
    cases hrest with
    | nil => exact .singleton _
    | @cons b b' l m h1 h2 =>
      rw [List.isChain_cons_cons] at hc ⊢
      exact ⟨hS _ _ _ _ h0 h1 hc.1, ih hc.2⟩

theorem sound_order {f : ClockedFile} (h : SoundFile f.offset f.rate f.events) {x y : Rat} (hx : (sampleTimes f.events).head? = some x)
    (hy : y ∈ sampleTimes f.events) : x ≤ y ∧ y + 893 / 100 ≤ endTime f.events := by
  obtain ⟨h1, h2⟩ := steady_bounds _ h.steady y hy
  rw [List.headD_eq_head?_getD, hx] at h1
  unfold endTime
  exact ⟨h1, by linarith⟩

theorem segments_after (x t : Rat) : ∀ {gs : List ClockedFile} {rows : List HeaderRow}, List.Forall₂ ClockedFile.Row gs rows →
    ∀ c : ClockedFile, (∀ g ∈ c :: gs, SoundFile g.offset g.rate g.events) → (c :: gs).IsChain NoCollision → Follow (endTime c.events) gs →
      x ≤ endTime c.events → (x = endTime c.events → c.utc x = t) → rows.foldl (segmentStep x) (some t) = some t := by
  intro gs rows h
  induction h with
  | nil => intro c _ _ _ _ _; rfl
  | @cons g row gs rows hrow _ ih =>
    intro c hs hc hf hx hxt
    obtain ⟨f1, f2⟩ := hf
    rw [List.isChain_cons_cons] at hc
    obtain ⟨r1, r2, r3⟩ := hrow
    obtain ⟨y, ys, hy⟩ := List.exists_cons_of_ne_nil (hs g (by simp)).samples
    have hy0 : (sampleTimes g.events).head? = some y := by rw [hy]; rfl
    have hstart : row.info.startMs = y + 893 / 100 := by rw [r2, hy]; rfl
    have hle := (f1 y hy0).1
    have hend := (sound_order (hs g (by simp)) hy0 (y := y) (by rw [hy]; simp)).2
    -- equal counts mean equal times
    have heq : x = y + 893 / 100 → g.utc x = t := by
      intro hxy
      have hce : x = endTime c.events := le_antisymm hx (by rw [hxy]; exact hle)
      obtain ⟨z, hz⟩ : ∃ z, (sampleTimes c.events).getLast? = some z :=
        ⟨_, List.getLast?_eq_some_getLast (hs c (by simp)).samples⟩
      have hze : endTime c.events = z + 893 / 100 := by
        unfold endTime; rw [List.getLastD_eq_getLast?, hz]; rfl
      have := hc.1 z hz y hy0 ⟨0, by push_cast; linarith⟩
      rw [← hxt hce, hxy, ← this]
      congr 1
      linarith
    have hstep : segmentStep x (some t) row = some t := by
      unfold segmentStep
      split
      · rename_i hin
        have hxy : x = y + 893 / 100 := by rw [hstart] at hin; linarith [hin.1]
        have := heq hxy
        have h' := r1 x
        unfold ClockedFile.utc at this
        rw [this] at h'
        rw [← h']
        rfl
      · rfl
    rw [List.foldl_cons, hstep]
    refine ih g (fun a ha => hs a (List.mem_cons_of_mem _ ha)) hc.2 f2 (by linarith) ?_
    intro hxe
    exact heq (by linarith)

theorem segments_sound : ∀ {gs : List ClockedFile} {rows : List HeaderRow}, List.Forall₂ ClockedFile.Row gs rows → ∀ (start : Rat) (v : Option Rat),
    (∀ g ∈ gs, SoundFile g.offset g.rate g.events) → gs.IsChain NoCollision → Follow start gs →
    ∀ g ∈ gs, ∀ x ∈ sampleTimes g.events, rows.foldl (segmentStep (x + 893 / 100)) v = some (g.utc (x + 893 / 100)) := by
  intro gs rows h
  induction h with
  | nil => intro _ _ _ _ _ g hg; simp at hg
  | @cons g0 row gs rows hrow hrest ih =>
    intro start v hs hc hf g hg x hx
    rw [List.foldl_cons]
    by_cases hgg : g ∈ gs
    · exact ih (endTime g0.events) _ (fun a ha => hs a (List.mem_cons_of_mem _ ha)) hc.tail hf.2 g hgg x hx
    · have hg0 : g = g0 := by
        rcases List.mem_cons.mp hg with h | h
        · exact h
        · exact absurd h hgg
      subst hg0
      obtain ⟨r1, r2, r3⟩ := hrow
      obtain ⟨y, ys, hy⟩ := List.exists_cons_of_ne_nil (hs g (by simp)).samples
      obtain ⟨o1, o2⟩ := sound_order (hs g (by simp)) (x := y) (by rw [hy]; rfl) hx
      have hstep : segmentStep (x + 893 / 100) v row = some (g.utc (x + 893 / 100)) := by
        unfold segmentStep
        rw [if_pos ⟨by rw [r2, hy, List.headD_cons]; linarith, by rw [r3]; exact o2⟩, ← show timeOf row.info (x + 893 / 100) = g.utc (x + 893 / 100) from r1 _]
        rfl
      rw [hstep]
      exact segments_after _ _ hrest g hs hc hf.2 o2 (fun _ => rfl)

theorem record_used (g : ClockedFile) (header : List HeaderRow)
    (hseg : ∀ x ∈ sampleTimes g.events, applySegments header (x + 893 / 100) = some (g.utc (x + 893 / 100))) :
    recordOf (timedData g.used.data header) = g.record.map fun p => (p.1, some (p.2 : Rat)) :=
  recordOf_file g.offset g.rate g.events header hseg

theorem follow_order : ∀ {start : Rat} {gs : List ClockedFile}, (∀ g ∈ gs, SoundFile g.offset g.rate g.events) → Follow start gs →
    ∀ x ∈ gs.flatMap (fun g => sampleTimes g.events), start ≤ x + 893 / 100
  | _, [], _, _ => by simp
  | start, g :: gs, hs, hf => by
    intro x hx
    obtain ⟨y, ys, hy⟩ := List.exists_cons_of_ne_nil (hs g (by simp)).samples
    have h1 := (hf.1 y (by rw [hy]; rfl)).1
    rw [List.flatMap_cons] at hx
    rcases List.mem_append.mp hx with hx | hx
    · have := (sound_order (hs g (by simp)) (x := y) (by rw [hy]; rfl) hx).1
      linarith
    · have h2 := follow_order (fun a ha => hs a (List.mem_cons_of_mem _ ha)) hf.2 x hx
      have h3 := (sound_order (hs g (by simp)) (x := y) (by rw [hy]; rfl) (y := y) (by rw [hy]; simp)).2
      linarith

/-! ## The first fixes -/

theorem goodFixes_two {now : Rat} {f g : Fix} {l : List Fix} (hf : badTag now f.t g.t f = false)
    (hg : ∀ n, badTag now f.t n g = false) : ∃ l', goodFixes now (f :: g :: l) = f :: g :: l' := by
  unfold goodFixes
  simp only [List.map_cons, List.take_succ_cons, List.take_zero, List.tail_cons]
  cases l with
  | nil => simp [hf, hg]
  | cons h l => simp [hf, hg]

end Gemlog
