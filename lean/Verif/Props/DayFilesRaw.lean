import Verif.Props.DayFiles
import Verif.Props.Again
import Verif.Lemmas.Union

/-!
# C107, from the raw files
-/

namespace Gemlog

/-- The raw files of one logger and how they are converted: the disk and folder with the files, the serial number, what was recorded in each file, the arguments of `convert` (file numbers, days
per block, length of the output files in seconds, last time), and the spans of time of the blocks. -/
structure LoggerFiles where
  d : RawDisk
  dir : List Entry
  SN : List Nat
  log : Entry → List Event
  nums : List (Option Int)
  blockdays : Rat
  m : Int
  t2 : Int
  r0 : BlockSpan
  rs : List BlockSpan

/-- The files are recorded without defects and without gaps, between 1970 and 9999, and the output files are to have a length that divides a day. -/
structure LoggerFiles.Unbroken (x : LoggerFiles) : Prop where
  serial : ∃ n specs, pyInt x.SN = some n ∧ gemSpecs n = .ok specs
  snChars : 46 ∉ x.SN ∧ 47 ∉ x.SN
  fit : Reproduces x.d.fit ∧ ReproducesLines x.d.fit
  block : 0 < x.blockdays
  length : 0 < x.m ∧ x.m ∣ 86400
  clean : ∃ ns, convertNums true x.dir x.SN x.nums = .ok ns ∧
    List.Forall₂ (fun block r => ∃ first rest, CleanBlock x.d x.dir x.SN x.log block r first rest)
      (jobOf x.d.env x.dir x.SN ns x.blockdays (1000000 * x.m) x.t2).blocks (x.r0 :: x.rs)
  order : (x.r0 :: x.rs).IsChain fun a b => a.stop < b.start
  close : (x.r0 :: x.rs).IsChain fun a b => b.start - a.stop ≤ 1 / 100
  positive : 1 ≤ x.r0.start
  long : 103 / 100 ≤ x.r0.stop - x.r0.start
  far : ∀ r ∈ x.r0 :: x.rs, 1000000 * r.stop + 1000000 * x.m + ⌈86400000000 * x.blockdays⌉ + 1000000 ≤ x.t2
  years : ∀ r ∈ x.r0 :: x.rs, r.stop ≤ 253402300799

/-- `convert` ends normally and has written these traces, one to each file. -/
def LoggerFiles.Writes (x : LoggerFiles) (w : List Trace) : Prop :=
  ∃ s, Settles (convertDir x.d.env true x.dir x.SN x.nums x.blockdays (1000000 * x.m) none x.t2) (.done s) ∧ s.w.out = w

/-! ## Consecutive samples -/

theorem consecutive_stamps : ∀ {s : List (Int × Int)} {f : Int}, (s.IsChain fun a b => b.1 = a.1 + 1) → s.head?.map Prod.fst = some f →
    s = stamps f (s.map Prod.snd)
  | [], _, _, h => by simp at h
  | [a], f, _, h => by
    simp only [List.head?_cons, Option.map_some, Option.some.injEq] at h
    simp [stamps, ← h]
  | a :: b :: s, f, hc, h => by
    rw [List.isChain_cons_cons] at hc
    simp only [List.head?_cons, Option.map_some, Option.some.injEq] at h
    have ih := consecutive_stamps (s := b :: s) (f := f + 1) hc.2 (by simp [hc.1, h])
    rw [List.map_cons, stamps, ← ih, ← h]

theorem last_consecutive {s : List (Int × Int)} {f : Int} {l : List Int} {q : Int × Int} (h : s = stamps f l) (hq : s.getLast? = some q) : q.1 = f + l.length - 1 := by
  rcases List.eq_nil_or_concat l with rfl | ⟨l, x, rfl⟩
  · rw [h] at hq
    simp [stamps] at hq
  · rw [h, List.concat_eq_append, stamps_append, stamps, stamps, List.getLast?_concat] at hq
    injection hq with hq
    rw [← hq]
    simp only [List.concat_eq_append, List.length_append, List.length_singleton]
    push_cast
    omega

theorem stamps_between (a b : Int) : ∀ (l : List Int) (f : Int),
    (stamps f l).filter (fun q => a ≤ q.1 ∧ q.1 < b) = stamps (max f a) ((l.drop (a - f).toNat).take (b - max f a).toNat)
  | [], f => by simp [stamps]
  | x :: l, f => by
    rw [stamps, List.filter_cons]
    have ih := stamps_between a b l (f + 1)
    by_cases h1 : a ≤ f
    · have e0 : (a - f).toNat = 0 := by omega
      have e0' : (a - (f + 1)).toNat = 0 := by omega
      have m1 : max f a = f := by omega
      have m2 : max (f + 1) a = f + 1 := by omega
      rw [e0', m2, List.drop_zero] at ih
      rw [e0, m1, List.drop_zero]
      by_cases h2 : f < b
      · have e : (b - f).toNat = (b - (f + 1)).toNat + 1 := by omega
        rw [if_pos (by simp [h1, h2]), ih, e, List.take_succ_cons, stamps]
      · have e : (b - f).toNat = 0 := by omega
        have e' : (b - (f + 1)).toNat = 0 := by omega
        rw [if_neg (by simp; omega), ih, e, e', List.take_zero, List.take_zero]
        simp [stamps]
    · have e : (a - f).toNat = (a - (f + 1)).toNat + 1 := by omega
      have m1 : max f a = a := by omega
      have m2 : max (f + 1) a = a := by omega
      rw [if_neg (by simp; omega), ih, e, List.drop_succ_cons, m1, m2]

theorem stamps_inj {f g : Int} {l l' : List Int} (hne : l ≠ []) (h : stamps f l = stamps g l') : f = g ∧ l = l' := by
  cases l with
  | nil => exact absurd rfl hne
  | cons x l =>
    cases l' with
    | nil => simp [stamps] at h
    | cons y l' =>
      have hf : f = g := by
        simp only [stamps, List.cons.injEq, Prod.mk.injEq] at h
        exact h.1.1
      subst hf
      have := congrArg (List.map Prod.snd) h
      have e : ∀ (l : List Int) (f : Int), (stamps f l).map Prod.snd = l := by
        intro l
        induction l with
        | nil => intro f; rfl
        | cons a l ih => intro f; rw [stamps, List.map_cons, ih]
      rw [e, e] at this
      exact ⟨rfl, this⟩

/-- The part of one day of consecutive samples. -/
theorem stamps_day {f : Int} {l : List Int} {t : Trace} {p : Int × Int} (hp : p ∈ stamps f l)
    (h : stamps t.start t.data = holdIn ((stamps f l).filter fun q => q.1 / 8640000 = p.1 / 8640000)) :
    stamps t.start t.data = ((stamps f l).filter fun q => q.1 / 8640000 = p.1 / 8640000) ∧
    t.start = max f (8640000 * (p.1 / 8640000)) ∧
      t.start + t.data.length = min (f + l.length) (8640000 * (p.1 / 8640000 + 1)) := by
  have hr := mem_stamps_range hp
  have e : ((stamps f l).filter fun q => q.1 / 8640000 = p.1 / 8640000) =
      (stamps f l).filter fun q => 8640000 * (p.1 / 8640000) ≤ q.1 ∧ q.1 < 8640000 * (p.1 / 8640000 + 1) := by
    apply List.filter_congr
    intro q _
    simp only [decide_eq_decide]
    omega
  rw [e, stamps_between, holdIn_stamps] at h
  rw [e, stamps_between]
  refine ⟨h, ?_⟩
  have hlen : (((l.drop (8640000 * (p.1 / 8640000) - f).toNat).take (8640000 * (p.1 / 8640000 + 1) - max f (8640000 * (p.1 / 8640000))).toNat).length : Int) =
      min (f + l.length) (8640000 * (p.1 / 8640000 + 1)) - max f (8640000 * (p.1 / 8640000)) := by
    rw [List.length_take, List.length_drop]
    omega
  have hpos : 0 < min (f + (l.length : Int)) (8640000 * (p.1 / 8640000 + 1)) - max f (8640000 * (p.1 / 8640000)) := by omega
  obtain ⟨h1, h2⟩ := stamps_inj (by intro hn; rw [hn] at hlen; simp only [List.length_nil] at hlen; omega) h.symm
  refine ⟨h1.symm, ?_⟩
  rw [← h1, ← h2, hlen]
  omega

/-- Times between 1970 and the end of 9999 have a date. -/
theorem datable_range {k : Int} (h1 : 0 ≤ k) (h2 : k < 25340230080000) : Datable k := by
  obtain ⟨_, _, d1, _, e, y1⟩ := dateOfDay_spec (k / 100 / 86400)
  refine ⟨by omega, ?_⟩
  by_contra hy
  have hm : 0 ≤ daysBeforeMonth (dateOfDay (k / 100 / 86400)).year (dateOfDay (k / 100 / 86400)).month := by
    have key : ∀ y m : Int, 0 ≤ daysBeforeMonth y m := by
      intro y m
      have ite_nonneg : ∀ (p : Prop) [Decidable p] (a b : Int), 0 ≤ a → 0 ≤ b → 0 ≤ if p then a else b := by
        intro p _ a b ha hb
        split
        · exact ha
        · exact hb
      unfold daysBeforeMonth
      refine add_nonneg ?_ (ite_nonneg _ _ _ (by decide) (by decide))
      repeat refine ite_nonneg _ _ _ (by decide) ?_
      decide
    exact key _ _
  unfold dayNumber daysBeforeYear at e
  omega

/-! ## One logger -/

theorem LoggerFiles.Unbroken.record {x : LoggerFiles} (h : x.Unbroken) : ∃ w, x.Writes w ∧ InOrder w ∧
    w.Pairwise (fun a b => a.start / 100 ≠ b.start / 100) ∧ (∀ tr ∈ w, Datable tr.start) ∧
    (∀ tr ∈ w, ∀ q ∈ stamps tr.start tr.data, q.1 / 8640000 = tr.startDay) ∧
    ∃ f l, l ≠ [] ∧ samples w = stamps f l ∧ f % 100 = 0 ∧ x.r0.start - 5 / 1000 ≤ (f : Rat) / 100 ∧ (f : Rat) / 100 < x.r0.start + 1 + 5 / 1000 ∧
      ∃ r, (x.r0 :: x.rs).getLast? = some r ∧ r.stop - 25 / 1000 < ((f + l.length - 1 : Int) : Rat) / 100 ∧
        ((f + l.length - 1 : Int) : Rat) / 100 ≤ r.stop - 5 / 1000 := by
  obtain ⟨⟨n, specs, hn, hspecs⟩, _, ⟨hfit, hfit1⟩, hb, ⟨hm, hday⟩, ⟨ns, hns, hblocks⟩, horder, hclose, hpos, hlong, hfar, hyears⟩ := h
  have eL : 1000000 * x.m = 10000 * (100 * x.m) := by ring
  have hfar' : ∀ r ∈ x.r0 :: x.rs, 1000000 * r.stop + 10000 * ((100 * x.m : Int) : Rat) + ⌈86400000000 * x.blockdays⌉ + 1000000 ≤ x.t2 := by
    intro r hr
    have := hfar r hr
    push_cast
    linarith
  rw [eL] at hblocks
  obtain ⟨tr0, trs, s, k, hall, hs, _, k1, k2, k3, _, hc⟩ := C66_convert x.d x.dir x.SN x.log x.nums ns hns n hn specs hspecs hfit hfit1 x.blockdays (100 * x.m) x.t2 hb
    (by omega) x.r0 x.rs hblocks horder hpos hlong hfar'
  obtain ⟨c1, c2, q, r, c3, c4, c5, c6⟩ := hc hclose
  have ho : Ordinary (jobOf x.d.env x.dir x.SN ns x.blockdays (10000 * (100 * x.m)) x.t2) := by
    refine spans_ordinary x.d.env x.dir x.SN ns x.blockdays (100 * x.m) x.t2 hb (by omega) _ x.r0 x.rs ?_
      (clean_yields x.d x.dir x.SN x.log n hn specs hspecs hfit hfit1 hblocks) ?_ horder hpos hlong hfar'
    · rw [← List.flatMap_def]
      simp
    · intro r hr
      obtain ⟨b, _, _, _, h⟩ := forall₂_right hblocks r hr
      exact h.long
  obtain ⟨o1, o2, o3⟩ := ordinary_segments ho (by rw [← convertDir_loops hns]; exact hs)
  have hgap : NoShortGap (samples s.w.out) := List.IsChain.imp (fun a b hab => .inl hab) c1
  have hcs := starts_increase (L := 10000 * (100 * x.m)) (m := x.m) (by omega) o1 o2 hgap
  have hin := noShortGap_increasing hgap
  have e := consecutive_stamps c1 c2
  have hg0 : TraceOver x.r0 tr0 := by
    cases hall with
    | cons g _ => exact g
  have g := hg0.start
  unfold Trace.time at g
  rw [abs_le] at g
  have hk : k = 10000 * (k / 10000) := by omega
  have hkq : (k : Rat) = 10000 * ((k / 10000 : Int) : Rat) := by exact_mod_cast hk
  have k2q : (10000 : Rat) * tr0.start ≤ k := by exact_mod_cast k2
  have k3q : (k : Rat) < 10000 * tr0.start + 1000000 := by exact_mod_cast k3
  have g1 := g.1
  have g2 := g.2
  push_cast at g1 g2
  have hq : q.1 = k / 10000 + ((samples s.w.out).map Prod.snd).length - 1 := last_consecutive e c3
  have hlo : ∀ p ∈ samples s.w.out, 0 ≤ p.1 ∧ p.1 < 25340230080000 := by
    intro p hp
    have hp' := hp
    rw [e] at hp'
    have hr := mem_stamps_range hp'
    have hle : p.1 ≤ q.1 := by omega
    have hrm : r ∈ x.r0 :: x.rs := List.mem_of_getLast? c4
    have := hyears r hrm
    have hkpos : (0 : Rat) ≤ ((k / 10000 : Int) : Rat) := by linarith
    have hkpos' : 0 ≤ k / 10000 := by exact_mod_cast hkpos
    have hq2 : (q.1 : Rat) < 25340230080000 := by
      have : (q.1 : Rat) / 100 < 253402300800 := by linarith
      linarith
    have hq3 : q.1 < 25340230080000 := by exact_mod_cast hq2
    omega
  refine ⟨s.w.out, ⟨s, by rw [eL]; exact hs, rfl⟩, ⟨o1, hin⟩, ?_, ?_, ?_, k / 10000, (samples s.w.out).map Prod.snd, ?_, e, by omega, by linarith, by linarith, r, c4, ?_, ?_⟩
  · have : Trans (fun a b : Trace => a.start / 100 < b.start / 100) (fun a b : Trace => a.start / 100 < b.start / 100)
        (fun a b : Trace => a.start / 100 < b.start / 100) := ⟨fun h1 h2 => lt_trans h1 h2⟩
    exact (List.isChain_iff_pairwise.mp hcs).imp fun h => by omega
  · intro tr htr
    obtain ⟨v, lv, hv⟩ := List.exists_cons_of_ne_nil (o1 tr htr)
    have := hlo (tr.start, v) (List.mem_flatMap.mpr ⟨tr, htr, by rw [hv, stamps]; simp⟩)
    exact datable_range this.1 this.2
  · intro tr htr
    refine window_day hm hday (o1 tr htr) ?_
    rw [eL]
    exact o3 tr htr
  · intro hn
    rw [List.map_eq_nil_iff] at hn
    rw [hn] at c3
    simp at c3
  · rw [← hq]; exact c5
  · rw [← hq]; exact c6

/-- **C107, from the raw files.** Several loggers have recorded without defects and without gaps. Each one is converted with a length of the output files that divides a day: all conversions
end normally. The files are renamed into an empty folder and merged. Then for every logger of the table and every day with a sample of it, the file of this day and channel holds one sample for
every 10 ms of this day, or, on the first and last day, of the part of it in the record: from the first whole second after the start of the record to within 25 ms of its end; all with the values which
the conversion wrote. And there are no other files. -/
theorem C107_raw (xs : List LoggerFiles) (hx : ∀ x ∈ xs, x.Unbroken) (hserials : (xs.map LoggerFiles.SN).Nodup)
    (table : List StationRow) (fmt : List Nat)
    (codeChars : ∀ r ∈ table, (46 ∉ r.network ∧ 46 ∉ r.station ∧ 46 ∉ r.location) ∧ 44 ∉ r.network ∧ 44 ∉ r.station ∧ 44 ∉ r.location)
    (fmtChars : 46 ∉ fmt ∧ 44 ∉ fmt)
    (codes : ∀ r ∈ table, ∀ s ∈ table, r.network = s.network → r.station = s.station → r.location = s.location → r.sn = s.sn)
    (networks : ∀ r ∈ table, ∀ s ∈ table, r.station = s.station → r.location = s.location → r.network <:+ s.network → r.network = s.network)
    (dir pre fmt0 outdir : List Nat) (hfmt : 47 ∉ fmt0) :
    (∀ x ∈ xs, ∃ w, x.Writes w) ∧
    ∀ (out : LoggerFiles → List Trace), (∀ x ∈ xs, x.Writes (out x)) → ∀ files : List InFile, files ≠ [] →
      files.Perm (xs.flatMap fun x => Converted.files pre fmt0 ⟨x.SN, out x⟩) →
      ∃ ws, renameFiles table dir fmt defaultPattern files = (ws, true) ∧ (ws.map Prod.fst).Nodup ∧
        ∀ fs, fs.Perm (ws.map (foundFile dir)) →
          ∃ days, mergeFilesDay fs fs outdir = (days, true) ∧ (days.map Prod.fst).Nodup ∧
            (∀ x ∈ xs, ∀ row, (table.find? fun r => r.sn = x.SN) = some row →
              ∃ first last : Int, first % 100 = 0 ∧ x.r0.start - 5 / 1000 ≤ (first : Rat) / 100 ∧ (first : Rat) / 100 < x.r0.start + 1 + 5 / 1000 ∧
                (∃ r, (x.r0 :: x.rs).getLast? = some r ∧ r.stop - 25 / 1000 < (last : Rat) / 100 ∧ (last : Rat) / 100 ≤ r.stop - 5 / 1000) ∧
                ∀ day, first / 8640000 ≤ day → day ≤ last / 8640000 →
                  ∃ t, (dayFileName outdir row fmt day, [(row.channelId, t)]) ∈ days ∧
                    t.start = max first (8640000 * day) ∧ t.start + t.data.length = min (last + 1) (8640000 * (day + 1)) ∧
                    ∀ q ∈ stamps t.start t.data, q ∈ samples (out x)) ∧
            ∀ w ∈ days, ∃ x ∈ xs, ∃ row, (table.find? fun r => r.sn = x.SN) = some row ∧ ∃ p ∈ samples (out x),
              w.1 = dayFileName outdir row fmt (p.1 / 8640000) := by
  have hrec := fun x hx' => (hx x hx').record
  refine ⟨fun x hx' => ⟨_, (hrec x hx').choose_spec.1⟩, ?_⟩
  intro out hout files hne hperm
  have hout' : ∀ x ∈ xs, InOrder (out x) ∧ (out x).Pairwise (fun a b => a.start / 100 ≠ b.start / 100) ∧ (∀ tr ∈ out x, Datable tr.start) ∧
      (∀ tr ∈ out x, ∀ q ∈ stamps tr.start tr.data, q.1 / 8640000 = tr.startDay) ∧
      ∃ f l, l ≠ [] ∧ samples (out x) = stamps f l ∧ f % 100 = 0 ∧ x.r0.start - 5 / 1000 ≤ (f : Rat) / 100 ∧ (f : Rat) / 100 < x.r0.start + 1 + 5 / 1000 ∧
        ∃ r, (x.r0 :: x.rs).getLast? = some r ∧ r.stop - 25 / 1000 < ((f + l.length - 1 : Int) : Rat) / 100 ∧
          ((f + l.length - 1 : Int) : Rat) / 100 ≤ r.stop - 5 / 1000 := by
    intro x hx'
    obtain ⟨w, ⟨s, s1, s2⟩, h⟩ := hrec x hx'
    obtain ⟨s', s1', s2'⟩ := hout x hx'
    have := settles_unique s1 s1'
    injection this with this
    have e : out x = w := by rw [← s2', ← this, s2]
    rw [e]
    exact h
  have hset : DaySetup (xs.map fun x => ⟨x.SN, out x⟩) table fmt := by
    refine ⟨?_, ?_, ?_, ?_, ?_, codeChars, fmtChars, codes, networks⟩
    · rw [List.map_map]; exact hserials
    all_goals
      intro c hc
      obtain ⟨x, hx', rfl⟩ := List.mem_map.mp hc
    · exact (hx x hx').snChars
    · exact (hout' x hx').1
    · exact (hout' x hx').2.1
    · exact (hout' x hx').2.2.1
  obtain ⟨ws, h1, h2, h3⟩ := C107_day_files hset dir pre fmt0 outdir hfmt files hne (by rw [List.flatMap_map]; exact hperm)
  refine ⟨ws, h1, h2, fun fs hfs => ?_⟩
  obtain ⟨days, o1, o2, o3, o4⟩ := h3 fs hfs
  refine ⟨days, o1, o2, ?_, ?_⟩
  · intro x hx' row hrow
    obtain ⟨_, _, _, hd, f, l, hl0, hs, f1, f2, f3, r, r1, r2, r3⟩ := hout' x hx'
    refine ⟨f, f + l.length - 1, f1, f2, f3, ⟨r, r1, r2, r3⟩, ?_⟩
    intro day hd1 hd2
    obtain ⟨p, hp, hpd⟩ : ∃ p ∈ stamps f l, p.1 / 8640000 = day := by
      have hk1 : f ≤ max f (8640000 * day) := le_max_left _ _
      have hl1 : 0 < l.length := List.length_pos_iff.mpr hl0
      have hlt : (max f (8640000 * day) - f).toNat < l.length := by omega
      refine ⟨(max f (8640000 * day), l[(max f (8640000 * day) - f).toNat]), ?_, by omega⟩
      rw [mem_stamps_iff]
      exact ⟨hk1, List.getElem?_eq_getElem hlt⟩
    have hp' := hp
    rw [← hs] at hp'
    unfold samples at hp'
    obtain ⟨tr, htr, hp'⟩ := List.mem_flatMap.mp hp'
    have hd' := hd tr htr p hp'
    obtain ⟨t, t1, t2⟩ := o3 ⟨x.SN, out x⟩ (List.mem_map.mpr ⟨x, hx', rfl⟩) row hrow tr htr
    rw [samples_filter_day _ _ hd, hs, ← hd'] at t2
    obtain ⟨g0, g1, g2⟩ := stamps_day hp t2
    rw [hpd] at g0 g1 g2 hd'
    refine ⟨t, by rw [hd']; exact t1, g1, by rw [g2]; congr 1; omega, ?_⟩
    intro q hq
    rw [g0] at hq
    rw [hs]
    exact (List.mem_filter.mp hq).1
  · intro w hw
    obtain ⟨c, hc, row, hrow, tr, htr, e⟩ := o4 w hw
    obtain ⟨x, hx', rfl⟩ := List.mem_map.mp hc
    obtain ⟨v, lv, hv⟩ := List.exists_cons_of_ne_nil ((hout' x hx').1.1 tr htr)
    exact ⟨x, hx', row, hrow, (tr.start, v), List.mem_flatMap.mpr ⟨tr, htr, by rw [hv, stamps]; simp⟩, e⟩

/-- The two files of the example of `C66_convert`, converted with a file length of an hour. -/
noncomputable def longLogger : LoggerFiles := ⟨longDisk, longDir, bytes "012", longOf, [none], 1, 3600, 253402300799000000, longSpan 0, [longSpan 2]⟩

theorem longLogger_unbroken : longLogger.Unbroken where
  serial := ⟨12, specsOf (7 / 10), by decide +kernel, by decide +kernel⟩
  snChars := by decide +kernel
  fit := ⟨idealFit_reproduces, idealFit_line⟩
  block := by decide
  length := by decide
  clean := by
    refine ⟨[1, 13], by decide +kernel, ?_⟩
    have : (jobOf longLogger.d.env longLogger.dir longLogger.SN [1, 13] longLogger.blockdays (1000000 * longLogger.m) longLogger.t2).blocks = [[1], [13]] := by decide +kernel
    rw [this]
    exact .cons ⟨_, _, long_block 0 (.inl rfl) 1 _ (.inl ⟨rfl, rfl, rfl⟩)⟩ (.cons ⟨_, _, long_block 2 (.inr rfl) 13 _ (.inr ⟨rfl, rfl, rfl⟩)⟩ .nil)
  order := by unfold longLogger longSpan; simp only [List.isChain_cons_cons, List.isChain_singleton]; norm_num
  close := by unfold longLogger longSpan; simp only [List.isChain_cons_cons, List.isChain_singleton]; norm_num
  positive := by unfold longLogger longSpan; norm_num
  long := by unfold longLogger longSpan; norm_num
  far := by
    intro r hr
    unfold longLogger at hr
    simp only [List.mem_cons, List.not_mem_nil, or_false] at hr
    rcases hr with rfl | rfl <;> unfold longLogger longSpan <;> norm_num
  years := by
    intro r hr
    unfold longLogger at hr
    simp only [List.mem_cons, List.not_mem_nil, or_false] at hr
    rcases hr with rfl | rfl <;> unfold longSpan <;> norm_num

/-- The hypotheses of `C107_raw` hold for this logger and the table of the example above. -/
example (outdir : List Nat) := C107_raw [longLogger] (by simpa using longLogger_unbroken) (by simp) dayTable (bytes "mseed") (by decide +kernel) (by decide +kernel)
    (by decide +kernel) (by decide +kernel) (bytes "renamed") (bytes "mseed") (bytes "mseed") outdir (by decide +kernel)

end Gemlog
