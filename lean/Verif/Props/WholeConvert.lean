import Verif.Props.Whole
import Verif.Props.Convert

/-!
# C66: converting a directory of recordings without defects
-/

namespace Gemlog

/-- What a block of files recorded: offset and rate of the logger's clock, start and end (UTC, in seconds), and the spline through the
points. -/
structure BlockSpan where
  offset : Rat
  rate : Rat
  start : Rat
  stop : Rat
  curve : Rat → Rat

/-- The files of a block hold the texts of a recording without defects and without gaps over 25 ms. -/
structure CleanBlock (d : RawDisk) (dir : List Entry) (SN : List Nat) (log : Entry → List Event) (block : List Int) (r : BlockSpan)
    (first : Entry) (rest : List Entry) : Prop where
  files : findFiles dir SN block = first :: rest
  texts : ∀ e ∈ first :: rest, d.content e = textOf (log e)
  clean : CleanRecording r.offset r.rate ((first :: rest).map log)
  version : ∃ v ∈ ["0.85C", "0.9", "0.91", "1.10"], HasVersion v (log first)
  serials : ∀ e ∈ first :: rest, ∃ sn, d.readSN e = .ok sn
  gain : d.adc first = 0 ∨ d.adc first = 1
  first_ : ((trueRecord r.offset r.rate ((first :: rest).map log)).map Prod.fst).head? = some r.start
  last_ : ((trueRecord r.offset r.rate ((first :: rest).map log)).map Prod.fst).getLast? = some r.stop
  long : 1 / 100 ≤ r.stop - r.start
  gapless : ((trueRecord r.offset r.rate ((first :: rest).map log)).map Prod.fst).IsChain fun x y => y - x ≤ 25 / 1000
  spline : d.spline ((trueRecord r.offset r.rate ((first :: rest).map log)).map fun p => (p.1, some (p.2 : Rat))) = some r.curve

/-- The trace of a block: a sample for each full 10 ms of the record, starting within 5 ms of its start, with the rounded values of the
spline. -/
structure TraceOver (r : BlockSpan) (tr : Trace) : Prop where
  start : |tr.time 0 - r.start| ≤ 5 / 1000
  length : (tr.data.length : Int) = ⌊(r.stop - r.start) * 100⌋
  values : NotHalf (r.start * 100) → ∀ k (hk : k < tr.data.length), tr.data[k] = npRound (r.curve (tr.time k))

theorem cleanBlock_trace {d : RawDisk} {dir : List Entry} {SN : List Nat} {log : Entry → List Event} {block : List Int} {r : BlockSpan}
    (h : ∃ first rest, CleanBlock d dir SN log block r first rest) (n : Int) (hn : pyInt SN = some n) (specs : Specs)
    (hspecs : gemSpecs n = .ok specs) (hfit : Reproduces d.fit) (hfit1 : ReproducesLines d.fit) :
    ∃ g tr, readGem d.env dir SN block true = .ok g ∧ g.stream = [tr] ∧ TraceOver r tr ∧ g.problems = [] ∧
      g.gps.map (fun f => (f.msPPS, f.t, f.lat, f.lon)) = ((findFiles dir SN block).flatMap fun e => (log e).filterMap Event.fixPoint).map
        (fun p => (p.1, r.offset + r.rate * p.1, some p.2.1, some p.2.2)) ∧
      g.metadata.map (fun m => (m.1, m.2.1)) = ((findFiles dir SN block).flatMap fun e => (log e).filterMap Event.statusRow).map
        (fun p => (p.1, p.2.map some)) := by
  obtain ⟨first, rest, h⟩ := h
  obtain ⟨v, hv, hver⟩ := h.version
  obtain ⟨g, tr, h1, h2, h3, h4, h5, h6⟩ := C65_gapless d dir SN block log r.offset r.rate first rest h.files h.texts h.clean v hv hver h.serials n hn specs
    hspecs h.gain hfit hfit1 _ rfl r.start r.stop h.first_ h.last_ h.long h.gapless r.curve h.spline
  refine ⟨g, tr, h1, h2, ⟨h3, h4, h5⟩, ?_⟩
  rw [h.files]
  exact h6

/-! ## The traces of all blocks -/

theorem traceOver_bounds {r : BlockSpan} {tr : Trace} (h : TraceOver r tr) {q : Int × Int} (hq : q ∈ stamps tr.start tr.data) :
    r.start - 5 / 1000 ≤ (q.1 : Rat) / 100 ∧ (q.1 : Rat) / 100 ≤ r.stop - 5 / 1000 := by
  obtain ⟨h1, h2, _⟩ := h
  have hr := mem_stamps_range hq
  have h3 := Int.floor_le ((r.stop - r.start) * 100)
  rw [← h2] at h3
  unfold Trace.time at h1
  rw [abs_le] at h1
  have l1 : (tr.start : Rat) ≤ q.1 := by exact_mod_cast hr.1
  have l2 : (q.1 : Rat) + 1 ≤ tr.start + ((tr.data.length : Int) : Rat) := by exact_mod_cast hr.2
  push_cast at l2 h3 h1
  constructor <;> linarith [h1.1, h1.2]

theorem traceOver_ne {r : BlockSpan} {tr : Trace} (h : TraceOver r tr) (hl : 1 / 100 ≤ r.stop - r.start) : tr.data ≠ [] := by
  intro h0
  have := h.length
  rw [h0] at this
  have h1 : (1 : Int) ≤ ⌊(r.stop - r.start) * 100⌋ := Int.le_floor.mpr (by push_cast; linarith)
  simp only [List.length_nil, Nat.cast_zero] at this
  omega

/-- The last sample lies within 25 ms of the end. -/
theorem traceOver_stop {r : BlockSpan} {tr : Trace} (h : TraceOver r tr) (hne : tr.data ≠ []) : r.stop - 25 / 1000 < (tr.stop : Rat) / 100 := by
  obtain ⟨h1, h2, _⟩ := h
  have h3 := Int.lt_floor_add_one ((r.stop - r.start) * 100)
  rw [← h2] at h3
  unfold Trace.time at h1
  rw [abs_le] at h1
  unfold Trace.stop
  rw [if_neg (by simpa using hne)]
  push_cast at h1 h3 ⊢
  linarith [h1.1]

theorem traces_inOrder : ∀ {rs : List BlockSpan} {trs : List Trace}, List.Forall₂ TraceOver rs trs → (∀ r ∈ rs, 1 / 100 ≤ r.stop - r.start) →
    (rs.IsChain fun x y => x.stop < y.start) →
    InOrder trs ∧ ∀ q ∈ samples trs, ∀ r ∈ rs.head?, r.start - 5 / 1000 ≤ (q.1 : Rat) / 100 := by
  intro rs trs h
  induction h with
  | nil => intro _ _; exact ⟨⟨by simp, by simp [samples, Increasing]⟩, by simp [samples]⟩
  | @cons r tr rs trs hr hrs ih =>
    intro hl hc
    obtain ⟨i1, i2⟩ := ih (fun r hr => hl r (by simp [hr])) hc.tail
    have hlr := hl r (by simp)
    have hne := traceOver_ne hr hlr
    have hnext : ∀ q ∈ samples trs, r.stop - 5 / 1000 < (q.1 : Rat) / 100 := by
      intro q hq
      cases hrs with
      | nil => simp [samples] at hq
      | @cons r' tr' rs' trs' hr' _ =>
        have := i2 q hq r' (by simp)
        have := (List.isChain_cons_cons.mp hc).1
        linarith
    refine ⟨?_, ?_⟩
    · rw [show tr :: trs = [tr] ++ trs from rfl]
      refine inOrder_append.mpr ⟨⟨by simpa using hne, by rw [samples_cons, samples_nil, List.append_nil]; exact stamps_increasing _ _⟩, i1, ?_⟩
      intro x hx y hy
      rw [samples_cons, samples_nil, List.append_nil] at hx
      have h1 := (traceOver_bounds hr hx).2
      have h2 := hnext y hy
      have : (x.1 : Rat) < y.1 := by linarith
      exact_mod_cast this
    · intro q hq r' hr'
      simp only [List.head?_cons, Option.mem_def, Option.some.injEq] at hr'
      subst hr'
      rw [samples_cons] at hq
      rcases List.mem_append.mp hq with hq | hq
      · exact (traceOver_bounds hr hq).1
      · have := hnext q hq
        linarith

theorem traces_upper {rs : List BlockSpan} {trs : List Trace} (h : List.Forall₂ TraceOver rs trs) :
    ∀ q ∈ samples trs, ∃ r ∈ rs, (r.start - 5 / 1000 ≤ (q.1 : Rat) / 100) ∧ (q.1 : Rat) / 100 ≤ r.stop - 5 / 1000 := by
  induction h with
  | nil => simp [samples]
  | @cons r tr rs trs hr hrs ih =>
    intro q hq
    rw [samples_cons] at hq
    rcases List.mem_append.mp hq with hq | hq
    · exact ⟨r, by simp, traceOver_bounds hr hq⟩
    · obtain ⟨r', h1, h2⟩ := ih q hq
      exact ⟨r', by simp [h1], h2⟩

/-! ## No gaps -/

theorem stamps_chain (k : Int) (l : List Int) : (stamps k l).IsChain fun a b => b.1 - a.1 ≤ 3 := by
  induction l generalizing k with
  | nil => exact .nil
  | cons x l ih =>
    cases l with
    | nil => exact .singleton _
    | cons y l =>
      rw [stamps, stamps, List.isChain_cons_cons]
      refine ⟨by simp, ?_⟩
      have := ih (k + 1)
      rwa [stamps] at this

theorem traces_close : ∀ {rs : List BlockSpan} {trs : List Trace}, List.Forall₂ TraceOver rs trs → (∀ r ∈ rs, 1 / 100 ≤ r.stop - r.start) →
    (rs.IsChain fun x y => y.start - x.stop ≤ 1 / 100) → (samples trs).IsChain fun a b => b.1 - a.1 ≤ 3 := by
  intro rs trs h
  induction h with
  | nil => intro _ _; exact .nil
  | @cons r tr rs trs hr hrs ih =>
    intro hl hc
    have i1 := ih (fun r hr => hl r (by simp [hr])) hc.tail
    rw [samples_cons, List.isChain_append]
    refine ⟨stamps_chain _ _, i1, ?_⟩
    intro x hx y hy
    cases hrs with
    | nil => simp [samples] at hy
    | @cons r' tr' rs' trs' hr' _ =>
      have hc1 := (List.isChain_cons_cons.mp hc).1
      have hne := traceOver_ne hr (hl r (by simp))
      have hne' := traceOver_ne hr' (hl r' (by simp))
      obtain ⟨v, s, e⟩ := last_stamps hne
      rw [e] at hx
      simp only [List.getLast?_append, List.getLast?_singleton, Option.some_or, Option.mem_def, Option.some.injEq] at hx
      obtain ⟨z, l, hz⟩ := List.exists_cons_of_ne_nil hne'
      rw [samples_cons, hz, stamps] at hy
      simp only [List.cons_append, List.head?_cons, Option.mem_def, Option.some.injEq] at hy
      rw [← hx, ← hy]
      have h1 := traceOver_stop hr hne
      have h2 := hr'.start
      unfold Trace.time at h2
      rw [abs_le] at h2
      have h3 : (tr'.start : Rat) - tr.stop < 4 := by
        have := h2.2
        push_cast at this
        linarith
      have h4 : tr'.start - tr.stop < 4 := by exact_mod_cast h3
      simp only
      omega

/-- Filling gaps of up to two samples leaves none. -/
theorem fillIn_consecutive : ∀ {s : List (Int × Int)}, Increasing s → (s.IsChain fun a b => b.1 - a.1 ≤ 3) →
    (fillIn s).IsChain fun a b => b.1 = a.1 + 1
  | [], _, _ => .nil
  | [_], _, _ => .singleton _
  | a :: b :: l, hi, hc => by
    have h1 := (List.isChain_cons_cons.mp hc)
    have hlt : a.1 < b.1 := (List.pairwise_cons.mp hi).1 b (by simp)
    have ih := fillIn_consecutive (List.pairwise_cons.mp hi).2 h1.2
    obtain ⟨t, ht⟩ := fillIn_cons b l
    rw [fillIn]
    rw [ht] at ih ⊢
    unfold between
    by_cases h2 : b.1 - a.1 = 2
    · rw [if_pos h2]
      simp only [List.cons_append, List.nil_append, List.isChain_cons_cons]
      exact ⟨trivial, by omega, ih⟩
    · rw [if_neg h2]
      by_cases h3 : b.1 - a.1 = 3
      · rw [if_pos h3]
        simp only [List.cons_append, List.nil_append, List.isChain_cons_cons]
        exact ⟨trivial, by omega, by omega, ih⟩
      · rw [if_neg h3]
        simp only [List.nil_append, List.isChain_cons_cons]
        exact ⟨by omega, ih⟩

/-- The part of a consecutive record from a time within it on starts at that time. -/
theorem from_consecutive {h : Int} (hh : h % 10000 = 0) : ∀ {s : List (Int × Int)}, (s.IsChain fun a b => b.1 = a.1 + 1) →
    (∀ q ∈ s.head?, 10000 * q.1 ≤ h) → (∃ q ∈ s, h ≤ 10000 * q.1) → ((from_ h s).head?.map Prod.fst = some (h / 10000))
  | [], _, _, hx => by simp at hx
  | [a], _, h1, hx => by
    have e1 := h1 a (by simp)
    have e2 : h ≤ 10000 * a.1 := by simpa using hx
    rw [from_all (by simpa using e2)]
    simp only [List.head?_cons, Option.map_some, Option.some.injEq]
    omega
  | a :: b :: l, hc, h1, hx => by
    have e1 := h1 a (by simp)
    have hc' := List.isChain_cons_cons.mp hc
    by_cases he : h ≤ 10000 * a.1
    · unfold from_
      rw [List.filter_cons_of_pos (by simpa using he)]
      simp only [List.head?_cons, Option.map_some, Option.some.injEq]
      omega
    · have ih := from_consecutive hh hc'.2 (by
          intro q hq
          simp only [List.head?_cons, Option.mem_def, Option.some.injEq] at hq
          rw [← hq, hc'.1]
          omega) (by
          obtain ⟨q, hq, hq'⟩ := hx
          rcases List.mem_cons.mp hq with rfl | hq
          · exact absurd hq' he
          · exact ⟨q, hq, hq'⟩)
      unfold from_ at ih ⊢
      rw [List.filter_cons_of_neg (by simpa using he)]
      exact ih

theorem from_getLast {h : Int} {s : List (Int × Int)} {q : Int × Int} (hq : s.getLast? = some q) (hh : h ≤ 10000 * q.1) :
    (from_ h s).getLast? = some q := by
  rw [List.getLast?_eq_some_iff] at hq
  obtain ⟨l, rfl⟩ := hq
  rw [from_append, from_all (s := [q]) (by simpa using hh)]
  simp

theorem traces_last {rs : List BlockSpan} {trs : List Trace} (h : List.Forall₂ TraceOver rs trs) (hl : ∀ r ∈ rs, 1 / 100 ≤ r.stop - r.start)
    {r : BlockSpan} (hr : rs.getLast? = some r) :
    ∃ q, (samples trs).getLast? = some q ∧ r.stop - 25 / 1000 < (q.1 : Rat) / 100 ∧ (q.1 : Rat) / 100 ≤ r.stop - 5 / 1000 := by
  induction h with
  | nil => simp at hr
  | @cons r0 tr rs trs hr0 hrs ih =>
    cases hrs with
    | nil =>
      simp only [List.getLast?_singleton, Option.some.injEq] at hr
      subst hr
      have hne := traceOver_ne hr0 (hl _ (by simp))
      obtain ⟨x, l, e⟩ := last_stamps hne
      refine ⟨(tr.stop, x), ?_, traceOver_stop hr0 hne, (traceOver_bounds hr0 (q := (tr.stop, x)) (by rw [e]; simp)).2⟩
      rw [samples_cons, samples_nil, List.append_nil, e]
      simp
    | @cons r1 tr1 rs1 trs1 h1 h2 =>
      rw [List.getLast?_cons_cons] at hr
      obtain ⟨q, q1, q2⟩ := ih (fun r hr => hl r (List.mem_cons_of_mem _ hr)) hr
      refine ⟨q, ?_, q2⟩
      rw [samples_cons, List.getLast?_append, q1]
      rfl

/-- What a block yields: the traces of some spans, or nothing, the block being skipped (helper). -/
def BlockYields (env : Env) (dir : List Entry) (SN : List Nat) (block : List Int) (qs : List BlockSpan) : Prop :=
  (∃ g, readGem env dir SN block true = .ok g ∧ List.Forall₂ TraceOver qs g.stream) ∨
    (qs = [] ∧ ∃ x, readGem env dir SN block true = .error x ∧ x.skipsBlock = true)

theorem yields_stream {env : Env} {dir : List Entry} {SN : List Nat} {block : List Int} {qs : List BlockSpan} {j : Job}
    (hread : ∀ block, j.read block = (readGem env dir SN block true).map GemData.stream) (h : BlockYields env dir SN block qs) :
    List.Forall₂ TraceOver qs (j.streamOf block) ∧ ∀ x, j.read block = .error x → x.skipsBlock = true := by
  rcases h with ⟨g, h1, h2⟩ | ⟨rfl, x, h1, h2⟩
  · have h3 : j.read block = .ok g.stream := by rw [hread, h1]; rfl
    unfold Job.streamOf
    rw [h3]
    exact ⟨h2, fun x hx => by cases hx⟩
  · have h3 : j.read block = .error x := by rw [hread, h1]; rfl
    unfold Job.streamOf
    rw [h3]
    refine ⟨.nil, fun y hy => ?_⟩
    cases hy
    exact h2

theorem yields_all {env : Env} {dir : List Entry} {SN : List Nat} {j : Job}
    (hread : ∀ block, j.read block = (readGem env dir SN block true).map GemData.stream) {bs : List (List Int)} {rss : List (List BlockSpan)}
    (h : List.Forall₂ (BlockYields env dir SN) bs rss) : List.Forall₂ TraceOver rss.flatten (j.record bs) ∧ j.SkipsIn bs := by
  induction h with
  | nil => exact ⟨.nil, fun b hb => by simp at hb⟩
  | @cons b qs bs rss h0 _ ih =>
    obtain ⟨i1, i2⟩ := ih
    obtain ⟨h1, h2⟩ := yields_stream hread h0
    refine ⟨List.rel_append h1 i1, ?_⟩
    intro b' hb' x hx
    rcases List.mem_cons.mp hb' with rfl | hb'
    · exact h2 x hx
    · exact i2 b' hb' x hx

/-- The first block that yields something. -/
theorem yields_split {env : Env} {dir : List Entry} {SN : List Nat} {j : Job}
    (hread : ∀ block, j.read block = (readGem env dir SN block true).map GemData.stream) {bs : List (List Int)} {rss : List (List BlockSpan)}
    (h : List.Forall₂ (BlockYields env dir SN) bs rss) : ∀ r0 rs, rss.flatten = r0 :: rs →
    ∃ before b after tr0 d1, bs = before ++ b :: after ∧ j.record before = [] ∧ j.streamOf b = tr0 :: d1 ∧
      List.Forall₂ TraceOver (r0 :: rs) (tr0 :: (d1 ++ j.record after)) := by
  induction h with
  | nil => intro r0 rs h; simp at h
  | @cons b qs bs rss h0 hrest ih =>
    intro r0 rs hf
    obtain ⟨h1, _⟩ := yields_stream hread h0
    cases qs with
    | nil =>
      obtain ⟨before, b1, after, tr0, d1, e1, e2, e3, e4⟩ := ih r0 rs hf
      refine ⟨b :: before, b1, after, tr0, d1, by rw [e1]; rfl, ?_, e3, e4⟩
      unfold Job.record at e2 ⊢
      rw [List.flatMap_cons, e2, List.forall₂_nil_left_iff.mp h1]
      rfl
    | cons q qs =>
      rw [List.flatten_cons, List.cons_append, List.cons.injEq] at hf
      obtain ⟨rfl, rfl⟩ := hf
      cases hst : j.streamOf b with
      | nil => rw [hst] at h1; cases h1
      | cons tr0 d1 =>
        rw [hst] at h1
        cases h1 with
        | cons g0 g1 => exact ⟨[], b, bs, tr0, d1, rfl, rfl, hst, .cons g0 (List.rel_append g1 (yields_all hread hrest).1)⟩

/-- Conversion of blocks each of which yields the traces of some spans, or is skipped. -/
theorem convert_spans (env : Env) (dir : List Entry) (SN : List Nat) (nums : List (Option Int)) (ns : List Int)
    (hns : convertNums true dir SN nums = .ok ns) (blockdays : Rat) (l t2 : Int) (hb : 0 < blockdays) (hl : 0 < l)
    (rss : List (List BlockSpan)) (r0 : BlockSpan) (rs : List BlockSpan) (hrss : rss.flatten = r0 :: rs)
    (hblocks : List.Forall₂ (BlockYields env dir SN) (jobOf env dir SN ns blockdays (10000 * l) t2).blocks rss)
    (hlongs : ∀ r ∈ r0 :: rs, 1 / 100 ≤ r.stop - r.start)
    (horder : (r0 :: rs).IsChain fun x y => x.stop < y.start) (hpos : 1 ≤ r0.start) (hlong : 103 / 100 ≤ r0.stop - r0.start)
    (hfar : ∀ r ∈ r0 :: rs, 1000000 * r.stop + 10000 * l + ⌈86400000000 * blockdays⌉ + 1000000 ≤ t2) :
    ∃ tr0 trs s h, List.Forall₂ TraceOver (r0 :: rs) (tr0 :: trs) ∧
      Settles (convertDir env true dir SN nums blockdays (10000 * l) none t2) (.done s) ∧
      s.reads = (jobOf env dir SN ns blockdays (10000 * l) t2).blocks ∧
      h % 1000000 = 0 ∧ 10000 * tr0.start ≤ h ∧ h < 10000 * tr0.start + 1000000 ∧
      samples s.w.out = from_ h (fillIn (samples (tr0 :: trs))) ∧
      ((r0 :: rs).IsChain (fun x y => y.start - x.stop ≤ 1 / 100) →
        (samples s.w.out).IsChain (fun x y => y.1 = x.1 + 1) ∧ (samples s.w.out).head?.map Prod.fst = some (h / 10000) ∧
        ∃ q r, (samples s.w.out).getLast? = some q ∧ (r0 :: rs).getLast? = some r ∧
          r.stop - 25 / 1000 < (q.1 : Rat) / 100 ∧ (q.1 : Rat) / 100 ≤ r.stop - 5 / 1000) := by
  obtain ⟨j, hj⟩ : ∃ j, j = jobOf env dir SN ns blockdays (10000 * l) t2 := ⟨_, rfl⟩
  rw [← hj] at hblocks ⊢
  have hread : ∀ block, j.read block = (readGem env dir SN block true).map GemData.stream := by rw [hj]; intro _; rfl
  have hskip : j.OnlySkips := (yields_all hread hblocks).2
  obtain ⟨before, b, after, tr0, d1, hbs, hbef, hst, hall⟩ := yields_split hread hblocks r0 rs hrss
  obtain ⟨trs, htrs⟩ : ∃ trs, trs = d1 ++ j.record after := ⟨_, rfl⟩
  rw [← htrs] at hall
  have g1 : TraceOver r0 tr0 := by
    cases hall with
    | cons g _ => exact g
  obtain ⟨ho, hlo⟩ := traces_inOrder hall hlongs horder
  have hne0 := traceOver_ne g1 (hlongs r0 (by simp))
  have hfd : FirstData j (tr0 :: d1) (j.record after) := ⟨⟨before, b, after, hbs, hbef, hst, rfl⟩, by simp⟩
  have happ : tr0 :: d1 ++ j.record after = tr0 :: trs := by rw [htrs]; rfl
  obtain ⟨x0, lx, hx0⟩ := List.exists_cons_of_ne_nil hne0
  obtain ⟨h, hh⟩ : ∃ h, h = -((-(10000 * tr0.start)) / 1000000) * 1000000 := ⟨_, rfl⟩
  have hh1 : h % 1000000 = 0 := by omega
  have hh2 : 10000 * tr0.start ≤ h := by omega
  have hh3 : h < 10000 * tr0.start + 1000000 := by omega
  -- the first trace reaches the first whole second
  have hreach : h ≤ 10000 * tr0.stop := by
    have e1 := traceOver_stop g1 hne0
    have e2 := g1.start
    unfold Trace.time at e2
    rw [abs_le] at e2
    have e3 : (tr0.start : Rat) + 99 < tr0.stop := by
      have := e2.2
      push_cast at this
      linarith
    have : tr0.start + 99 < tr0.stop := by exact_mod_cast e3
    omega
  obtain ⟨v, sv, ev⟩ := last_stamps hne0
  have hmem : (tr0.stop, v) ∈ samples (tr0 :: trs) := by
    rw [samples_cons, ev]; simp
  have hpos' : ∀ q ∈ samples (tr0 :: trs), 0 ≤ q.1 := by
    intro q hq
    have := hlo q hq r0 (by simp)
    have : (0 : Rat) ≤ q.1 := by linarith
    exact_mod_cast this
  have hjL : j.L = 10000 * l := by rw [hj]; rfl
  have hjb : j.blockdays = blockdays := by rw [hj]; rfl
  have hjt : j.t2 = t2 := by rw [hj]; rfl
  have hfar' : ∀ q ∈ samples (tr0 :: trs), 10000 * q.1 + j.L + j.day + 1000000 ≤ j.t2 := by
    intro q hq
    obtain ⟨r, hr, _, hu⟩ := traces_upper hall q hq
    have hf := hfar r hr
    have hjd : j.day = ⌈86400000000 * blockdays⌉ := by unfold Job.day; rw [hjb]
    rw [hjL, hjd, hjt]
    have : (10000 : Rat) * q.1 + 10000 * l + ⌈86400000000 * blockdays⌉ + 1000000 ≤ t2 := by linarith
    exact_mod_cast this
  obtain ⟨s, c1, c2, c3⟩ := C29_nothing_lost j l (by rw [hjb]; exact hb) hl hjL hskip (tr0 :: d1) (j.record after) hfd
    (by rw [happ]; exact ho) (by rw [happ]; exact hpos') (by rw [happ]; exact hfar') tr0.start x0 h
    (by rw [samples_cons, hx0, stamps]; rfl) hh1 hh2 hh3 ⟨(tr0.stop, v), by rw [happ]; exact hmem, hreach⟩
  rw [happ] at c2
  refine ⟨tr0, trs, s, h, hall, ?_, c3, hh1, hh2, hh3, c2, ?_⟩
  · have : convertDir env true dir SN nums blockdays (10000 * l) none t2 = convertLoops j none := by
      funext fuel
      unfold convertDir
      rw [hns, hj]
    rw [this]
    exact c1
  · intro hclose
    rw [c2]
    have hcons := fillIn_consecutive ho.2 (traces_close hall hlongs hclose)
    have hfill : (tr0.stop, v) ∈ fillIn (samples (tr0 :: trs)) := (fillIn_sublist _).subset hmem
    refine ⟨?_, ?_, ?_⟩
    · exact hcons.suffix (from_is_suffix (fillIn_increasing ho.2) h)
    · refine from_consecutive (by omega) hcons ?_ ⟨_, hfill, hreach⟩
      intro q hq
      rw [samples_cons, hx0, stamps, List.cons_append] at hq
      obtain ⟨t, ht⟩ := fillIn_cons (tr0.start, x0) (stamps (tr0.start + 1) lx ++ samples trs)
      rw [ht] at hq
      simp only [List.head?_cons, Option.mem_def, Option.some.injEq] at hq
      rw [← hq]
      exact hh2
    · obtain ⟨r, hr⟩ : ∃ r, (r0 :: rs).getLast? = some r := ⟨_, List.getLast?_eq_some_getLast (by simp)⟩
      obtain ⟨q, q1, q2⟩ := traces_last hall hlongs hr
      refine ⟨q, r, ?_, hr, q2⟩
      have hq3 : (fillIn (samples (tr0 :: trs))).getLast? = some q := by
        rw [List.getLast?_eq_some_iff] at q1
        obtain ⟨p, hp⟩ := q1
        rw [hp]
        obtain ⟨p', hp'⟩ := fillIn_concat p q
        rw [hp']
        simp
      refine from_getLast hq3 ?_
      have hle : tr0.stop ≤ q.1 := by
        rw [List.getLast?_eq_some_iff] at q1
        obtain ⟨p, hp⟩ := q1
        have ho2 := ho.2
        change Increasing (samples (tr0 :: trs)) at ho2
        rw [hp] at hmem ho2
        rcases List.mem_append.mp hmem with hm | hm
        · exact ((List.pairwise_append.mp ho2).2.2 _ hm q (by simp)).le
        · rw [List.mem_singleton] at hm
          rw [← hm]
      omega


/-- **C66.** Let each block of the selected files of a directory hold a recording without defects and without gaps, each starting after
the end of the one before. Then the conversion ends normally, every block is read once, and there is one trace per block, such that the written
samples are exactly those of the traces, with the samples missing where the blocks meet filled in, from the first whole second on. -/
theorem C66_convert (d : RawDisk) (dir : List Entry) (SN : List Nat) (log : Entry → List Event) (nums : List (Option Int)) (ns : List Int)
    (hns : convertNums true dir SN nums = .ok ns) (n : Int) (hn : pyInt SN = some n) (specs : Specs) (hspecs : gemSpecs n = .ok specs)
    (hfit : Reproduces d.fit) (hfit1 : ReproducesLines d.fit) (blockdays : Rat) (l t2 : Int) (hb : 0 < blockdays) (hl : 0 < l)
    (r0 : BlockSpan) (rs : List BlockSpan)
    (hblocks : List.Forall₂ (fun block r => ∃ first rest, CleanBlock d dir SN log block r first rest)
      (jobOf d.env dir SN ns blockdays (10000 * l) t2).blocks (r0 :: rs))
    (horder : (r0 :: rs).IsChain fun x y => x.stop < y.start) (hpos : 1 ≤ r0.start) (hlong : 103 / 100 ≤ r0.stop - r0.start)
    (hfar : ∀ r ∈ r0 :: rs, 1000000 * r.stop + 10000 * l + ⌈86400000000 * blockdays⌉ + 1000000 ≤ t2) :
    ∃ tr0 trs s h, List.Forall₂ TraceOver (r0 :: rs) (tr0 :: trs) ∧
      Settles (convertDir d.env true dir SN nums blockdays (10000 * l) none t2) (.done s) ∧
      s.reads = (jobOf d.env dir SN ns blockdays (10000 * l) t2).blocks ∧
      h % 1000000 = 0 ∧ 10000 * tr0.start ≤ h ∧ h < 10000 * tr0.start + 1000000 ∧
      samples s.w.out = from_ h (fillIn (samples (tr0 :: trs))) ∧
      ((r0 :: rs).IsChain (fun x y => y.start - x.stop ≤ 1 / 100) →
        (samples s.w.out).IsChain (fun x y => y.1 = x.1 + 1) ∧ (samples s.w.out).head?.map Prod.fst = some (h / 10000) ∧
        ∃ q r, (samples s.w.out).getLast? = some q ∧ (r0 :: rs).getLast? = some r ∧
          r.stop - 25 / 1000 < (q.1 : Rat) / 100 ∧ (q.1 : Rat) / 100 ≤ r.stop - 5 / 1000) := by
  have key : ∀ {bs : List (List Int)} {qs : List BlockSpan},
      List.Forall₂ (fun block r => ∃ first rest, CleanBlock d dir SN log block r first rest) bs qs →
      List.Forall₂ (BlockYields d.env dir SN) bs (qs.map fun r => [r]) := by
    intro bs qs h
    induction h with
    | nil => exact .nil
    | @cons b0 q0 _ _ hr _ ih =>
      obtain ⟨g, tr, h1, h1', h2, _⟩ := cleanBlock_trace hr n hn specs hspecs hfit hfit1
      exact .cons (.inl ⟨g, h1, by rw [h1']; exact .cons h2 .nil⟩) ih
  refine convert_spans d.env dir SN nums ns hns blockdays l t2 hb hl _ r0 rs ?_ (key hblocks) ?_ horder hpos hlong hfar
  · rw [← List.flatMap_def]; simp
  · intro r hr
    obtain ⟨b, _, _, _, h⟩ := forall₂_right hblocks r hr
    exact h.long

end Gemlog

namespace Gemlog

/-! ## Two blocks without defects -/

def longFix (s k : Nat) (ms : Dec) : Event :=
  ⟨k * 9765625 / 10000, .fix ms (.ofNat 100) 2020 1 1 0 0 (.ofNat (s + k)) (.ofNat 43) (.ofNat 116)⟩

def longSample (i : Nat) : Event := ⟨(24 * i : Nat), .sample (.ofNat (24 * i)) 1⟩

def longFixes (s : Nat) : List Event :=
  [longFix s 2 ⟨false, 1953, bytes "125", by decide +kernel⟩, longFix s 3 ⟨false, 2929, bytes "6875", by decide +kernel⟩,
   longFix s 4 ⟨false, 3906, bytes "25", by decide +kernel⟩, longFix s 5 ⟨false, 4882, bytes "8125", by decide +kernel⟩,
   longFix s 6 ⟨false, 5859, bytes "375", by decide +kernel⟩, longFix s 7 ⟨false, 6835, bytes "9375", by decide +kernel⟩,
   longFix s 8 ⟨false, 7812, bytes "5", by decide +kernel⟩, longFix s 9 ⟨false, 597, bytes "0625", by decide +kernel⟩,
   longFix s 10 ⟨false, 1573, bytes "625", by decide +kernel⟩, longFix s 11 ⟨false, 2550, bytes "1875", by decide +kernel⟩]

/-- Two seconds of samples, and fixes, counted from second `s` of 2020. -/
def longLog (s : Nat) : List Event :=
  [⟨0, .other (bytes "#GemCSV0.91")⟩, ⟨0, .status (.ofNat 0) (.ofNat 4) (.ofNat 20) (.ofNat 0) (.ofNat 0) 1 2 3 4 1 6 7⟩] ++
    (List.range 82).map longSample ++ longFixes s

theorem printed_samples {rest : List Event} (hr : ∀ prev, TimesPrinted prev rest) : ∀ (L : List Nat) (prev : Option Rat),
    (∀ i ∈ L, 24 * i < 8192) → TimesPrinted prev (L.map longSample ++ rest)
  | [], prev, _ => hr prev
  | i :: L, prev, h => by
    rw [List.map_cons, List.cons_append]
    unfold longSample
    simp only [TimesPrinted]
    have h1 : 24 * i < 8192 := h i (by simp)
    have hv : (Dec.ofNat (24 * i)).val = ((24 * i : Nat) : Rat) := by simp [Dec.val, Dec.ofNat, digitsVal]
    refine ⟨⟨by rw [hv]; positivity, by rw [hv]; exact_mod_cast h1, 0, by rw [hv]; push_cast; ring⟩, ?_⟩
    exact printed_samples hr L _ fun i hi => h i (by simp [hi])

theorem longFix_at (s k : Nat) (hs : s = 0 ∨ s = 2 ∨ s = 20 ∨ s = 40) (hk : k < 14) (ms : Dec) :
    ∃ t : Int, (longFix s k ms).FixAt t ∧ (t : Rat) = (1577836800 + s) + 1024 / 1000000 * (longFix s k ms).T := by
  refine ⟨1577836800 + s + k, ?_, ?_⟩
  · unfold longFix Event.FixAt
    refine ⟨by decide +kernel, by decide +kernel, by decide +kernel, by decide, ((s + k : Nat) : Int), ?_, ?_, ?_⟩
    · simp [Dec.val, Dec.ofNat, digitsVal]
    · exact ⟨by norm_num, by norm_num, ⟨by norm_num, true, by simp [LeapYear], by norm_num [almanac]⟩, by norm_num, by norm_num,
        ⟨by simp only; omega, by simp only; omega⟩⟩
    · rcases hs with rfl | rfl | rfl | rfl <;> interval_cases k <;> decide +kernel
  · unfold longFix
    push_cast
    ring

theorem long_samples (s : Nat) (hs : s = 0 ∨ s = 2 ∨ s = 20 ∨ s = 40) :
    sampleTimes (longLog s) = (List.range 82).map fun i : Nat => ((24 * i : Nat) : Rat) := by
  rcases hs with rfl | rfl | rfl | rfl <;> decide +kernel

theorem long_sound (s : Nat) (hs : s = 0 ∨ s = 2 ∨ s = 20 ∨ s = 40) : SoundFile (1577836800 + s) (1024 / 1000000) (longLog s) := by
  have w : ∀ (T s : Rat) (k : Int), 0 ≤ s → s < 8192 → T = s + k * 8192 → WrappedReading 8192 T s := fun T s k h1 h2 h3 => ⟨h1, h2, k, h3⟩
  have hfix : ∀ prev, TimesPrinted prev (longFixes s) := by
    intro prev
    unfold longFixes longFix
    simp only [TimesPrinted]
    refine ⟨w _ _ 0 ?_ ?_ ?_, w _ _ 0 ?_ ?_ ?_, w _ _ 0 ?_ ?_ ?_, w _ _ 0 ?_ ?_ ?_, w _ _ 0 ?_ ?_ ?_, w _ _ 0 ?_ ?_ ?_, w _ _ 0 ?_ ?_ ?_,
      w _ _ 1 ?_ ?_ ?_, w _ _ 1 ?_ ?_ ?_, w _ _ 1 ?_ ?_ ?_, trivial⟩ <;> decide +kernel
  refine ⟨?_, ?_, ?_, ?_, ?_, ?_, ?_, ?_, ?_, ?_, ?_⟩
  · rcases hs with rfl | rfl | rfl | rfl <;> decide +kernel
  · rcases hs with rfl | rfl | rfl | rfl <;> decide +kernel
  · unfold longLog
    rw [List.append_assoc, List.cons_append, List.cons_append, List.nil_append]
    simp only [TimesPrinted]
    exact ⟨w _ _ 0 (by decide +kernel) (by decide +kernel) (by decide +kernel), printed_samples hfix _ _ (by decide)⟩
  · rcases hs with rfl | rfl | rfl | rfl <;> decide +kernel
  · rcases hs with rfl | rfl | rfl | rfl <;> decide +kernel
  · rcases hs with rfl | rfl | rfl | rfl <;> decide +kernel
  · rcases hs with rfl | rfl | rfl | rfl <;> decide +kernel
  · intro e he hf
    unfold longLog at he
    rcases List.mem_append.mp he with he | he
    · rcases List.mem_append.mp he with he | he
      · simp only [List.mem_cons, List.not_mem_nil, or_false] at he
        rcases he with rfl | rfl <;> exact absurd hf (by simp [Event.isFix])
      · obtain ⟨i, _, rfl⟩ := List.mem_map.mp he
        exact absurd hf (by simp [Event.isFix, longSample])
    · unfold longFixes at he
      simp only [List.mem_cons, List.not_mem_nil, or_false] at he
      rcases he with rfl | rfl | rfl | rfl | rfl | rfl | rfl | rfl | rfl | rfl <;> exact longFix_at s _ hs (by decide) _
  · rcases hs with rfl | rfl | rfl | rfl <;> decide +kernel
  · rcases hs with rfl | rfl | rfl | rfl <;> decide +kernel
  · rcases hs with rfl | rfl | rfl | rfl <;> decide +kernel

theorem long_clean (s : Nat) (hs : s = 0 ∨ s = 2) : CleanRecording (1577836800 + s) (1024 / 1000000) [longLog s] := by
  have hs3 : s = 0 ∨ s = 2 ∨ s = 20 ∨ s = 40 := by omega
  refine ⟨by norm_num, ⟨⟨long_sound s hs3, ?_, ?_⟩, trivial⟩, ?_, ?_⟩
  · unfold NearStart; rcases hs with rfl | rfl <;> decide +kernel
  · rcases hs with rfl | rfl <;> decide +kernel
  · rcases hs with rfl | rfl <;> decide +kernel
  · intro x y z l h
    rw [List.flatMap_singleton, long_samples s hs3, show List.range 82 = 0 :: 1 :: 2 :: (List.range 79).map (· + 3) by decide] at h
    simp only [List.map_cons, List.cons.injEq] at h
    obtain ⟨rfl, rfl, -⟩ := h
    left; norm_num

def longDir : List Entry := [⟨bytes "FILE0001.012", 500, .str (bytes "012")⟩, ⟨bytes "FILE0013.012", 500, .str (bytes "012")⟩]

def longOf (e : Entry) : List Event := if e.name = bytes "FILE0001.012" then longLog 0 else longLog 2

noncomputable def longDisk : RawDisk :=
  ⟨fun e => textOf (longOf e), fun _ _ => .error .other, fun _ _ => .error .other, fun _ => .ok "012", fun _ => 0, [], [], false, 1800000000,
    idealFit, flatSpline⟩

def longSpan (s : Nat) : BlockSpan :=
  ⟨1577836800 + s, 1024 / 1000000, 1577836800 + s + 1024 / 1000000 * (893 / 100), 1577836800 + s + 1024 / 1000000 * (1944 + 893 / 100), fun _ => 7⟩

theorem long_block (s : Nat) (hs : s = 0 ∨ s = 2) (n : Int) (e : Entry) (hn : n = 1 ∧ s = 0 ∧ e = ⟨bytes "FILE0001.012", 500, .str (bytes "012")⟩ ∨
    n = 13 ∧ s = 2 ∧ e = ⟨bytes "FILE0013.012", 500, .str (bytes "012")⟩) :
    CleanBlock longDisk longDir (bytes "012") longOf [n] (longSpan s) e [] := by
  have hlog : longOf e = longLog s := by
    rcases hn with ⟨_, rfl, rfl⟩ | ⟨_, rfl, rfl⟩
    · unfold longOf; rw [if_pos rfl]
    · unfold longOf; rw [if_neg (by decide +kernel)]
  refine ⟨?_, fun _ _ => rfl, ?_, ⟨"0.91", by decide, ?_⟩, fun _ _ => ⟨_, rfl⟩, .inl rfl, ?_, ?_, ?_, ?_, ?_⟩
  · rcases hn with ⟨rfl, _, rfl⟩ | ⟨rfl, _, rfl⟩ <;> decide +kernel
  · rw [List.map_singleton, hlog]; exact long_clean s hs
  · rw [hlog]
    exact ⟨_, _, rfl, congrArg LogLine.other (by decide +kernel)⟩
  · rw [List.map_singleton, hlog]; rcases hs with rfl | rfl <;> decide +kernel
  · rw [List.map_singleton, hlog]; rcases hs with rfl | rfl <;> decide +kernel
  · unfold longSpan; norm_num
  · rw [List.map_singleton, hlog]; rcases hs with rfl | rfl <;> decide +kernel
  · have hne : ¬ (trueRecord (1577836800 + s) (1024 / 1000000) [longLog s]).length < 2 := by rcases hs with rfl | rfl <;> decide +kernel
    rw [List.map_singleton, hlog]
    rw [show longDisk.spline = flatSpline from rfl]
    unfold flatSpline
    rw [show (longSpan s).offset = 1577836800 + (s : Rat) from rfl, show (longSpan s).rate = 1024 / 1000000 from rfl, List.length_map, if_neg hne]
    rfl

/-- The hypotheses of `C66_convert` hold for two blocks of one file each, two seconds long; the converted record has no gap. -/
example : ∃ s, Settles (convertDir longDisk.env true longDir (bytes "012") [none] 1 (10000 * 360000) none 253402300799000000) (.done s) ∧
    (samples s.w.out).IsChain fun x y => y.1 = x.1 + 1 := by
  obtain ⟨_, _, s, _, _, h, _, _, _, _, _, hc⟩ := C66_convert longDisk longDir (bytes "012") longOf [none] [1, 13] (by decide +kernel) 12 (by decide +kernel)
    (specsOf (7 / 10)) (by decide +kernel) idealFit_reproduces idealFit_line 1 360000 253402300799000000 (by decide) (by decide) (longSpan 0) [longSpan 2]
    (by
      have : (jobOf longDisk.env longDir (bytes "012") [1, 13] 1 (10000 * 360000) 253402300799000000).blocks = [[1], [13]] := by decide +kernel
      rw [this]
      exact .cons ⟨_, _, long_block 0 (.inl rfl) 1 _ (.inl ⟨rfl, rfl, rfl⟩)⟩
        (.cons ⟨_, _, long_block 2 (.inr rfl) 13 _ (.inr ⟨rfl, rfl, rfl⟩)⟩ .nil))
    (by unfold longSpan; simp only [List.isChain_cons_cons, List.isChain_singleton]; norm_num) (by unfold longSpan; norm_num)
    (by unfold longSpan; norm_num)
    (by
      intro r hr
      simp only [List.mem_cons, List.not_mem_nil, or_false] at hr
      rcases hr with rfl | rfl <;> unfold longSpan <;> norm_num)
  exact ⟨s, h, (hc (by unfold longSpan; simp only [List.isChain_cons_cons, List.isChain_singleton]; norm_num)).1⟩

end Gemlog
