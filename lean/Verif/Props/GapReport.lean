import Verif.Props.RestartsConvert
import Verif.Props.TwoStepsRaw
import Verif.Props.Again
import Verif.Props.DayFilesRaw
import Verif.Props.Fill
import Verif.Props.Gaps
import Verif.Props.NamesDistinct

/-!
# C128: from the raw files to the report of gaps

Raw files of a logger that is switched off and on are converted, and `check_discontinuity` is called on the converted files.
-/

namespace Gemlog

/-! ## Specification -/

/-- A line of the report starts where the first of these sessions does. -/
def StartsWith (g : List Session) (k : Int) : Prop := ∀ x ∈ g.head?, |(k : Rat) / 100 - x.start| ≤ 5 / 1000

/-- A line of the report ends where the last of these sessions does. -/
def EndsWith (g : List Session) (k : Int) : Prop := ∀ x ∈ g.getLast?, x.stop - 25 / 1000 < (k : Rat) / 100 ∧ (k : Rat) / 100 ≤ x.stop - 5 / 1000

/-! ## One trace per group -/

/-- Traces that follow each other without a pause, and the trace they make up once filled (helper). -/
theorem group_trace {rs : List BlockSpan} {tr : Trace} {trs : List Trace} (h : List.Forall₂ TraceOver rs (tr :: trs))
    (hl : ∀ r ∈ rs, 1 / 100 ≤ r.stop - r.start) (ho : rs.IsChain fun x y => x.stop < y.start)
    (hc : rs.IsChain fun x y => y.start - x.stop ≤ 1 / 100) :
    ∃ t : Trace, t.data ≠ [] ∧ t.start = tr.start ∧ stamps t.start t.data = fillIn (samples (tr :: trs)) ∧
      ∃ q, (samples (tr :: trs)).getLast? = some q ∧ q.1 = t.stop ∧
        ∀ r ∈ rs.getLast?, r.stop - 25 / 1000 < (t.stop : Rat) / 100 ∧ (t.stop : Rat) / 100 ≤ r.stop - 5 / 1000 := by
  have hinc := (traces_inOrder h hl ho).1.2
  have hclose := traces_close h hl hc
  have hcons := fillIn_consecutive hinc hclose
  obtain ⟨r0, rs', rfl⟩ : ∃ r0 rs', rs = r0 :: rs' := by cases h with | cons _ _ => exact ⟨_, _, rfl⟩
  have hne : tr.data ≠ [] := by cases h with | cons h1 _ => exact traceOver_ne h1 (hl _ (by simp))
  obtain ⟨z, zs, hz⟩ := List.exists_cons_of_ne_nil hne
  have hhead : ∃ w ws, samples (tr :: trs) = w :: ws ∧ w.1 = tr.start := by
    rw [samples_cons, hz, stamps]
    exact ⟨_, _, rfl, rfl⟩
  obtain ⟨w, ws, hw, hw1⟩ := hhead
  obtain ⟨t', ht'⟩ := fillIn_cons w ws
  have e := consecutive_stamps (f := tr.start) hcons (by rw [hw, ht']; simp [hw1])
  obtain ⟨r, hr⟩ : ∃ r, (r0 :: rs').getLast? = some r := ⟨_, List.getLast?_eq_some_getLast (by simp)⟩
  obtain ⟨q, hq, hq1, hq2⟩ := traces_last h hl hr
  have hd : ((fillIn (samples (tr :: trs))).map Prod.snd) ≠ [] := by rw [hw, ht']; simp
  obtain ⟨x, l, hx⟩ := last_stamps (tr := ⟨tr.start, (fillIn (samples (tr :: trs))).map Prod.snd⟩) hd
  have hstop : q.1 = Trace.stop ⟨tr.start, (fillIn (samples (tr :: trs))).map Prod.snd⟩ := by
    obtain ⟨l', hl'⟩ := List.getLast?_eq_some_iff.mp hq
    obtain ⟨l'', hl''⟩ := fillIn_concat l' q
    have e2 := hl''.symm.trans ((congrArg fillIn hl').symm.trans (e.trans hx))
    rw [(List.append_inj' e2 rfl).2 |> List.cons.inj |>.1]
  refine ⟨⟨tr.start, (fillIn (samples (tr :: trs))).map Prod.snd⟩, hd, rfl, e.symm, q, hq, hstop, ?_⟩
  intro r' hr'
  rw [hr] at hr'
  obtain rfl := Option.mem_some_iff.mp hr'
  rw [← hstop]
  exact ⟨hq1, hq2⟩

theorem fillIn_far {a b : List (Int × Int)} {x y : Int × Int} (hx : a.getLast? = some x) (hy : b.head? = some y) (h : y.1 - x.1 > 3) :
    fillIn (a ++ b) = fillIn a ++ fillIn b := by
  obtain ⟨l, rfl⟩ := List.getLast?_eq_some_iff.mp hx
  obtain ⟨t, rfl⟩ : ∃ t, b = y :: t := by
    cases b with
    | nil => simp at hy
    | cons z t => simp only [List.head?_cons, Option.some.injEq] at hy; exact ⟨t, by rw [hy]⟩
  rw [List.append_assoc, List.singleton_append, fillIn_append, between_far h, List.nil_append]

/-- A trace per group of traces (helper). -/
def GroupTrace (rs : List BlockSpan) (t : Trace) : Prop :=
  (∀ r ∈ rs.head?, |(t.start : Rat) / 100 - r.start| ≤ 5 / 1000) ∧
    ∀ r ∈ rs.getLast?, r.stop - 25 / 1000 < (t.stop : Rat) / 100 ∧ (t.stop : Rat) / 100 ≤ r.stop - 5 / 1000

/-- Groups with pauses of a second or more between them make up separate traces once filled (helper). -/
theorem groups_traces : ∀ {gs : List (List BlockSpan)} {trs : List Trace}, List.Forall₂ TraceOver gs.flatten trs →
    (∀ g ∈ gs, g ≠ [] ∧ (∀ r ∈ g, 1 / 100 ≤ r.stop - r.start) ∧ (g.IsChain fun x y => x.stop < y.start) ∧
      g.IsChain fun x y => y.start - x.stop ≤ 1 / 100) →
    (gs.IsChain fun g g' => ∀ x ∈ g.getLast?, ∀ y ∈ g'.head?, 1 ≤ y.start - x.stop) →
    ∃ T : List Trace, List.Forall₂ GroupTrace gs T ∧ Separate T ∧ (T.IsChain fun a b => a.stop + 100 ≤ b.start) ∧
      T.head?.map Trace.start = trs.head?.map Trace.start ∧ samples T = fillIn (samples trs)
  | [], trs, h, _, _ => by
    rw [List.flatten_nil] at h
    cases h
    exact ⟨[], .nil, ⟨by simp, .nil⟩, .nil, rfl, rfl⟩
  | g :: gs, trs, h, hg, hp => by
    rw [List.flatten_cons] at h
    obtain ⟨hne, hl, ho, hc⟩ := hg g (by simp)
    have h1 := (List.forall₂_take_append trs g gs.flatten h.flip).flip
    have h2 := (List.forall₂_drop_append trs g gs.flatten h.flip).flip
    obtain ⟨r0, g', rfl⟩ := List.exists_cons_of_ne_nil hne
    have hsplit : trs = trs.take (r0 :: g').length ++ trs.drop (r0 :: g').length := (List.take_append_drop _ _).symm
    generalize trs.take (r0 :: g').length = ta at h1 hsplit
    generalize trs.drop (r0 :: g').length = tb at h2 hsplit
    subst hsplit
    obtain ⟨tr, ta', rfl⟩ : ∃ tr ta', ta = tr :: ta' := by cases h1 with | cons _ _ => exact ⟨_, _, rfl⟩
    obtain ⟨t, t1, t2, t3, q, t4, t5, t6⟩ := group_trace h1 hl ho hc
    have hp' : gs.IsChain fun g g' => ∀ x ∈ g.getLast?, ∀ y ∈ g'.head?, 1 ≤ y.start - x.stop := hp.tail
    obtain ⟨T, u1, u2, u3, u4, u5⟩ := groups_traces h2 (fun g hg' => hg g (List.mem_cons_of_mem _ hg')) hp'
    have hgt : GroupTrace (r0 :: g') t := by
      refine ⟨fun r hr => ?_, t6⟩
      simp only [List.head?_cons, Option.mem_def, Option.some.injEq] at hr
      subst hr
      have hs : TraceOver r0 tr := by cases h1 with | cons h _ => exact h
      have := hs.start
      unfold Trace.time at this
      rw [t2]
      simpa using this
    have hapart : ∀ b ∈ T.head?, t.stop + 100 ≤ b.start := by
      intro b hb
      cases u1 with
      | nil => simp at hb
      | @cons g2 b' gs' T' w1 w2 =>
        simp only [List.head?_cons, Option.mem_def, Option.some.injEq] at hb
        subst hb
        obtain ⟨hne2, -⟩ := hg g2 (by simp)
        obtain ⟨r2, g2', rfl⟩ := List.exists_cons_of_ne_nil hne2
        obtain ⟨r, hr⟩ : ∃ r, (r0 :: g').getLast? = some r := ⟨_, List.getLast?_eq_some_getLast (by simp)⟩
        have e1 := (t6 r hr).2
        have e2 := (abs_le.mp (w1.1 r2 (by simp))).1
        have e3 := (List.isChain_cons_cons.mp hp).1 r hr r2 (by simp)
        have : ((t.stop + 100 : Int) : Rat) ≤ b'.start := by push_cast; linarith
        exact_mod_cast this
    refine ⟨t :: T, .cons hgt u1, ⟨?_, ?_⟩, ?_, ?_, ?_⟩
    · intro tr' htr
      rcases List.mem_cons.mp htr with rfl | htr
      · exact t1
      · exact u2.1 tr' htr
    · rw [List.isChain_cons]
      exact ⟨fun b hb => by have := hapart b hb; omega, u2.2⟩
    · rw [List.isChain_cons]
      exact ⟨hapart, u3⟩
    · simp [t2]
    · rw [samples_cons, t3, u5]
      show _ = fillIn (samples ((tr :: ta') ++ tb))
      rw [samples_append]
      cases T with
      | nil =>
        have : tb = [] := by cases u1; rw [List.flatten_nil] at h2; cases h2; rfl
        subst this
        simp [samples, fillIn]
      | cons b T =>
        have hbne := u2.1 b (by simp)
        obtain ⟨z, zs, hz⟩ := List.exists_cons_of_ne_nil hbne
        have hh : ∃ y ys, samples tb = y :: ys ∧ y.1 = b.start := by
          rw [samples_cons, hz, stamps] at u5
          cases hs : samples tb with
          | nil => rw [hs] at u5; simp [fillIn] at u5
          | cons y ys =>
            obtain ⟨ys', hy'⟩ := fillIn_cons y ys
            rw [hs, hy'] at u5
            refine ⟨y, ys, rfl, ?_⟩
            have := (List.cons.inj u5).1
            rw [← this]
        obtain ⟨y, ys, hy, hy1⟩ := hh
        have hb := hapart b (by simp)
        rw [fillIn_far t4 (by rw [hy]; rfl) (by rw [hy1, t5]; omega)]

theorem stamps_next (k : Int) (l : List Int) : (stamps k l).IsChain fun a b => b.1 = a.1 + 1 := by
  induction l generalizing k with
  | nil => exact .nil
  | cons x l ih =>
    rw [stamps]
    cases l with
    | nil => exact .singleton _
    | cons y l =>
      have := ih (k + 1)
      rw [stamps] at this ⊢
      exact List.isChain_cons_cons.mpr ⟨rfl, this⟩

theorem sessions_stop : ∀ {g : List Session}, (∀ s ∈ g, 1 / 100 ≤ s.stop - s.start) → (g.IsChain fun x y => x.stop < y.start) →
    ∀ x ∈ g.head?, ∀ y ∈ g.getLast?, x.stop ≤ y.stop
  | [], _, _, x, hx, _, _ => by simp at hx
  | [a], _, _, x, hx, y, hy => by
    simp only [List.head?_cons, Option.mem_def, Option.some.injEq, List.getLast?_singleton] at hx hy
    rw [← hx, ← hy]
  | a :: b :: g, hl, hc, x, hx, y, hy => by
    simp only [List.head?_cons, Option.mem_def, Option.some.injEq] at hx
    rw [List.getLast?_cons_cons] at hy
    have h1 := List.isChain_cons_cons.mp hc
    have ih := sessions_stop (fun s hs => hl s (List.mem_cons_of_mem _ hs)) h1.2 b (by simp) y hy
    have h2 := hl b (by simp)
    rw [← hx]
    linarith [h1.1]

/-- Separate traces cut at a whole second within the first one (helper). -/
theorem from_traces {t0 : Trace} {T : List Trace} {h : Int} (hT : Separate (t0 :: T)) (hh : h % 10000 = 0) (h0 : 10000 * t0.start ≤ h)
    (h1 : h ≤ 10000 * t0.stop) :
    ∃ t : Trace, t.start = h / 10000 ∧ t.stop = t0.stop ∧ Separate (t :: T) ∧ samples (t :: T) = from_ h (samples (t0 :: T)) := by
  have hne := hT.1 t0 (by simp)
  obtain ⟨x, r, hx⟩ := last_stamps hne
  obtain ⟨z, zs, hz⟩ := List.exists_cons_of_ne_nil hne
  have hchain := stamps_next t0.start t0.data
  have hinc : Increasing (stamps t0.start t0.data) := (List.pairwise_append.mp (apart_increasing hT)).1
  have hcross := (List.pairwise_append.mp (apart_increasing hT)).2.2
  have hsuf := from_is_suffix hinc h
  have hhead := from_consecutive hh hchain (by rw [hz, stamps]; simpa using h0) ⟨(t0.stop, x), by rw [hx]; simp, h1⟩
  have hcut := consecutive_stamps (hchain.suffix hsuf) hhead
  have hlast := from_getLast (s := stamps t0.start t0.data) (q := (t0.stop, x)) (by rw [hx]; simp) h1
  clear hsuf
  have hfrom : from_ h (samples (t0 :: T)) = from_ h (stamps t0.start t0.data) ++ samples T := by
    rw [samples_cons, from_append, from_all (s := samples T)]
    intro q hq
    have := hcross (t0.stop, x) (by simp only; rw [hx]; simp) q hq
    simp only at this
    omega
  rw [hfrom]
  generalize from_ h (stamps t0.start t0.data) = c at hhead hcut hlast ⊢
  have hd : c.map Prod.snd ≠ [] := by
    intro e
    rw [List.map_eq_nil_iff] at e
    subst e
    simp at hhead
  obtain ⟨y, r', hy⟩ := last_stamps (tr := ⟨h / 10000, c.map Prod.snd⟩) hd
  have hstop : Trace.stop ⟨h / 10000, c.map Prod.snd⟩ = t0.stop := by
    have e := (congrArg List.getLast? hcut).symm.trans hlast
    rw [show stamps (h / 10000) (c.map Prod.snd) = _ from hy, List.getLast?_concat] at e
    exact (Prod.mk.inj (Option.some.inj e)).1
  refine ⟨⟨h / 10000, c.map Prod.snd⟩, rfl, hstop, ⟨?_, ?_⟩, ?_⟩
  · intro tr htr
    rcases List.mem_cons.mp htr with rfl | htr
    · exact hd
    · exact hT.1 tr (List.mem_cons_of_mem _ htr)
  · have := hT.2
    rw [List.isChain_cons] at this ⊢
    rw [hstop]
    exact this
  · rw [samples_cons]
    exact congrArg (· ++ samples T) hcut.symm

/-! ## The report -/

/-- What the report says about files that hold the samples of separate traces (helper). -/
theorem report_separate {T out : List Trace} {id : List Nat} {read : List Nat → Option (List (List Nat × Trace))} {files : List (List Nat)}
    {name : Trace → List Nat} (hT : Separate T) (hs : ∀ q, q ∈ samples T ↔ q ∈ samples out) (hne : ∀ tr ∈ out, tr.data ≠ [])
    (hread : ∀ tr ∈ out, read (name tr) = some [(id, tr)]) (hfiles : ∀ f, f ∈ files ↔ ∃ tr ∈ out, f = name tr) :
    checkDiscontinuity read files = some (if T.length ≤ 1 then [] else T.map fun t => (id, t.start, t.stop)) := by
  have hr : ∀ f ∈ files, ∃ tr ∈ out, read f = some [(id, tr)] := by
    intro f hf
    obtain ⟨tr, h1, rfl⟩ := (hfiles f).mp hf
    exact ⟨tr, h1, hread tr h1⟩
  have hm : files.mapM read = some (files.map fun f => (read f).getD []) := mapM_total _ _ _ fun f hf => by
    obtain ⟨tr, _, e⟩ := hr f hf
    rw [e]; rfl
  have hmem : ∀ q, q ∈ (files.map fun f => (read f).getD []).flatten ↔ q.1 = id ∧ q.2 ∈ out := by
    intro q
    rw [← List.flatMap_def, List.mem_flatMap]
    constructor
    · rintro ⟨f, hf, hq⟩
      obtain ⟨tr, h1, e⟩ := hr f hf
      rw [e] at hq
      simp only [Option.getD_some, List.mem_singleton] at hq
      rw [hq]
      exact ⟨rfl, h1⟩
    · rintro ⟨h1, h2⟩
      refine ⟨name q.2, (hfiles _).mpr ⟨q.2, h2, rfl⟩, ?_⟩
      rw [hread q.2 h2, ← h1]
      simp
  generalize (files.map fun f => (read f).getD []) = l at hm hmem
  have hrec : ∀ tr, tr ∈ recordedBy id l.flatten ↔ tr ∈ out := by
    intro tr
    unfold recordedBy
    rw [List.mem_map]
    constructor
    · rintro ⟨q, hq, rfl⟩
      exact ((hmem q).mp (List.mem_filter.mp hq).1).2
    · intro h
      exact ⟨(id, tr), List.mem_filter.mpr ⟨(hmem _).mpr ⟨rfl, h⟩, by simp⟩, rfl⟩
  have hother : ∀ id', id' ≠ id → recordedBy id' l.flatten = [] := by
    intro id' hid
    unfold recordedBy
    rw [List.map_eq_nil_iff, List.filter_eq_nil_iff]
    intro q hq
    have := ((hmem q).mp hq).1
    simp only [decide_eq_true_eq]
    rintro rfl
    exact hid this
  have hsamp : ∀ q, q ∈ samples (recordedBy id l.flatten) ↔ q ∈ samples T := by
    intro q
    rw [hs]
    unfold samples
    rw [List.mem_flatMap, List.mem_flatMap]
    exact ⟨fun ⟨tr, h1, h2⟩ => ⟨tr, (hrec tr).mp h1, h2⟩, fun ⟨tr, h1, h2⟩ => ⟨tr, (hrec tr).mpr h1, h2⟩⟩
  have hcons : ∀ id', Consistent (samples (recordedBy id' l.flatten)) := by
    intro id'
    by_cases hid : id' = id
    · subst hid
      intro t x y h1 h2
      exact increasing_consistent (apart_increasing hT) t x y ((hsamp _).mp h1) ((hsamp _).mp h2)
    · rw [hother id' hid]
      intro t x y h1
      simp [samples] at h1
  obtain ⟨p, p1, runs, p2, p3, p4⟩ := C87_lines hm (fun q hq => hne _ ((hmem q).mp hq).2) hcons
  have hid : runs id = T := apart_unique (p2 id).1 hT fun q => ((p2 id).2 q).trans (hsamp q)
  have hno : ∀ id', id' ≠ id → runs id' = [] := by
    intro id' h
    refine apart_unique (p2 id').1 ⟨by simp, .nil⟩ fun q => ?_
    rw [(p2 id').2 q, hother id' h]
  rw [p1]
  congr 1
  by_cases hlen : T.length ≤ 1
  · rw [if_pos hlen, p4]
    have hone : ∀ i tr, tr ∈ runs i → i = id ∧ tr ∈ T := by
      intro i tr h
      by_cases hi : i = id
      · subst hi
        rw [hid] at h
        exact ⟨rfl, h⟩
      · rw [hno i hi] at h
        simp at h
    intro i i' tr tr' h h'
    obtain ⟨rfl, a⟩ := hone i tr h
    obtain ⟨rfl, b⟩ := hone i' tr' h'
    refine ⟨rfl, ?_⟩
    match T, hlen, a, b with
    | [t], _, a, b => rw [List.mem_singleton.mp a, List.mem_singleton.mp b]
  · rw [if_neg hlen]
    have hp : p ≠ [] := by
      intro e
      have := p4.mp e
      match T, hlen, hT, hid with
      | a :: b :: T, _, hT, hid =>
        have e := (this id id a b (by rw [hid]; simp) (by rw [hid]; simp)).2
        have h1 := (List.isChain_cons_cons.mp hT.2).1
        have h2 := start_le_stop (hT.1 a (by simp))
        rw [e] at h1 h2
        omega
      | [_], h, _, _ => simp at h
      | [], h, _, _ => simp at h
    have hf := p3.resolve_left hp
    have hall : p.filter (fun q => q.1 = id) = p := by
      rw [List.filter_eq_self]
      intro q hq
      by_contra hc
      have hc' : q.1 ≠ id := by simpa using hc
      have := hf q.1
      rw [hno q.1 hc', List.map_nil, List.filter_eq_nil_iff] at this
      exact this q hq (by simp)
    rw [← hall, hf id, hid]

/-- The samples of one trace per session are those of one run per group of sessions. -/
theorem groups_found (s0 : Session) (ss : List Session)
    (horder : (s0 :: ss).IsChain fun x y => x.stop < y.start) (hlong : 103 / 100 ≤ s0.stop - s0.start)
    (hlongs : ∀ r ∈ s0 :: ss, 1 / 100 ≤ r.stop - r.start)
    (g0 : List Session) (gs : List (List Session)) (hgs : (g0 :: gs).flatten = s0 :: ss)
    (hclose : ∀ g ∈ g0 :: gs, g ≠ [] ∧ g.IsChain fun x y => y.start - x.stop ≤ 1 / 100)
    (hpause : (g0 :: gs).IsChain fun g g' => ∀ x ∈ g.getLast?, ∀ y ∈ g'.head?, 1 ≤ y.start - x.stop)
    (tr0 : Trace) (trs out : List Trace) (h : Int) (c1 : List.Forall₂ SessionTrace (s0 :: ss) (tr0 :: trs)) (c4 : h % 1000000 = 0)
    (c5 : 10000 * tr0.start ≤ h) (c6 : h < 10000 * tr0.start + 1000000) (c7 : samples out = from_ h (fillIn (samples (tr0 :: trs)))) :
    NoShortGap (samples out) ∧ ∃ (t : Trace) (T : List Trace), Separate (t :: T) ∧ samples (t :: T) = samples out ∧ t.start % 100 = 0 ∧
      s0.start - 5 / 1000 ≤ (t.start : Rat) / 100 ∧ (t.start : Rat) / 100 < s0.start + 1 + 5 / 1000 ∧ EndsWith g0 t.stop ∧
      List.Forall₂ (fun g t => StartsWith g t.start ∧ EndsWith g t.stop) gs T := by
  have hcl : [] ∉ g0 :: gs := fun hmem => (hclose [] hmem).1 rfl
  have hord := horder
  rw [← hgs] at hord
  have hordg := ((List.isChain_flatten hcl).mp hord).1
  have hlg : ∀ g ∈ g0 :: gs, ∀ r ∈ g, 1 / 100 ≤ r.stop - r.start := fun g hg r hr =>
    hlongs r (by rw [← hgs]; exact List.mem_flatten.mpr ⟨g, hg, hr⟩)
  have hflat : (((g0 :: gs).map fun g => g.map Session.span)).flatten = (s0 :: ss).map Session.span := by
    rw [← List.map_flatten, hgs]
  have hall := spans_traces.mpr c1
  have hl' : ∀ r ∈ (s0 :: ss).map Session.span, 1 / 100 ≤ r.stop - r.start := by
    intro r hr
    obtain ⟨s, hs, rfl⟩ := List.mem_map.mp hr
    exact hlongs s hs
  obtain ⟨T, u1, u2, u3, u4, u5⟩ := groups_traces (gs := (g0 :: gs).map fun g => g.map Session.span) (by rw [hflat]; exact hall)
    (by
      intro g hg
      obtain ⟨g', hg', rfl⟩ := List.mem_map.mp hg
      refine ⟨by simpa using (hclose g' hg').1, ?_, ?_, ?_⟩
      · intro r hr
        obtain ⟨x, hx, rfl⟩ := List.mem_map.mp hr
        exact hlg g' hg' x hx
      · rw [List.isChain_map]; exact hordg g' hg'
      · rw [List.isChain_map]; exact (hclose g' hg').2)
    (by
      rw [List.isChain_map]
      refine hpause.imp fun g g' hp x hx y hy => ?_
      rw [List.getLast?_map] at hx
      rw [List.head?_map] at hy
      obtain ⟨x', hx', rfl⟩ := Option.mem_map.mp hx
      obtain ⟨y', hy', rfl⟩ := Option.mem_map.mp hy
      exact hp x' hx' y' hy')
  rw [List.forall₂_map_left_iff] at u1
  obtain ⟨g0', rfl⟩ : ∃ g0', g0 = s0 :: g0' := by
    obtain ⟨x, g0', rfl⟩ := List.exists_cons_of_ne_nil (hclose g0 (by simp)).1
    rw [List.flatten_cons, List.cons_append] at hgs
    rw [(List.cons.inj hgs).1]
    exact ⟨_, rfl⟩
  cases u1 with
  | @cons _ t0 _ T w1 w2 =>
    have ht0 : t0.start = tr0.start := by simpa using u4
    obtain ⟨r, hr⟩ : ∃ r, (s0 :: g0').getLast? = some r := ⟨_, List.getLast?_eq_some_getLast (by simp)⟩
    have hstop := sessions_stop (hlg _ (by simp)) (hordg _ (by simp)) s0 (by simp) r hr
    have hend := w1.2 r.span (by rw [List.getLast?_map, hr]; rfl)
    have hend1 : r.stop - 25 / 1000 < (t0.stop : Rat) / 100 := hend.1
    have hbegin := abs_le.mp (w1.1 s0.span (by simp))
    have hbegin1 : -(5 / 1000) ≤ (t0.start : Rat) / 100 - s0.start := hbegin.1
    have hbegin2 : (t0.start : Rat) / 100 - s0.start ≤ 5 / 1000 := hbegin.2
    have hk : t0.start + 100 ≤ t0.stop := by
      have : ((t0.start + 99 : Int) : Rat) < t0.stop := by push_cast; linarith
      have : t0.start + 99 < t0.stop := by exact_mod_cast this
      omega
    obtain ⟨t, v1, v2, v3, v4⟩ := from_traces u2 (h := h) (by omega) (by rw [ht0]; exact c5) (by omega)
    have hsam : samples (t :: T) = samples out := by rw [v4, c7, u5]
    have hgap : NoShortGap (samples out) := by
      have ho := (traces_inOrder hall hl' (by rw [List.isChain_map]; exact horder)).1
      have hch : (s0 :: ss).IsChain fun x y => y.start - x.stop ≤ 1 / 100 ∨ 1 ≤ y.start - x.stop := by
        rw [← hgs]
        refine (List.isChain_flatten hcl).mpr ⟨fun g hg => (hclose g hg).2.imp fun _ _ h => .inl h, hpause.imp fun g g' hp x hx y hy => .inr (hp x hx y hy)⟩
      have ha := traces_apart hall hl' (by rw [List.isChain_map]; exact hch)
      rw [c7]
      exact (fillIn_apart ho.2 ha).suffix (from_is_suffix (fillIn_increasing ho.2) h)
    refine ⟨hgap, t, T, v3, hsam, ?_, ?_, ?_, ?_, ?_⟩
    · rw [v1]; omega
    · rw [v1]
      have : t0.start ≤ h / 10000 := by omega
      have : (t0.start : Rat) ≤ ((h / 10000 : Int) : Rat) := by exact_mod_cast this
      linarith
    · rw [v1]
      have : h / 10000 < t0.start + 100 := by omega
      have : ((h / 10000 : Int) : Rat) < ((t0.start + 100 : Int) : Rat) := by exact_mod_cast this
      push_cast at this ⊢
      linarith
    · intro x hx
      rw [v2]
      exact w1.2 x.span (by rw [List.getLast?_map, hx]; rfl)
    · refine w2.imp fun g t hg => ⟨fun x hx => ?_, fun x hx => ?_⟩
      · exact hg.1 x.span (by rw [List.head?_map, hx]; rfl)
      · exact hg.2 x.span (by rw [List.getLast?_map, hx]; rfl)

theorem report_lines {gs : List (List Session)} {id : List Nat} {t : Trace} {T : List Trace} (hlen : gs.length = T.length) :
    some (if (t :: T).length ≤ 1 then [] else (t :: T).map fun t => (id, t.start, t.stop)) =
      some (if gs = [] then [] else (id, t.start, t.stop) :: (T.map fun t => (t.start, t.stop)).map fun l => (id, l.1, l.2)) := by
  congr 1
  by_cases he : gs = []
  · subst he
    rw [if_pos rfl, if_pos (by simp at hlen; simp [hlen])]
  · have : gs.length ≠ 0 := by simpa using he
    rw [if_neg he, if_neg (by simp only [List.length_cons]; omega)]
    simp

/-- The report on the files of a conversion that writes the samples of one trace per session. -/
theorem report_of_sessions (env : Env) (dir : List Entry) (SN : List Nat) (nums : List (Option Int)) (ns : List Int)
    (hns : convertNums true dir SN nums = .ok ns) (blockdays : Rat) (m t2 : Int) (hm : 0 < m) (s0 : Session) (ss : List Session)
    (horder : (s0 :: ss).IsChain fun x y => x.stop < y.start) (hpos : 1 ≤ s0.start) (hlong : 103 / 100 ≤ s0.stop - s0.start)
    (hdate : ∀ r ∈ s0 :: ss, r.stop ≤ 253402300799) (hlongs : ∀ r ∈ s0 :: ss, 1 / 100 ≤ r.stop - r.start)
    (g0 : List Session) (gs : List (List Session)) (hgs : (g0 :: gs).flatten = s0 :: ss)
    (hclose : ∀ g ∈ g0 :: gs, g ≠ [] ∧ g.IsChain fun x y => y.start - x.stop ≤ 1 / 100)
    (hpause : (g0 :: gs).IsChain fun g g' => ∀ x ∈ g.getLast?, ∀ y ∈ g'.head?, 1 ≤ y.start - x.stop) (id fmt : List Nat)
    (tr0 : Trace) (trs : List Trace) (s : CState) (h : Int) (c1 : List.Forall₂ SessionTrace (s0 :: ss) (tr0 :: trs))
    (c2 : Settles (convertDir env true dir SN nums blockdays (10000 * (100 * m)) none t2) (.done s)) (c4 : h % 1000000 = 0)
    (c5 : 10000 * tr0.start ≤ h) (c6 : h < 10000 * tr0.start + 1000000) (c7 : samples s.w.out = from_ h (fillIn (samples (tr0 :: trs)))) :
    ∀ (folder : Dir Trace) (files : List (List Nat)), (∀ f, f ∈ files ↔ ∃ tr ∈ s.w.out, f = convertedName id fmt tr.start) →
      ∃ (first last : Int) (lines : List (Int × Int)),
        checkDiscontinuity (fun f => (folder.writeAll (segmentWrites id fmt s.w.out) f).map fun tr => [(id, tr)]) files =
          some (if gs = [] then [] else (id, first, last) :: lines.map fun l => (id, l.1, l.2)) ∧
        first % 100 = 0 ∧ s0.start - 5 / 1000 ≤ (first : Rat) / 100 ∧ (first : Rat) / 100 < s0.start + 1 + 5 / 1000 ∧ EndsWith g0 last ∧
        List.Forall₂ (fun g l => StartsWith g l.1 ∧ EndsWith g l.2) gs lines := by
  obtain ⟨hgap, t, T, v3, hsam, v5, v6, v7, v8, w2⟩ := groups_found s0 ss horder hlong hlongs g0 gs hgs hclose hpause tr0 trs s.w.out h c1 c4 c5 c6 c7
  have c2' := c2
  rw [convertDir_loops hns] at c2'
  obtain ⟨_, N, hN⟩ := c2'
  have hrun := hN N (le_refl _)
  have hw : (convertLoops (jobOf env dir SN ns blockdays (10000 * (100 * m)) t2) none N).written = s.w.out := by rw [hrun]; rfl
  have hne := (written_parted (jobOf env dir SN ns blockdays (10000 * (100 * m)) t2) (l := 100 * m) (by omega) rfl none (by simp) N).1
  rw [hw] at hne
  have hdat : ∀ tr ∈ s.w.out, Datable tr.start := by
    intro tr htr
    obtain ⟨x, hx⟩ := mem_samples_start htr (hne tr htr)
    have hx' := hx
    rw [c7] at hx
    have hge : h ≤ 10000 * tr.start := by
      have := (List.mem_filter.mp hx).2
      simpa using this
    rw [← hsam] at hx'
    obtain ⟨t', ht', hx'⟩ := List.mem_flatMap.mp hx'
    have hle := sample_le_stop hx'
    have hb' : (t'.stop : Rat) / 100 ≤ 253402300799 := by
      have key : ∃ r ∈ s0 :: ss, (t'.stop : Rat) / 100 ≤ r.stop - 5 / 1000 := by
        have hg : ∃ g ∈ g0 :: gs, EndsWith g t'.stop := by
          rcases List.mem_cons.mp ht' with rfl | ht'
          · exact ⟨g0, by simp, v8⟩
          · obtain ⟨g, hg, hgt⟩ := forall₂_right w2 t' ht'
            exact ⟨g, List.mem_cons_of_mem _ hg, hgt.2⟩
        obtain ⟨g, hg, hgt⟩ := hg
        obtain ⟨r, hr⟩ : ∃ r, g.getLast? = some r := ⟨_, List.getLast?_eq_some_getLast (hclose g hg).1⟩
        refine ⟨r, ?_, (hgt r hr).2⟩
        rw [← hgs]
        exact List.mem_flatten.mpr ⟨g, hg, List.mem_of_getLast? hr⟩
      obtain ⟨r, hr, hr'⟩ := key
      linarith [hdate r hr]
    refine datable_range ?_ ?_
    · have hb0 := abs_le.mp (List.forall₂_cons.mp c1).1.start
      unfold Trace.time at hb0
      have : (0 : Rat) ≤ tr0.start := by linarith [hb0.1]
      have : 0 ≤ tr0.start := by exact_mod_cast this
      omega
    · have : ((t'.stop : Int) : Rat) ≤ ((25340230079900 : Int) : Rat) := by push_cast; linarith
      have : t'.stop ≤ 25340230079900 := by exact_mod_cast this
      simp only at hle
      omega
  obtain ⟨_, hfile⟩ := C36_distinct_partial (jobOf env dir SN ns blockdays (10000 * (100 * m)) t2) m hm
    (show 10000 * (100 * m) = 1000000 * m by ring) N id fmt (by rw [hw]; exact hgap) (by rw [hw]; exact hdat)
  rw [hw] at hfile
  refine fun folder files hfiles => ⟨t.start, t.stop, T.map fun t => (t.start, t.stop), ?_, v5, v6, v7, v8, by rw [List.forall₂_map_right_iff]; exact w2⟩
  rw [report_separate (name := fun tr => convertedName id fmt tr.start) v3 (fun q => by rw [hsam]) hne
    (fun tr htr => by rw [hfile folder tr htr]; rfl) hfiles, report_lines w2.length_eq]

/-- **C128.** The raw files of a logger that was switched off and on any number of times, converted into files of `m` seconds (conditions of `C100_convert`). Let `gs` be its
sessions in groups: within a group each session starts at most 10 ms after the end of the one before, and from group to group at least a second passes. Then
the conversion ends normally, and whatever was in the output folder before: `check_discontinuity`, called on the converted files in any order, prints nothing if there is one group,
and otherwise one line per group, in order of time. The line of the first group starts at the first whole second of the record (up to 5 ms), each other one within
5 ms of the start of its first session, and each ends 5 to 25 ms before its last session does. -/
theorem C128_report (d : RawDisk) (dir : List Entry) (SN : List Nat) (log : Entry → ClockedFile) (nums : List (Option Int)) (ns : List Int)
    (hns : convertNums true dir SN nums = .ok ns) (n : Int) (hn : pyInt SN = some n) (specs : Specs) (hspecs : gemSpecs n = .ok specs)
    (hfit : Reproduces d.fit) (hfit1 : ReproducesLines d.fit) (blockdays : Rat) (m t2 : Int) (hb : 0 < blockdays) (hm : 0 < m)
    (sss : List (List Session)) (s0 : Session) (ss : List Session) (hss : sss.flatten = s0 :: ss)
    (hblocks : List.Forall₂ (BlockOfSessions d dir SN log) (jobOf d.env dir SN ns blockdays (10000 * (100 * m)) t2).blocks sss)
    (horder : (s0 :: ss).IsChain fun x y => x.stop < y.start) (hpos : 1 ≤ s0.start) (hlong : 103 / 100 ≤ s0.stop - s0.start)
    (hfar : ∀ r ∈ s0 :: ss, 1000000 * r.stop + 10000 * (100 * m : Int) + ⌈86400000000 * blockdays⌉ + 1000000 ≤ t2)
    (hdate : ∀ r ∈ s0 :: ss, r.stop ≤ 253402300799)
    (g0 : List Session) (gs : List (List Session)) (hgs : (g0 :: gs).flatten = s0 :: ss)
    (hclose : ∀ g ∈ g0 :: gs, g ≠ [] ∧ g.IsChain fun x y => y.start - x.stop ≤ 1 / 100)
    (hpause : (g0 :: gs).IsChain fun g g' => ∀ x ∈ g.getLast?, ∀ y ∈ g'.head?, 1 ≤ y.start - x.stop) (id fmt : List Nat) :
    ∃ s, Settles (convertDir d.env true dir SN nums blockdays (10000 * (100 * m)) none t2) (.done s) ∧
      ∀ (folder : Dir Trace) (files : List (List Nat)), (∀ f, f ∈ files ↔ ∃ tr ∈ s.w.out, f = convertedName id fmt tr.start) →
        ∃ (first last : Int) (lines : List (Int × Int)),
          checkDiscontinuity (fun f => (folder.writeAll (segmentWrites id fmt s.w.out) f).map fun tr => [(id, tr)]) files =
            some (if gs = [] then [] else (id, first, last) :: lines.map fun l => (id, l.1, l.2)) ∧
          first % 100 = 0 ∧ s0.start - 5 / 1000 ≤ (first : Rat) / 100 ∧ (first : Rat) / 100 < s0.start + 1 + 5 / 1000 ∧ EndsWith g0 last ∧
          List.Forall₂ (fun g l => StartsWith g l.1 ∧ EndsWith g l.2) gs lines := by
  obtain ⟨tr0, trs, s, h, c1, c2, _, c4, c5, c6, c7⟩ := C100_convert d dir SN log nums ns hns n hn specs hspecs hfit hfit1 blockdays (100 * m) t2 hb
    (by omega) sss s0 ss hss hblocks horder hpos hlong hfar
  have hlongs := sessions_long hblocks
  rw [hss] at hlongs
  exact ⟨s, c2, report_of_sessions d.env dir SN nums ns hns blockdays m t2 hm s0 ss horder hpos hlong hdate hlongs g0 gs hgs hclose hpause id fmt tr0 trs s h
    c1 c2 c4 c5 c6 c7⟩

/-- The hypotheses hold for the files of `C100_convert`'s example, converted into files of an hour: three sessions of two seconds, 20 seconds apart, give three lines. -/
example : ∃ s, Settles (convertDir sessDisk.env true sessDir (bytes "012") [none] 1 (10000 * (100 * 3600)) none endOfTime) (.done s) ∧
    ∀ (folder : Dir Trace) (files : List (List Nat)), (∀ f, f ∈ files ↔ ∃ tr ∈ s.w.out, f = convertedName (bytes ".012..HDF") (bytes "MSEED") tr.start) →
      ∃ lines, checkDiscontinuity (fun f => (folder.writeAll (segmentWrites (bytes ".012..HDF") (bytes "MSEED") s.w.out) f).map fun tr =>
        [(bytes ".012..HDF", tr)]) files = some lines ∧ lines.length = 3 := by
  obtain ⟨s, h1, h2⟩ := C128_report sessDisk sessDir (bytes "012") sessOf [none] [1, 2, 30] sess_nums 12 (by decide +kernel)
    (specsOf (7 / 10)) (by decide +kernel) idealFit_reproduces idealFit_line 1 3600 endOfTime (by decide) (by decide)
    [[sessSpan 0, sessSpan 20], [], [sessSpan 40]] (sessSpan 0) [sessSpan 20, sessSpan 40] rfl
    (by
      have hb : (jobOf sessDisk.env sessDir (bytes "012") [1, 2, 30] 1 (10000 * (100 * 3600)) endOfTime).blocks = [[1, 2], [], [30]] := by decide +kernel
      rw [hb]
      exact sess_blocks)
    (by unfold sessSpan; simp only [List.isChain_cons_cons, List.isChain_singleton]; norm_num) (by unfold sessSpan; norm_num)
    (by unfold sessSpan; norm_num)
    (by
      intro r hr
      simp only [List.mem_cons, List.not_mem_nil, or_false] at hr
      rcases hr with rfl | rfl | rfl <;> unfold sessSpan endOfTime <;> norm_num)
    (by
      intro r hr
      simp only [List.mem_cons, List.not_mem_nil, or_false] at hr
      rcases hr with rfl | rfl | rfl <;> unfold sessSpan <;> norm_num)
    [sessSpan 0] [[sessSpan 20], [sessSpan 40]] rfl
    (by
      intro g hg
      simp only [List.mem_cons, List.not_mem_nil, or_false] at hg
      rcases hg with rfl | rfl | rfl <;> exact ⟨by simp, .singleton _⟩)
    (by
      simp only [List.isChain_cons_cons, List.isChain_singleton, List.getLast?_singleton, List.head?_cons, Option.mem_def, Option.some.injEq,
        forall_eq', and_true]
      unfold sessSpan
      norm_num)
    (bytes ".012..HDF") (bytes "MSEED")
  refine ⟨s, h1, fun folder files hf => ?_⟩
  obtain ⟨first, last, lines, e, _, _, _, _, hl⟩ := h2 folder files hf
  refine ⟨_, e, ?_⟩
  have := hl.length_eq
  simp at this ⊢
  omega

end Gemlog
