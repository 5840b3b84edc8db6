import Verif.Model.Tables
import Verif.Props.WholeConvert

/-!
# C67: the metadata and GPS tables of a conversion
-/

namespace Gemlog

/-! ## Specification -/

/-- What the blocks with data hold, in order. -/
def TableJob.dataOf (j : TableJob) (reads : List (List Int)) : List GemData :=
  reads.filterMap fun b =>
    match j.readAll b with
    | .ok g => if g.stream = [] then none else some g
    | .error _ => none

/-- Rows appended for some blocks. -/
def rowsOfBlocks (tb : Tables) (gs : List GemData) : Tables :=
  ⟨tb.metadata ++ gs.flatMap GemData.metadata, tb.gps ++ gs.flatMap GemData.gps, tb.problems ++ gs.flatMap GemData.problems⟩

theorem rows_nil (tb : Tables) : rowsOfBlocks tb [] = tb := by
  unfold rowsOfBlocks; simp

theorem rows_append (tb : Tables) (a b : List GemData) : rowsOfBlocks tb (a ++ b) = rowsOfBlocks (rowsOfBlocks tb a) b := by
  unfold rowsOfBlocks; simp [List.flatMap_append, List.append_assoc]

theorem dataOf_append (j : TableJob) (a b : List (List Int)) : j.dataOf (a ++ b) = j.dataOf a ++ j.dataOf b :=
  List.filterMap_append ..

theorem dataOf_ok {j : TableJob} {b : List Int} {g : GemData} (h : j.readAll b = .ok g) (hg : g.stream ≠ []) : j.dataOf [b] = [g] := by
  unfold TableJob.dataOf
  rw [List.filterMap_cons, h]
  simp only [hg, if_false, List.filterMap_nil]

theorem dataOf_empty {j : TableJob} {b : List Int} {g : GemData} (h : j.readAll b = .ok g) (hg : g.stream = []) : j.dataOf [b] = [] := by
  unfold TableJob.dataOf
  rw [List.filterMap_cons, h]
  simp only [hg, if_true, List.filterMap_nil]

theorem dataOf_error {j : TableJob} {b : List Int} {x : Exc} (h : j.readAll b = .error x) : j.dataOf [b] = [] := by
  unfold TableJob.dataOf
  rw [List.filterMap_cons, h]
  simp only [List.filterMap_nil]

/-! ## The loops with tables do what the loops without do -/

def Run.map {α β : Type} (r : Run α) (f : α → β) : Run β := r.bind fun a => .done (f a)

theorem job_read {j : TableJob} (b : List Int) : j.job.read b = (j.readAll b).map GemData.stream := rfl

theorem firstBlockT_spec (j : TableJob) : ∀ (fuel : Nat) (n1 : Rat) (reads : List (List Int)),
    (∃ n2 g b rd, firstBlockT j fuel n1 reads = .done (n2, g, reads ++ rd ++ [b]) ∧
      firstBlock j.job fuel n1 reads = .done (n2, g.stream, reads ++ rd ++ [b]) ∧ j.dataOf rd = [] ∧ j.readAll b = .ok g ∧ g.stream ≠ []) ∨
    (∃ x, firstBlockT j fuel n1 reads = .raised x [] ∧ firstBlock j.job fuel n1 reads = .raised x []) ∨
    (firstBlockT j fuel n1 reads = .running ∧ firstBlock j.job fuel n1 reads = .running)
  | 0, _, _ => .inr (.inr ⟨rfl, rfl⟩)
  | fuel + 1, n1, reads => by
    rw [firstBlockT, firstBlock]
    by_cases hn : n1 ≤ j.job.last
    · rw [if_pos hn, if_pos hn, job_read]
      have step : j.dataOf [j.job.block n1] = [] →
          (∃ n2 g b rd, firstBlockT j fuel (n1 + 12 * j.blockdays) (reads ++ [j.job.block n1]) = .done (n2, g, reads ++ rd ++ [b]) ∧
            firstBlock j.job fuel (n1 + 12 * j.blockdays) (reads ++ [j.job.block n1]) = .done (n2, g.stream, reads ++ rd ++ [b]) ∧
            j.dataOf rd = [] ∧ j.readAll b = .ok g ∧ g.stream ≠ []) ∨
          (∃ x, firstBlockT j fuel (n1 + 12 * j.blockdays) (reads ++ [j.job.block n1]) = .raised x [] ∧
            firstBlock j.job fuel (n1 + 12 * j.blockdays) (reads ++ [j.job.block n1]) = .raised x []) ∨
          (firstBlockT j fuel (n1 + 12 * j.blockdays) (reads ++ [j.job.block n1]) = .running ∧
            firstBlock j.job fuel (n1 + 12 * j.blockdays) (reads ++ [j.job.block n1]) = .running) := by
        intro hd
        rcases firstBlockT_spec j fuel (n1 + 12 * j.blockdays) (reads ++ [j.job.block n1]) with ⟨n2, g, b, rd, h1, h2, h3, h4⟩ | h | h
        · refine .inl ⟨n2, g, b, [j.job.block n1] ++ rd, ?_, ?_, ?_, h4⟩
          · rw [h1]; simp [List.append_assoc]
          · rw [h2]; simp [List.append_assoc]
          · rw [dataOf_append, hd, h3]; rfl
        · exact .inr (.inl h)
        · exact .inr (.inr h)
      cases hr : j.readAll (j.job.block n1) with
      | error x =>
        simp only [Except.map]
        by_cases hx : x.skipsBlock = true
        · simp only [hx, if_true]
          exact step (dataOf_error hr)
        · simp only [hx]
          exact .inr (.inl ⟨x, rfl, rfl⟩)
      | ok g =>
        simp only [Except.map]
        cases hg : g.stream with
        | nil =>
          simp only [if_true]
          exact step (dataOf_empty hr hg)
        | cons t d =>
          simp only [List.cons_ne_nil, if_false]
          refine .inl ⟨n1 + 12 * j.blockdays, g, j.job.block n1, [], ?_, ?_, rfl, hr, by rw [hg]; simp⟩
          · rw [List.append_nil]
          · rw [List.append_nil, hg]; rfl
    · rw [if_neg hn, if_neg hn]
      exact .inr (.inl ⟨_, rfl, rfl⟩)

theorem gpsRows (a b : List Fix) : (if b.length > 0 then a ++ b else a) = a ++ b := by
  cases b <;> simp

theorem readBlocksT_spec (j : TableJob) (tt2 : Int) (out : List Trace) : ∀ (fuel : Nat) (n1 : Rat) (p : List Trace) (reads : List (List Int))
    (tb : Tables),
    (∃ n2 p' rd, readBlocksT j tt2 out fuel n1 p reads tb = .done (n2, p', reads ++ rd, rowsOfBlocks tb (j.dataOf rd)) ∧
      readBlocks j.job tt2 out fuel n1 p reads = .done (n2, p', reads ++ rd)) ∨
    (∃ x, readBlocksT j tt2 out fuel n1 p reads tb = .raised x out ∧ readBlocks j.job tt2 out fuel n1 p reads = .raised x out) ∨
    (readBlocksT j tt2 out fuel n1 p reads tb = .running ∧ readBlocks j.job tt2 out fuel n1 p reads = .running)
  | 0, _, _, _, _ => .inr (.inr ⟨rfl, rfl⟩)
  | fuel + 1, n1, p, reads, tb => by
    rw [readBlocksT, readBlocks]
    cases hp : p.getLast? with
    | none => exact .inr (.inl ⟨_, rfl, rfl⟩)
    | some tr =>
      simp only
      by_cases hn : 10000 * tr.stop < tt2 ∧ n1 ≤ j.job.last
      · rw [if_pos hn, if_pos hn, job_read]
        have step : ∀ p1 tb1, tb1 = rowsOfBlocks tb (j.dataOf [j.job.block n1]) →
            (∃ n2 p' rd, readBlocksT j tt2 out fuel (n1 + 12 * j.blockdays) p1 (reads ++ [j.job.block n1]) tb1
                = .done (n2, p', reads ++ rd, rowsOfBlocks tb (j.dataOf rd)) ∧
              readBlocks j.job tt2 out fuel (n1 + 12 * j.blockdays) p1 (reads ++ [j.job.block n1]) = .done (n2, p', reads ++ rd)) ∨
            (∃ x, readBlocksT j tt2 out fuel (n1 + 12 * j.blockdays) p1 (reads ++ [j.job.block n1]) tb1 = .raised x out ∧
              readBlocks j.job tt2 out fuel (n1 + 12 * j.blockdays) p1 (reads ++ [j.job.block n1]) = .raised x out) ∨
            (readBlocksT j tt2 out fuel (n1 + 12 * j.blockdays) p1 (reads ++ [j.job.block n1]) tb1 = .running ∧
              readBlocks j.job tt2 out fuel (n1 + 12 * j.blockdays) p1 (reads ++ [j.job.block n1]) = .running) := by
          intro p1 tb1 htb
          rcases readBlocksT_spec j tt2 out fuel (n1 + 12 * j.blockdays) p1 (reads ++ [j.job.block n1]) tb1 with ⟨n2, p', rd, h1, h2⟩ | h | h
          · refine .inl ⟨n2, p', [j.job.block n1] ++ rd, ?_, ?_⟩
            · rw [h1, htb, dataOf_append, rows_append, List.append_assoc]
            · rw [h2, List.append_assoc]
          · exact .inr (.inl h)
          · exact .inr (.inr h)
        cases hr : j.readAll (j.job.block n1) with
        | error x =>
          simp only [Except.map]
          by_cases hx : x.skipsBlock = true
          · simp only [hx, if_true]
            exact step p tb (by rw [dataOf_error hr, rows_nil])
          · simp only [hx]
            exact .inr (.inl ⟨x, rfl, rfl⟩)
        | ok g =>
          simp only [Except.map]
          cases hg : g.stream with
          | nil =>
            simp only [if_true]
            exact step p tb (by rw [dataOf_empty hr hg, rows_nil])
          | cons t d =>
            simp only [List.cons_ne_nil, if_false]
            refine step _ _ ?_
            rw [dataOf_ok hr (by rw [hg]; simp), gpsRows]
            unfold rowsOfBlocks
            simp
      · rw [if_neg hn, if_neg hn]
        exact .inl ⟨n1, p, [], by rw [show j.dataOf [] = [] from rfl, rows_nil, List.append_nil], by rw [List.append_nil]⟩

theorem mainLoopT_spec (j : TableJob) : ∀ (fuel : Nat) (s : CState) (tb : Tables),
    (∃ s' rd, mainLoopT j fuel s tb = .done (s', rowsOfBlocks tb (j.dataOf rd)) ∧ mainLoop j.job fuel s = .done s' ∧
      s'.reads = s.reads ++ rd) ∨
    (∃ x o, mainLoopT j fuel s tb = .raised x o ∧ mainLoop j.job fuel s = .raised x o) ∨
    (mainLoopT j fuel s tb = .running ∧ mainLoop j.job fuel s = .running)
  | 0, _, _ => .inr (.inr ⟨rfl, rfl⟩)
  | fuel + 1, s, tb => by
    rw [mainLoopT, mainLoop]
    by_cases h1 : s.n1 > j.job.last
    · rw [if_pos h1, if_pos h1]
      exact .inl ⟨s, [], by rw [show j.dataOf [] = [] from rfl, rows_nil], rfl, by simp⟩
    · rw [if_neg h1, if_neg h1]
      rw [show j.job.t2 = j.t2 from rfl, show j.job.L = j.L from rfl]
      by_cases h2 : s.t1 > j.t2
      · rw [if_pos h2, if_pos h2]
        exact .inl ⟨s, [], by rw [show j.dataOf [] = [] from rfl, rows_nil], rfl, by simp⟩
      · rw [if_neg h2, if_neg h2]
        dsimp only
        rcases readBlocksT_spec j (min j.t2 (truncTime s.t1 j.job.day + j.job.day)) s.w.out fuel s.n1 s.w.p
          s.reads tb with ⟨n2, p', rd, e1, e2⟩ | ⟨x, e1, e2⟩ | ⟨e1, e2⟩
        · rw [e1, e2]
          simp only [Run.bind]
          cases hw : writeFull j.L j.t2 fuel { s.w with p := p' } with
          | raised x o => exact .inr (.inl ⟨x, o, rfl, rfl⟩)
          | running => exact .inr (.inr ⟨rfl, rfl⟩)
          | done w =>
            simp only
            cases ht : trimStream w.h j.t2 w.p with
            | error x => exact .inr (.inl ⟨x, _, rfl, rfl⟩)
            | ok p3 =>
              simp only
              rcases mainLoopT_spec j fuel ⟨n2, truncTime (min j.t2 (truncTime s.t1 j.job.day + j.job.day)
                + j.job.day + 1000000) j.job.day, { w with p := p3 }, s.reads ++ rd⟩
                (rowsOfBlocks tb (j.dataOf rd)) with ⟨s', rd', f1, f2, f3⟩ | h | h
              · refine .inl ⟨s', rd ++ rd', ?_, f2, ?_⟩
                · rw [f1, dataOf_append, rows_append]
                · rw [f3, List.append_assoc]
              · exact .inr (.inl h)
              · exact .inr (.inr h)
        · rw [e1, e2]
          exact .inr (.inl ⟨x, _, rfl, rfl⟩)
        · rw [e1, e2]
          exact .inr (.inr ⟨rfl, rfl⟩)

/-- The tables after reading some blocks: of the first block with data all status rows, and the fixes later than a second before the start
`t1` (by default the first whole second of its data); of the other blocks with data all rows. -/
def tablesFor (t1 : Option Int) (gs : List GemData) : Tables :=
  match gs with
  | [] => ⟨[], [], []⟩
  | g :: gs =>
    let from1 : Rat := match t1 with
      | some t => t
      | none => ((1000000 * ⌈(10000 * ((mergeGaps g.stream).headD ⟨0, []⟩).start : Rat) / 1000000⌉ : Int) : Rat)
    ⟨(g :: gs).flatMap GemData.metadata, (g.gps.filter fun f => decide (from1 - 1000000 < 1000000 * f.t)) ++ gs.flatMap GemData.gps,
      (g :: gs).flatMap GemData.problems⟩

theorem ceil_whole (k : Int) : 1000000 * (-((-10000 * k) / 1000000)) = 1000000 * ⌈(10000 * k : Rat) / 1000000⌉ := by
  congr 1
  have h : ((10000 * k : Int) : Rat) / ((1000000 : Nat) : Rat) = (10000 * k : Rat) / 1000000 := by push_cast; rfl
  have h2 := Rat.floor_intCast_div_natCast (-10000 * k) 1000000
  rw [show (10000 * k : Rat) / 1000000 = -(((-10000 * k : Int) : Rat) / ((1000000 : Nat) : Rat)) by push_cast; ring, Int.ceil_neg, h2]
  rfl

/-- **C67.** Whatever the files hold and however the loops go: `convert` with its tables does what it does without them; and when it ends, the
tables hold the rows of exactly the blocks read that have data, in order and once. -/
theorem C67_tables (j : TableJob) (t1 : Option Int) (fuel : Nat) :
    convertT j t1 fuel = (convertLoops j.job t1 fuel).map fun s => (s, tablesFor t1 (j.dataOf s.reads)) := by
  unfold convertT
  rw [convertLoops_eq]
  rcases firstBlockT_spec j fuel (j.nums.head?.getD 0) [] with ⟨n2, g, b, rd, h1, h2, h3, h4, h5⟩ | ⟨x, h1, h2⟩ | ⟨h1, h2⟩
  · rw [h1, show firstBlock j.job fuel (j.job.nums.head?.getD 0) [] = _ from h2]
    simp only [Run.bind, startRun]
    have hd : j.dataOf ([] ++ rd ++ [b]) = [g] := by rw [List.nil_append, dataOf_append, h3, dataOf_ok h4 h5]; rfl
    cases hst : startTime t1 g.stream with
    | error x => rfl
    | ok r =>
      obtain ⟨p, t⟩ := r
      simp only
      have hfrom : tablesFor t1 (g :: []) = ⟨g.metadata, g.gps.filter fun f => decide (1000000 * f.t > (t : Rat) - 1000000), g.problems⟩ := by
        unfold tablesFor
        cases t1 with
        | some u =>
          simp only [startTime, Except.ok.injEq, Prod.mk.injEq] at hst
          rw [← hst.2]
          simp
        | none =>
          unfold startTime at hst
          simp only at hst
          cases hm : mergeGaps g.stream with
          | nil => rw [hm] at hst; cases hst
          | cons tr rest =>
            rw [hm] at hst
            simp only [Except.ok.injEq, Prod.mk.injEq] at hst
            rw [← hst.2, ceil_whole]
            simp [hm]
      have hrows : ∀ gs, rowsOfBlocks ⟨g.metadata, g.gps.filter fun f => decide (1000000 * f.t > (t : Rat) - 1000000), g.problems⟩ gs
          = tablesFor t1 (g :: gs) := by
        intro gs
        rw [← hfrom]
        unfold rowsOfBlocks tablesFor
        simp
      generalize hc : CState.mk n2 t (WState.mk p _ []) ([] ++ rd ++ [b]) = c
      have hcr : c.reads = [] ++ rd ++ [b] := by rw [← hc]
      rcases mainLoopT_spec j fuel c
        ⟨g.metadata, g.gps.filter fun f => decide (1000000 * f.t > (t : Rat) - 1000000), g.problems⟩ with ⟨s', rd', e1, e2, e3⟩ | ⟨x, o, e1, e2⟩ | ⟨e1, e2⟩
      · rw [e1, e2]
        simp only
        rw [show j.job.t2 = j.t2 from rfl, show j.job.L = j.L from rfl]
        cases hw : writeRest j.L j.t2 fuel s'.w with
        | raised x o => rfl
        | running => rfl
        | done w =>
          show Run.done _ = Run.done _
          rw [hrows]
          congr 2
          simp only
          rw [e3, hcr, dataOf_append]
          rw [hd]
          rfl
      · rw [e1, e2]; rfl
      · rw [e1, e2]; rfl
  · rw [h1, show firstBlock j.job fuel (j.job.nums.head?.getD 0) [] = _ from h2]; rfl
  · rw [h1, show firstBlock j.job fuel (j.job.nums.head?.getD 0) [] = _ from h2]; rfl

theorem convertT_settles {j : TableJob} {t1 : Option Int} {s : CState} (h : Settles (convertLoops j.job t1) (.done s)) :
    Settles (convertT j t1) (.done (s, tablesFor t1 (j.dataOf s.reads))) := by
  obtain ⟨_, N, hN⟩ := h
  refine ⟨by simp, N, fun n hn => ?_⟩
  rw [C67_tables, hN n hn]
  rfl

theorem dataOf_streams (j : TableJob) : ∀ bs, (j.dataOf bs).flatMap GemData.stream = j.job.record bs
  | [] => rfl
  | b :: bs => by
    rw [show b :: bs = [b] ++ bs from rfl, dataOf_append, List.flatMap_append, dataOf_streams j bs]
    unfold Job.record
    rw [List.flatMap_append]
    congr 1
    rw [List.flatMap_singleton]
    unfold Job.streamOf
    rw [job_read]
    cases h : j.readAll b with
    | error x => rw [dataOf_error h]; rfl
    | ok g =>
      by_cases hg : g.stream = []
      · rw [dataOf_empty h hg]; exact hg.symm
      · rw [dataOf_ok h hg]; simp [Except.map]

theorem dataOf_ne {j : TableJob} {bs : List (List Int)} {g : GemData} (h : g ∈ j.dataOf bs) : g.stream ≠ [] := by
  unfold TableJob.dataOf at h
  obtain ⟨b, _, hb⟩ := List.mem_filterMap.mp h
  split at hb
  · split_ifs at hb with hg
    cases hb
    exact hg
  · cases hb

theorem dataOf_nil {j : TableJob} {bs : List (List Int)} (h : j.job.record bs = []) : j.dataOf bs = [] := by
  rw [← dataOf_streams] at h
  cases hd : j.dataOf bs with
  | nil => rfl
  | cons g gs =>
    rw [hd, List.flatMap_cons] at h
    exact absurd (List.append_eq_nil_iff.mp h).1 (dataOf_ne (bs := bs) (by rw [hd]; simp))

theorem dataOf_first {j : TableJob} {d1 rest : List Trace} (h : FirstData j.job d1 rest) :
    ∃ g gs, j.dataOf j.job.blocks = g :: gs ∧ g.stream = d1 := by
  obtain ⟨⟨before, b, after, h1, h2, h3, _⟩, hne⟩ := h
  rw [h1, show before ++ b :: after = before ++ ([b] ++ after) from rfl, dataOf_append, dataOf_append, dataOf_nil h2]
  unfold Job.streamOf at h3
  rw [job_read] at h3
  cases hr : j.readAll b with
  | error x => rw [hr] at h3; exact absurd h3.symm hne
  | ok g =>
    rw [hr] at h3
    have h3' : g.stream = d1 := h3
    exact ⟨g, j.dataOf after, by rw [dataOf_ok hr (by rw [h3']; exact hne)]; rfl, h3'⟩

theorem merged_start {d1 : List Trace} (ho : InOrder d1) {k x0 : Int} (hk : (samples d1).head? = some (k, x0)) :
    ((mergeGaps d1).headD ⟨0, []⟩).start = k := by
  have hne : d1 ≠ [] := by rintro rfl; simp [samples] at hk
  have hom := inOrder_mergeGaps ho
  obtain ⟨tr, p, hp⟩ := List.exists_cons_of_ne_nil (mergeGaps_ne ho hne)
  rw [hp] at hom ⊢
  obtain ⟨y, r, e⟩ := head_samples (p := p) (hom.1 tr (by simp))
  have e2 := samples_mergeGaps ho
  rw [hp, e] at e2
  cases hs : samples d1 with
  | nil => rw [hs] at hk; simp at hk
  | cons q l =>
    rw [hs] at hk e2
    simp only [List.head?_cons, Option.some.injEq] at hk
    obtain ⟨t, ht⟩ := fillIn_cons q l
    rw [ht, hk] at e2
    simp only [List.cons.injEq, Prod.mk.injEq] at e2
    exact e2.1.1

theorem whole_second {k h : Int} (hh1 : h % 1000000 = 0) (hh2 : 10000 * k ≤ h) (hh3 : h < 10000 * k + 1000000) :
    1000000 * ⌈(10000 * k : Rat) / 1000000⌉ = h := by
  rw [← ceil_whole]
  omega

/-- **C67.** Under the conditions of `C29_nothing_lost` the metadata file holds the status rows of all blocks with data, in order and once, the
problems of these blocks are reported, and the GPS file holds all fixes of the blocks with data but those of the first earlier than a second
before the start. -/
theorem C67_all_blocks (j : TableJob) (l : Int) (hb : 0 < j.blockdays) (hl : 0 < l) (hL : j.L = 10000 * l)
    (hs : j.job.OnlySkips) (d1 rest : List Trace) (hd : FirstData j.job d1 rest) (ho : InOrder (d1 ++ rest))
    (hpos : ∀ q ∈ samples (d1 ++ rest), 0 ≤ q.1)
    (hfar : ∀ q ∈ samples (d1 ++ rest), 10000 * q.1 + j.L + j.job.day + 1000000 ≤ j.t2)
    (k x0 h : Int) (hk : (samples d1).head? = some (k, x0)) (hh1 : h % 1000000 = 0) (hh2 : 10000 * k ≤ h)
    (hh3 : h < 10000 * k + 1000000) (hh4 : ∃ q ∈ samples (d1 ++ rest), h ≤ 10000 * q.1) :
    ∃ s tb, Settles (convertT j none) (.done (s, tb)) ∧
      tb.metadata = (j.dataOf j.job.blocks).flatMap GemData.metadata ∧
      tb.problems = (j.dataOf j.job.blocks).flatMap GemData.problems ∧
      tb.gps.Sublist ((j.dataOf j.job.blocks).flatMap GemData.gps) ∧
      (∀ f ∈ (j.dataOf j.job.blocks).flatMap GemData.gps, (h : Rat) - 1000000 < 1000000 * f.t → f ∈ tb.gps) := by
  obtain ⟨s, h1, _, h3⟩ := C29_nothing_lost j.job l hb hl hL hs d1 rest hd ho hpos hfar k x0 h hk hh1 hh2 hh3 hh4
  refine ⟨s, _, convertT_settles h1, ?_⟩
  rw [h3]
  obtain ⟨g, gs, e1, e2⟩ := dataOf_first hd
  rw [e1]
  unfold tablesFor
  simp only
  rw [e2, merged_start (inOrder_append.mp ho).1 hk, whole_second hh1 hh2 hh3]
  refine ⟨trivial, trivial, ?_, ?_⟩
  · rw [List.flatMap_cons]
    exact (List.filter_sublist).append_right _
  · intro f hf hlate
    rw [List.flatMap_cons] at hf
    rcases List.mem_append.mp hf with hf | hf
    · exact List.mem_append_left _ (List.mem_filter.mpr ⟨hf, by simpa using hlate⟩)
    · exact List.mem_append_right _ hf

/-! ## Recordings without defects -/

/-- The status rows logged in some files. -/
def loggedStatus (log : Entry → List Event) (files : List Entry) : List (Rat × List (Option Rat)) :=
  (files.flatMap fun e => (log e).filterMap Event.statusRow).map fun p => (p.1, p.2.map some)

/-- The fixes logged in some files, with the time in UTC at which the logger's clock showed the logged time. -/
def loggedFixes (log : Entry → List Event) (r : BlockSpan) (files : List Entry) : List (Rat × Rat × Option Rat × Option Rat) :=
  (files.flatMap fun e => (log e).filterMap Event.fixPoint).map fun p => (p.1, r.offset + r.rate * p.1, some p.2.1, some p.2.2)

def fixRow (f : Fix) : Rat × Rat × Option Rat × Option Rat := (f.msPPS, f.t, f.lat, f.lon)

def statusCells (m : Rat × List (Option Rat) × Option Rat) : Rat × List (Option Rat) := (m.1, m.2.1)

theorem dataOf_clean {d : RawDisk} {dir : List Entry} {SN : List Nat} {log : Entry → List Event} (n : Int) (hn : pyInt SN = some n)
    (specs : Specs) (hspecs : gemSpecs n = .ok specs) (hfit : Reproduces d.fit) (hfit1 : ReproducesLines d.fit) (j : TableJob)
    (hj : ∀ block, j.readAll block = readGem d.env dir SN block true) {bs : List (List Int)} {qs : List BlockSpan}
    (h : List.Forall₂ (fun block r => ∃ first rest, CleanBlock d dir SN log block r first rest) bs qs) :
    List.Forall₂ (fun (q : List Int × BlockSpan) g => ∃ tr, g.stream = [tr] ∧ TraceOver q.2 tr ∧ g.problems = [] ∧
      g.gps.map fixRow = loggedFixes log q.2 (findFiles dir SN q.1) ∧ g.metadata.map statusCells = loggedStatus log (findFiles dir SN q.1))
      (bs.zip qs) (j.dataOf bs) := by
  induction h with
  | nil => exact .nil
  | @cons b q bs qs hr _ ih =>
    obtain ⟨g, tr, h1, h2, h3, h4, h5, h6⟩ := cleanBlock_trace hr n hn specs hspecs hfit hfit1
    rw [show b :: bs = [b] ++ bs from rfl, dataOf_append, dataOf_ok ((hj b).trans h1) (by rw [h2]; simp)]
    exact .cons ⟨tr, h2, h3, h4, h5, h6⟩ ih

theorem forall₂_flatMap {α β γ : Type} {R : α → β → Prop} {f : α → List γ} {g : β → List γ} {as : List α} {bs : List β}
    (h : List.Forall₂ R as bs) (hR : ∀ a b, R a b → g b = f a) : bs.flatMap g = as.flatMap f := by
  induction h with
  | nil => rfl
  | cons h1 _ ih => rw [List.flatMap_cons, List.flatMap_cons, hR _ _ h1, ih]

/-- **C67.** When all blocks hold a recording without defects (the conditions of `C66_convert`): the metadata file holds exactly the status
rows logged in all files, in order; the GPS file exactly the fixes logged in all files, at their true times, but those of the first block
earlier than a second before the first whole second of its data; and no problem is reported. -/
theorem C67_clean (d : RawDisk) (dir : List Entry) (SN : List Nat) (log : Entry → List Event) (nums : List (Option Int)) (ns : List Int)
    (hns : convertNums true dir SN nums = .ok ns) (n : Int) (hn : pyInt SN = some n) (specs : Specs) (hspecs : gemSpecs n = .ok specs)
    (hfit : Reproduces d.fit) (hfit1 : ReproducesLines d.fit) (blockdays : Rat) (l t2 : Int) (hb : 0 < blockdays) (hl : 0 < l)
    (r0 : BlockSpan) (rs : List BlockSpan)
    (hblocks : List.Forall₂ (fun block r => ∃ first rest, CleanBlock d dir SN log block r first rest)
      (jobOf d.env dir SN ns blockdays (10000 * l) t2).blocks (r0 :: rs))
    (horder : (r0 :: rs).IsChain fun x y => x.stop < y.start) (hpos : 1 ≤ r0.start) (hlong : 103 / 100 ≤ r0.stop - r0.start)
    (hfar : ∀ r ∈ r0 :: rs, 1000000 * r.stop + 10000 * l + ⌈86400000000 * blockdays⌉ + 1000000 ≤ t2) :
    ∃ s tb, Settles (convertT (tableJobOf d.env dir SN ns blockdays (10000 * l) t2) none) (.done (s, tb)) ∧
      Settles (convertDir d.env true dir SN nums blockdays (10000 * l) none t2) (.done s) ∧
      tb.problems = [] ∧
      tb.metadata.map statusCells = (jobOf d.env dir SN ns blockdays (10000 * l) t2).blocks.flatMap
        (fun block => loggedStatus log (findFiles dir SN block)) ∧
      ∃ (h : Int) (b0 : List Int) (bs : List (List Int)), h % 1000000 = 0 ∧ r0.start - 5 / 1000 ≤ (h : Rat) / 1000000 ∧
        (h : Rat) / 1000000 < r0.start + 1005 / 1000 ∧ (jobOf d.env dir SN ns blockdays (10000 * l) t2).blocks = b0 :: bs ∧
        tb.gps.map fixRow =
          (loggedFixes log r0 (findFiles dir SN b0)).filter (fun p => decide ((h : Rat) / 1000000 - 1 < p.2.1)) ++
          (bs.zip rs).flatMap (fun q => loggedFixes log q.2 (findFiles dir SN q.1)) := by
  obtain ⟨tr0', trs', s, h', _, hset, hreads, _⟩ := C66_convert d dir SN log nums ns hns n hn specs hspecs hfit hfit1 blockdays l t2 hb hl r0 rs
    hblocks horder hpos hlong hfar
  obtain ⟨j, hj⟩ : ∃ j, j = tableJobOf d.env dir SN ns blockdays (10000 * l) t2 := ⟨_, rfl⟩
  have hjj : jobOf d.env dir SN ns blockdays (10000 * l) t2 = j.job := by rw [hj]; rfl
  have hset' : Settles (convertLoops j.job none) (.done s) := by
    have : convertDir d.env true dir SN nums blockdays (10000 * l) none t2 = convertLoops j.job none := by
      funext fuel
      unfold convertDir
      rw [hns, ← hjj]
    rwa [this] at hset
  have hsets := convertT_settles hset'
  rw [hjj] at hreads hblocks ⊢
  rw [hreads] at hsets
  have hdata := dataOf_clean n hn specs hspecs hfit hfit1 j (by rw [hj]; intro _; rfl) hblocks
  rw [← hj]
  refine ⟨s, _, hsets, hset, ?_⟩
  generalize hbs : j.job.blocks = bs at hblocks hdata hsets
  cases hblocks with
  | @cons b0 _ bs' _ hb0 hbs0 =>
    generalize hgs : j.dataOf (b0 :: bs') = gs at hdata hsets
    have hmeta : gs.flatMap (fun g => g.metadata.map statusCells) = ((b0 :: bs').zip (r0 :: rs)).flatMap
        (fun q => loggedStatus log (findFiles dir SN q.1)) := forall₂_flatMap hdata fun q g hq => by
      obtain ⟨_, _, _, _, _, h⟩ := hq
      exact h
    have hzip : ((b0 :: bs').zip (r0 :: rs)).map Prod.fst = b0 :: bs' :=
      List.map_fst_zip (by have := hbs0.length_eq; simp only [List.length_cons]; omega)
    cases hdata with
    | @cons _ g _ gs' hg hgs' =>
      obtain ⟨tr, e1, e2, e3, e4, e5⟩ := hg
      have hne0 := traceOver_ne e2 (by linarith)
      have hom : InOrder [tr] := by
        have hl1 : 1 / 100 ≤ r0.stop - r0.start := by linarith
        exact (traces_inOrder (rs := [r0]) (.cons e2 .nil) (by simpa using hl1) (List.isChain_singleton _)).1
      obtain ⟨x0, lx, hx0⟩ := List.exists_cons_of_ne_nil hne0
      unfold tablesFor
      simp only
      rw [e1, merged_start (k := tr.start) (x0 := x0) hom (by rw [samples_cons, hx0, stamps]; rfl)]
      obtain ⟨h, hh⟩ : ∃ h : Int, h = 1000000 * ⌈(10000 * tr.start : Rat) / 1000000⌉ := ⟨_, rfl⟩
      rw [← hh]
      refine ⟨?_, ?_, h, b0, bs', by omega, ?_, ?_, rfl, ?_⟩
      · have h1 : (g :: gs').flatMap GemData.problems = ((b0 :: bs').zip (r0 :: rs)).flatMap (fun _ => ([] : List (Entry × Exc))) :=
          forall₂_flatMap (List.Forall₂.cons (a := (b0, r0)) ⟨tr, e1, e2, e3, e4, e5⟩ hgs') fun q g hq => by
            obtain ⟨_, _, _, h, _⟩ := hq
            exact h
        rw [h1]
        simp
      · rw [List.map_flatMap, hmeta]
        have h1 := congrArg (fun x : List (List Int) => x.flatMap fun block => loggedStatus log (findFiles dir SN block)) hzip
        simp only [List.flatMap_map] at h1
        exact h1
      · rw [le_div_iff₀ (by norm_num)]
        have h1 := Int.le_ceil ((10000 * tr.start : Rat) / 1000000)
        have h2 := (abs_le.mp e2.start).1
        unfold Trace.time at h2
        push_cast at h2
        rw [hh]
        push_cast
        linarith
      · rw [div_lt_iff₀ (by norm_num)]
        have h1 := Int.ceil_lt_add_one ((10000 * tr.start : Rat) / 1000000)
        have h2 := (abs_le.mp e2.start).2
        unfold Trace.time at h2
        push_cast at h2
        rw [hh]
        push_cast
        linarith
      · rw [List.map_append, List.map_flatMap, forall₂_flatMap hgs' (g := fun g => g.gps.map fixRow)
          (f := fun q => loggedFixes log q.2 (findFiles dir SN q.1)) (fun q g hq => by
            obtain ⟨_, _, _, _, h, _⟩ := hq
            exact h)]
        congr 1
        rw [← e4, List.filter_map]
        congr 1
        refine List.filter_congr fun f _ => ?_
        rw [Function.comp, decide_eq_decide]
        show _ ↔ (h : Rat) / 1000000 - 1 < f.t
        rw [show (h : Rat) / 1000000 - 1 = ((h : Rat) - 1000000) / 1000000 by ring, div_lt_iff₀ (by norm_num), mul_comm]

/-! ## Examples -/

/-- A fix at a time. -/
def gpsAt (ms t : Rat) : Fix :=
  ⟨⟨ms, some 0, some 1970, some 1, some 2, some 2, some 0, some 0, some 43, some (-116)⟩, t⟩

/-- `demoJob` with status rows, fixes and a problem. -/
def demoTables : TableJob where
  nums := [3, 4, 40, 41]
  blockdays := 1
  L := 7200000000
  t2 := 253402300799360500
  readAll := fun b =>
    if b = [3, 4] then .ok ⟨[⟨9359850, [1, 2, 3]⟩, ⟨9359898, [6, 5, 4, 3]⟩, ⟨9359998, [7, 8]⟩], [], [(1, [some 2], none)],
      [gpsAt 1 93597, gpsAt 2 93599], [], specsOf (7 / 10)⟩
    else if b = [40, 41] then .ok ⟨[⟨9360002, [2, 2]⟩, ⟨9360500, [9]⟩], [], [(3, [some 4], none)], [gpsAt 3 93600], [(⟨[], 0, .nan⟩, .other)],
      specsOf (7 / 10)⟩
    else .error .missingRaw

theorem demoTables_job : demoTables.job = demoJob := by
  unfold TableJob.job demoTables demoJob
  congr 1
  funext b
  show Except.map _ (if b = [3, 4] then _ else _) = _
  split_ifs <;> rfl

theorem demoTables_data : demoTables.dataOf [[3, 4], [], [], [40, 41]] =
    [⟨[⟨9359850, [1, 2, 3]⟩, ⟨9359898, [6, 5, 4, 3]⟩, ⟨9359998, [7, 8]⟩], [], [(1, [some 2], none)],
      [gpsAt 1 93597, gpsAt 2 93599], [], specsOf (7 / 10)⟩,
    ⟨[⟨9360002, [2, 2]⟩, ⟨9360500, [9]⟩], [], [(3, [some 4], none)], [gpsAt 3 93600], [(⟨[], 0, .nan⟩, .other)], specsOf (7 / 10)⟩] := by
  rfl

/-- The hypotheses of `C67_all_blocks` hold for `demoTables`. The status rows of both blocks are written, and of the fixes all but the first,
which is two seconds earlier than the first whole second. -/
example : ∃ s tb, Settles (convertT demoTables none) (.done (s, tb)) ∧ tb.metadata = [(1, [some 2], none), (3, [some 4], none)] ∧
    gpsAt 2 93599 ∈ tb.gps ∧ gpsAt 3 93600 ∈ tb.gps := by
  obtain ⟨s, tb, h1, h2, _, _, h5⟩ := C67_all_blocks demoTables 720000 (by decide) (by decide) rfl (by rw [demoTables_job]; exact demoJob_skips) _ _
    (by rw [demoTables_job]; exact demoJob_first)
    ⟨by decide +kernel, by unfold Increasing; decide +kernel⟩ (by decide +kernel) (by decide +kernel) 9359850 1 93599000000
    (by decide +kernel) (by decide) (by decide) (by decide) ⟨(9359900, 4), by decide +kernel, by decide⟩
  rw [show demoTables.job.blocks = [[3, 4], [], [], [40, 41]] by decide +kernel, demoTables_data] at h2 h5
  exact ⟨s, tb, h1, h2, h5 _ (by simp) (by unfold gpsAt; norm_num), h5 _ (by simp) (by unfold gpsAt; norm_num)⟩

/-- **C67, violated.** With a given start the GPS file should hold no fix earlier than a second before it, as for the first block. It can hold
earlier ones: here the start is 93605 s, and the fix of the second block at 93600 s is written although no data before 93605 s are. -/
theorem C67_violated_early_fixes : ∃ (j : TableJob) (t1 : Int) (fuel : Nat) (s : CState) (tb : Tables),
    convertT j (some t1) fuel = .done (s, tb) ∧ samples s.w.out = [(9360500, 9)] ∧ t1 = 93605000000 ∧
    ∃ f ∈ tb.gps, f.t = 93600 ∧ 1000000 * f.t < (t1 : Rat) - 1000000 := by
  have h : convertLoops demoJob (some 93605000000) 20 = .done ⟨51, 259200000000, ⟨[], 100800000000, [⟨9360500, [9]⟩]⟩,
      [[3, 4], [], [], [40, 41]]⟩ := by decide +kernel
  have h' := C67_tables demoTables (some 93605000000) 20
  rw [demoTables_job, h] at h'
  refine ⟨demoTables, 93605000000, 20, _, _, h', rfl, rfl, gpsAt 3 93600, ?_, rfl, ?_⟩
  · rw [demoTables_data]
    exact List.mem_append_right _ (by simp)
  · unfold gpsAt; norm_num

/-- The hypotheses of `C67_clean` hold for the directory of the example of `C66_convert`. -/
example : ∃ s tb, Settles (convertT (tableJobOf longDisk.env longDir (bytes "012") [1, 13] 1 (10000 * 360000) 253402300799000000) none)
    (.done (s, tb)) ∧ tb.problems = [] ∧ tb.metadata.length = 2 := by
  have hbl : (jobOf longDisk.env longDir (bytes "012") [1, 13] 1 (10000 * 360000) 253402300799000000).blocks = [[1], [13]] := by decide +kernel
  obtain ⟨s, tb, h1, _, h3, h4, _⟩ := C67_clean longDisk longDir (bytes "012") longOf [none] [1, 13] (by decide +kernel) 12 (by decide +kernel)
    (specsOf (7 / 10)) (by decide +kernel) idealFit_reproduces idealFit_line 1 360000 253402300799000000 (by decide) (by decide) (longSpan 0) [longSpan 2]
    (by
      rw [hbl]
      exact .cons ⟨_, _, long_block 0 (.inl rfl) 1 _ (.inl ⟨rfl, rfl, rfl⟩)⟩
        (.cons ⟨_, _, long_block 2 (.inr rfl) 13 _ (.inr ⟨rfl, rfl, rfl⟩)⟩ .nil))
    (by unfold longSpan; simp only [List.isChain_cons_cons, List.isChain_singleton]; norm_num) (by unfold longSpan; norm_num)
    (by unfold longSpan; norm_num)
    (by
      intro r hr
      simp only [List.mem_cons, List.not_mem_nil, or_false] at hr
      rcases hr with rfl | rfl <;> unfold longSpan <;> norm_num)
  refine ⟨s, tb, h1, h3, ?_⟩
  have := congrArg List.length h4
  rw [List.length_map, hbl] at this
  rw [this]
  decide +kernel

end Gemlog
