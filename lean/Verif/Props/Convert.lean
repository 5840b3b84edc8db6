import Verif.Lemmas.MainLoop

/-!
# C29, C34: what `convert` writes and reads
-/

namespace Gemlog

/-- The conversion in two steps: the first block, and the rest. -/
def startRun (j : Job) (t1 : Option Int) (fuel : Nat) (r : Rat × List Trace × List (List Int)) : Run CState :=
  match startTime t1 r.2.1 with
  | .error x => .raised x []
  | .ok (p, t1) =>
    let h := match p with
      | [] => t1
      | tr :: _ => max t1 (10000 * tr.start)
    (mainLoop j fuel ⟨r.1, t1, ⟨p, h, []⟩, r.2.2⟩).bind fun s =>
    (writeRest j.L j.t2 fuel s.w).bind fun w => .done { s with w := w }

theorem convertLoops_eq (j : Job) (t1 : Option Int) (fuel : Nat) :
    convertLoops j t1 fuel = (firstBlock j fuel (j.nums.head?.getD 0) []).bind (startRun j t1 fuel) := rfl

/-- From a good start, the conversion writes everything. -/
theorem convert_from {j : Job} {l : Int} (hb : 0 < j.blockdays) (hl : 0 < l) (hL : j.L = 10000 * l)
    {R0 R1 : List (Int × Int)} {full : Prop} (hfar : Far j R1) (n1 : Rat) (t1 h : Int)
    (hs : j.SkipsIn (j.blocksFrom n1)) (p : List Trace) (rd : List (List Int))
    (tr : Trace) (htr : p.getLast? = some tr) (h0 : 0 ≤ h) (ht0 : 0 ≤ t1) (hth : t1 ≤ h)
    (hh : h ≤ 10000 * tr.stop ∨ R0 ≠ [] ∧ h = t1) (hp : Progress R0 R1 full [] p (j.record (j.blocksFrom n1)) h) :
    ∃ s, Settles (fun n => (mainLoop j n ⟨n1, t1, ⟨p, h, []⟩, rd⟩).bind fun s =>
        (writeRest j.L j.t2 n s.w).bind fun w => .done { s with w := w }) (.done s) ∧
      R0.Sublist (samples s.w.out) ∧ (samples s.w.out).Sublist R1 ∧ (full → samples s.w.out = R1) ∧
      s.reads = rd ++ j.blocksFrom n1 := by
  have hd := day_pos hb
  have ht : t1 ≤ j.t2 ∨ n1 > j.last := by
    left
    rcases hh with hh | ⟨g1, g2⟩
    · obtain ⟨x, hx⟩ := progress_last_mem hp htr hh
      have := hfar _ hx
      simp only at this
      omega
    · obtain ⟨q, hq⟩ := List.exists_mem_of_ne_nil _ g1
      have hlow := hp.lower.subset hq
      have hup := hp.upper
      rw [samples_nil, List.nil_append] at hlow hup
      have hq1 := (mem_from.mp hlow).2
      have hq2 := hfar _ (hup.subset ((from_sublist (fillIn_sublist _) _).subset hlow))
      omega
  have hh' : h ≤ 10000 * tr.stop ∨ n1 > j.last ∨
      ([] : List Trace) = [] ∧ R0 ≠ [] ∧ h < truncTime t1 (j.day) + j.day := by
    rcases hh with hh | ⟨g1, g2⟩
    · exact Or.inl hh
    · exact Or.inr (Or.inr ⟨rfl, g1, by rw [g2]; exact truncTime_gt (by omega)⟩)
  obtain ⟨s1, rd1, a1, a2, a3, a4, a5, a6⟩ := mainLoop_ok hb hl hL hfar _ ⟨n1, t1, ⟨p, h, []⟩, rd⟩ hs (le_refl _) h0 ht0 ht tr
    htr hh' hp
  obtain ⟨tr', htr'⟩ := exists_last a6.ne
  have ho : InOrder s1.w.p := (inOrder_append.mp a6.order).1
  obtain ⟨w, b1, b2⟩ := writeRest_ok (t2 := j.t2) hL hl (tr := tr') _ s1.w (le_refl _) ho htr' a5
    (by
      intro hc
      obtain ⟨x, hx⟩ := progress_last_mem a6 htr' hc
      have := hfar _ hx
      simp only at this
      omega)
  have hlow := a6.lower
  have hup := a6.upper
  rw [List.append_nil] at hlow hup
  refine ⟨{ s1 with w := w }, ?_, ?_, ?_, ?_, ?_⟩
  · refine settles_bind a1 ?_
    exact settles_bind b1 (settles_const (by simp))
  · show R0.Sublist (samples w.out)
    rw [b2]; exact hlow
  · show (samples w.out).Sublist R1
    rw [b2]
    exact List.Sublist.trans (List.Sublist.append_left (from_sublist (fillIn_sublist _) _) _) hup
  · intro hf
    show samples w.out = R1
    obtain ⟨e1, e2⟩ := a6.exact hf
    rw [List.append_nil, e1] at e2
    rw [b2, e2]
  · show s1.reads = _
    rw [a3, ← a4]

/-- The first block with data, and the data of the following blocks. -/
structure FirstData (j : Job) (d1 rest : List Trace) : Prop where
  split : ∃ before b after, j.blocks = before ++ b :: after ∧ j.record before = [] ∧ j.streamOf b = d1 ∧
    j.record after = rest
  ne : d1 ≠ []

theorem firstData_exact {j : Job} (hb : 0 < j.blockdays) (hs : j.OnlySkips) {before after : List (List Int)}
    {b : List Int} (e1 : j.blocks = before ++ b :: after) (e2 : j.record before = []) (hd : j.streamOf b ≠ []) :
    ∃ n2, Settles (fun n => firstBlock j n (j.nums.head?.getD 0) []) (.done (n2, j.streamOf b, before ++ [b])) ∧
      j.blocksFrom n2 = after := by
  have hne : j.record (j.blocksFrom (j.nums.head?.getD 0 : Int)) ≠ [] := by
    show j.record j.blocks ≠ []
    rw [e1]
    unfold Job.record
    rw [List.flatMap_append, List.flatMap_cons]
    simp [hd]
  obtain ⟨n2, p, rd, b', h1, h2, h3, h4, h5⟩ := firstBlock_ok hb _ (j.nums.head?.getD 0) [] hs rfl hne
  have h3' : before ++ b :: after = rd ++ b' :: j.blocksFrom n2 := by rw [← e1]; exact h3
  have key : ∀ (x y : List (List Int)) (u v : List Int) (z w : List (List Int)), j.record x = [] → j.record y = [] →
      j.streamOf u ≠ [] → j.streamOf v ≠ [] → x ++ u :: z = y ++ v :: w → x = y ∧ u = v ∧ z = w := by
    intro x
    induction x with
    | nil =>
      intro y u v z w _ hy hu hv he
      cases y with
      | nil => simpa using he
      | cons c y =>
        simp only [List.nil_append, List.cons_append, List.cons.injEq] at he
        have : j.streamOf c ++ j.record y = [] := hy
        rw [← he.1] at this
        exact absurd (List.append_eq_nil_iff.mp this).1 hu
    | cons c x ih =>
      intro y u v z w hx hy hu hv he
      cases y with
      | nil =>
        simp only [List.nil_append, List.cons_append, List.cons.injEq] at he
        have : j.streamOf c ++ j.record x = [] := hx
        rw [he.1] at this
        exact absurd (List.append_eq_nil_iff.mp this).1 hv
      | cons c' y =>
        simp only [List.cons_append, List.cons.injEq] at he
        have hx' : j.streamOf c ++ j.record x = [] := hx
        have hy' : j.streamOf c' ++ j.record y = [] := hy
        obtain ⟨f1, f2, f3⟩ := ih y u v z w (List.append_eq_nil_iff.mp hx').2 (List.append_eq_nil_iff.mp hy').2 hu hv he.2
        exact ⟨by rw [he.1, f1], f2, f3⟩
  obtain ⟨f1, f2, f3⟩ := key _ _ _ _ _ _ e2 h4 hd (by rw [h5]; exact h2) h3'
  have hp : p = j.streamOf b := by rw [← h5, ← f2]
  rw [hp] at h1
  rw [f2] at h1
  exact ⟨n2, by rw [f1, f2]; simpa using h1, f3.symm⟩

theorem firstData_start {j : Job} {d1 rest : List Trace} (hb : 0 < j.blockdays) (hs : j.OnlySkips)
    (hd : FirstData j d1 rest) :
    ∃ n2 rd, Settles (fun n => firstBlock j n (j.nums.head?.getD 0) []) (.done (n2, d1, rd)) ∧
      j.blocks = rd ++ j.blocksFrom n2 ∧ j.record (j.blocksFrom n2) = rest := by
  obtain ⟨before, b, after, e1, e2, e3, e4⟩ := hd.split
  obtain ⟨n2, h1, h2⟩ := firstData_exact hb hs e1 e2 (by rw [e3]; exact hd.ne)
  rw [e3] at h1
  exact ⟨n2, before ++ [b], h1, by rw [e1, h2]; simp, by rw [h2, e4]⟩

/-- **C29, default start.** Let the file length be a whole number of 10 ms samples, the blocks be readable or skipped,
the data of all blocks be in order and after 1970, `t2` far in the future, and `h` the first whole second of the
record, not after the end of the record. Then the conversion ends normally, and the written segments
contain, in order and each exactly once, all samples from `h` on of the record with its small gaps filled, and nothing
else; the blocks read are all the blocks. -/
theorem C29_nothing_lost (j : Job) (l : Int) (hb : 0 < j.blockdays) (hl : 0 < l) (hL : j.L = 10000 * l)
    (hs : j.OnlySkips) (d1 rest : List Trace) (hd : FirstData j d1 rest) (ho : InOrder (d1 ++ rest))
    (hpos : ∀ q ∈ samples (d1 ++ rest), 0 ≤ q.1)
    (hfar : ∀ q ∈ samples (d1 ++ rest), 10000 * q.1 + j.L + j.day + 1000000 ≤ j.t2)
    (k x0 h : Int) (hk : (samples d1).head? = some (k, x0)) (hh1 : h % 1000000 = 0) (hh2 : 10000 * k ≤ h)
    (hh3 : h < 10000 * k + 1000000) (hh4 : ∃ q ∈ samples (d1 ++ rest), h ≤ 10000 * q.1) :
    ∃ s, Settles (convertLoops j none) (.done s) ∧
      samples s.w.out = from_ h (fillIn (samples (d1 ++ rest))) ∧ s.reads = j.blocks := by
  obtain ⟨n2, rd, a1, a2, a3⟩ := firstData_start hb hs hd
  have ho1 := (inOrder_append.mp ho).1
  have hom := inOrder_mergeGaps ho1
  have hmne := mergeGaps_ne ho1 hd.ne
  obtain ⟨tr0, p0, hp0⟩ := List.exists_cons_of_ne_nil hmne
  obtain ⟨trl, htrl⟩ := exists_last hmne
  -- the first time
  have hstart : tr0.start = k := by
    have hom' := hom
    rw [hp0] at hom'
    obtain ⟨y, r, e⟩ := head_samples (p := p0) (hom'.1 tr0 (by simp))
    have e2 := samples_mergeGaps ho1
    rw [hp0, e] at e2
    cases hsd : samples d1 with
    | nil => rw [hsd] at hk; simp at hk
    | cons z s =>
      rw [hsd] at hk e2
      obtain ⟨t', et⟩ := fillIn_cons z s
      rw [et] at e2
      simp only [List.head?_cons, Option.some.injEq] at hk
      simp only [List.cons.injEq] at e2
      rw [← e2.1] at hk
      simpa using congrArg Prod.fst hk
  have hceil : 1000000 * (-((-10000 * tr0.start) / 1000000)) = h := by
    rw [hstart]
    omega
  have hk0 : 0 ≤ k := by
    have : (k, x0) ∈ samples (d1 ++ rest) := by
      rw [samples_append]
      exact List.mem_append_left _ (List.mem_of_head? hk)
    exact hpos _ this
  have hR0 : from_ h (samples (d1 ++ rest)) ≠ [] := by
    obtain ⟨q, hq, hhq⟩ := hh4
    exact List.ne_nil_of_mem (mem_from.mpr ⟨hq, hhq⟩)
  have hP1 : Progress (from_ h (samples (d1 ++ rest))) (from_ h (fillIn (samples (d1 ++ rest)))) True []
      (mergeGaps d1) (j.record (j.blocksFrom n2)) h := by
    rw [a3]
    have e1 : fillIn (samples (mergeGaps d1 ++ rest)) = fillIn (samples (d1 ++ rest)) := by
      rw [samples_append, samples_mergeGaps ho1, fillIn_fillIn_append ho1.2, ← samples_append]
    refine ⟨inOrder_mergeGaps_append ho, hmne, ?_, ?_, ?_⟩
    · show List.Sublist _ ([] ++ _)
      rw [List.nil_append]
      apply from_sublist
      rw [samples_append, samples_append, samples_mergeGaps ho1]
      exact List.Sublist.append_right (fillIn_sublist _) _
    · show List.Sublist ([] ++ _) _
      rw [List.nil_append, e1]
    · intro _
      refine ⟨?_, ?_⟩
      · rw [samples_mergeGaps ho1]; exact fillIn_filled ho1.2
      · show [] ++ _ = _
        rw [List.nil_append, e1]
  have hfar' : Far j (from_ h (fillIn (samples (d1 ++ rest)))) := by
    intro q hq
    obtain ⟨_, c, hc, hqc⟩ := fillIn_bounds ho.2 (mem_from.mp hq).1
    have := hfar c hc
    omega
  obtain ⟨s, b1, b2, b3, b4, b5⟩ := convert_from hb hl hL hfar' n2 h h (hs.right a2) (mergeGaps d1) rd trl htrl (by omega) (by omega)
    (le_refl _) (Or.inr ⟨hR0, rfl⟩) hP1
  refine ⟨s, ?_, b4 trivial, by rw [b5, a2]⟩
  have hrun : ∀ n, startRun j none n (n2, d1, rd) =
      (mainLoop j n ⟨n2, h, ⟨mergeGaps d1, h, []⟩, rd⟩).bind fun s =>
        (writeRest j.L j.t2 n s.w).bind fun w => .done { s with w := w } := by
    intro n
    have hmax : max h (10000 * tr0.start) = h := by rw [hstart]; exact max_eq_left hh2
    unfold startRun startTime
    simp only [hp0, hceil, hmax]
  have : Settles (fun n => (firstBlock j n (j.nums.head?.getD 0 : Int) []).bind (startRun j none n)) (.done s) := by
    refine settles_bind a1 ?_
    simp only [hrun]
    exact b1
  exact this

/-- **C29, given start.** With an explicit `t1`, every sample of the record from the start on is written exactly once
and in order; any further sample written belongs to the filling of small gaps. -/
theorem C29_given_start (j : Job) (l t1 : Int) (hb : 0 < j.blockdays) (hl : 0 < l) (hL : j.L = 10000 * l)
    (hs : j.OnlySkips) (d1 rest : List Trace) (hd : FirstData j d1 rest) (ho : InOrder (d1 ++ rest))
    (ht1 : 0 ≤ t1)
    (hfar : ∀ q ∈ samples (d1 ++ rest), 10000 * q.1 + j.L + j.day + 1000000 ≤ j.t2)
    (hh : ∃ q ∈ samples (d1 ++ rest), t1 ≤ 10000 * q.1) :
    ∃ s, Settles (convertLoops j (some t1)) (.done s) ∧
      (from_ t1 (samples (d1 ++ rest))).Sublist (samples s.w.out) ∧
      (samples s.w.out).Sublist (from_ t1 (fillIn (samples (d1 ++ rest)))) ∧
      Increasing (samples s.w.out) ∧ s.reads = j.blocks := by
  obtain ⟨n2, rd, a1, a2, a3⟩ := firstData_start hb hs hd
  have ho1 := (inOrder_append.mp ho).1
  obtain ⟨tr0, p0, hp0⟩ := List.exists_cons_of_ne_nil hd.ne
  obtain ⟨trl, htrl⟩ := exists_last hd.ne
  obtain ⟨h, hmax⟩ : ∃ h, h = max t1 (10000 * tr0.start) := ⟨_, rfl⟩
  have hh1 : t1 ≤ h := by rw [hmax]; exact le_max_left _ _
  have hfrom : ∀ s, (∀ q ∈ s, tr0.start ≤ q.1) → from_ h s = from_ t1 s := by
    intro s hs'
    unfold from_
    apply List.filter_congr
    intro q hq
    have := hs' q hq
    rw [decide_eq_decide, hmax, max_le_iff]
    constructor
    · exact fun h => h.1
    · exact fun h => ⟨h, by omega⟩
  have hge : ∀ q ∈ samples (d1 ++ rest), tr0.start ≤ q.1 := by
    intro q hq
    rw [hp0, List.cons_append] at hq
    refine start_le ?_ hq
    rw [← List.cons_append, ← hp0]
    exact ho
  have e1 : from_ h (samples (d1 ++ rest)) = from_ t1 (samples (d1 ++ rest)) := hfrom _ hge
  have e2 : from_ h (fillIn (samples (d1 ++ rest))) = from_ t1 (fillIn (samples (d1 ++ rest))) := by
    apply hfrom
    intro q hq
    obtain ⟨⟨c, hc, hcq⟩, _⟩ := fillIn_bounds ho.2 hq
    have := hge c hc
    omega
  have hstop : h ≤ 10000 * trl.stop ∨ from_ h (samples (d1 ++ rest)) ≠ [] ∧ h = t1 := by
    rcases le_total t1 (10000 * tr0.start) with hc | hc
    · left
      obtain ⟨y, r, e⟩ := last_samples htrl (ho1.1 trl (List.mem_of_getLast? htrl))
      have q2 := hge (trl.stop, y) (by rw [samples_append, e]; simp)
      rw [hmax, max_eq_right hc]
      simp only at q2
      omega
    · right
      obtain ⟨q, hq, hhq⟩ := hh
      refine ⟨?_, by rw [hmax, max_eq_left hc]⟩
      rw [e1]
      exact List.ne_nil_of_mem (mem_from.mpr ⟨hq, hhq⟩)
  have hP1 : Progress (from_ h (samples (d1 ++ rest))) (from_ h (fillIn (samples (d1 ++ rest)))) False []
      d1 (j.record (j.blocksFrom n2)) h := by
    rw [a3]
    exact ⟨ho, hd.ne, List.Sublist.refl _, List.Sublist.refl _, False.elim⟩
  have hfar' : Far j (from_ h (fillIn (samples (d1 ++ rest)))) := by
    intro q hq
    obtain ⟨_, c, hc, hqc⟩ := fillIn_bounds ho.2 (mem_from.mp hq).1
    have := hfar c hc
    omega
  obtain ⟨s, b1, b2, b3, b4, b5⟩ := convert_from hb hl hL hfar' n2 t1 h (hs.right a2) d1 rd trl htrl (by omega) ht1
    hh1 hstop hP1
  rw [e1] at b2
  rw [e2] at b3
  refine ⟨s, ?_, b2, b3, ?_, by rw [b5, a2]⟩
  · have hrun : ∀ n, startRun j (some t1) n (n2, d1, rd) =
        (mainLoop j n ⟨n2, t1, ⟨d1, h, []⟩, rd⟩).bind fun s =>
          (writeRest j.L j.t2 n s.w).bind fun w => .done { s with w := w } := by
      intro n
      unfold startRun startTime
      simp only [hp0, hmax]
    have : Settles (fun n => (firstBlock j n (j.nums.head?.getD 0 : Int) []).bind (startRun j (some t1) n)) (.done s) := by
      refine settles_bind a1 ?_
      simp only [hrun]
      exact b1
    exact this
  · exact List.Pairwise.sublist b3 (increasing_from (fillIn_increasing ho.2) _)

/-- Blocks cut a sorted list into consecutive pieces. -/
theorem blocksFrom_flatten {j : Job} (hb : 0 < j.blockdays) (hsort : j.nums.Pairwise (· ≤ ·)) (k : Nat) (n1 : Rat)
    (hk : (j.blocksFrom n1).length = k) : (j.blocksFrom n1).flatten = j.nums.filter fun n : Int => decide (n1 ≤ (n : Rat)) := by
  induction k generalizing n1 with
  | zero =>
    rw [List.length_eq_zero_iff] at hk
    have hn : n1 > j.last := by
      by_contra h
      rw [blocksFrom_cons hb (not_lt.mp h)] at hk
      simp at hk
    rw [hk]
    symm
    rw [List.flatten_nil, List.filter_eq_nil_iff]
    intro x hx
    have hle : x ≤ j.last := by
      unfold Job.last
      rcases List.eq_nil_or_concat j.nums with h | ⟨r, y, h⟩
      · rw [h] at hx; simp at hx
      · rw [List.concat_eq_append] at h
        rw [h] at hx hsort ⊢
        rw [List.getLast?_concat]
        show x ≤ y
        rcases List.mem_append.mp hx with h1 | h1
        · exact (List.pairwise_append.mp hsort).2.2 x h1 y (List.mem_singleton.mpr rfl)
        · rw [List.mem_singleton.mp h1]
    simp only [decide_eq_true_eq]
    have hle' : (x : Rat) ≤ j.last := by exact_mod_cast hle
    linarith
  | succ k ih =>
    have hn : n1 ≤ j.last := by
      by_contra h
      rw [blocksFrom_nil hb (not_le.mp h)] at hk
      simp at hk
    rw [blocksFrom_cons hb hn] at hk ⊢
    rw [List.flatten_cons, ih _ (by simpa using hk)]
    unfold Job.block
    have key : ∀ (l : List Int), l.Pairwise (· ≤ ·) → ∀ a b : Rat, a ≤ b →
        l.filter (fun n : Int => decide ((n : Rat) ≥ a) && decide ((n : Rat) < b)) ++ l.filter (fun n : Int => decide (b ≤ (n : Rat))) =
          l.filter fun n : Int => decide (a ≤ (n : Rat)) := by
      intro l hl a b hab
      induction l with
      | nil => rfl
      | cons x l ih =>
        have hl' := List.pairwise_cons.mp hl
        have ih' := ih hl'.2
        by_cases h1 : a ≤ (x : Rat)
        · by_cases h2 : (x : Rat) < b
          · rw [List.filter_cons_of_pos (by simp [h1, h2]), List.filter_cons_of_neg (p := fun n : Int => decide (b ≤ (n : Rat))) (by simpa using h2),
              List.filter_cons_of_pos (p := fun n : Int => decide (a ≤ (n : Rat))) (by simpa using h1), List.cons_append, ih']
          · have z : (x :: l).filter (fun n : Int => decide ((n : Rat) ≥ a) && decide ((n : Rat) < b)) = [] := by
              rw [List.filter_eq_nil_iff]
              intro y hy
              simp only [Bool.and_eq_true, decide_eq_true_eq]
              rcases List.mem_cons.mp hy with rfl | hy
              · tauto
              · have : (x : Rat) ≤ y := by exact_mod_cast hl'.1 y hy
                intro h; exact h2 (by linarith [h.2])
            rw [z, List.nil_append]
            apply List.filter_congr
            intro y hy
            rw [decide_eq_decide]
            rcases List.mem_cons.mp hy with rfl | hy
            · exact ⟨fun h => by linarith, fun h => not_lt.mp h2⟩
            · have : (x : Rat) ≤ y := by exact_mod_cast hl'.1 y hy
              have := not_lt.mp h2
              exact ⟨fun h => by linarith, fun h => by linarith⟩
        · rw [List.filter_cons_of_neg (by simp [h1]), List.filter_cons_of_neg (p := fun n : Int => decide (b ≤ (n : Rat))) (by simp only [decide_eq_true_eq]; intro h; exact h1 (by linarith)),
            List.filter_cons_of_neg (p := fun n : Int => decide (a ≤ (n : Rat))) (by simpa using h1), ih']
    exact key _ hsort _ _ (by linarith)

/-- **C34, cover.** The blocks, read one after the other, are exactly the selected file numbers in increasing order, and
for every positive number of days, each block is a range of `12 * blockdays` numbers starting at a multiple of that from the first number; consecutive
blocks do not overlap. -/
theorem C34_blocks_cover (j : Job) (hb : 0 < j.blockdays) (hsort : j.nums.Pairwise (· ≤ ·)) (hne : j.nums ≠ []) :
    j.blocks.flatten = j.nums ∧
    ∀ (i : Nat) (b : List Int), j.blocks[i]? = some b →
      ∀ n, n ∈ b ↔ n ∈ j.nums ∧ (j.nums.head hne : Rat) + i * (12 * j.blockdays) ≤ n ∧
        (n : Rat) < j.nums.head hne + (i + 1) * (12 * j.blockdays) := by
  have hhead : j.nums.head?.getD 0 = j.nums.head hne := by rw [List.head?_eq_some_head hne]; rfl
  refine ⟨?_, ?_⟩
  · unfold Job.blocks
    rw [blocksFrom_flatten hb hsort _ _ rfl, List.filter_eq_self]
    intro x hx
    simp only [decide_eq_true_eq, hhead]
    rw [← List.cons_head_tail hne] at hx hsort
    rcases List.mem_cons.mp hx with h | h
    · exact h ▸ le_refl _
    · exact_mod_cast (List.pairwise_cons.mp hsort).1 x h
  · intro i b hi n
    unfold Job.blocks Job.blocksFrom at hi
    rw [List.getElem?_map] at hi
    cases hr : (List.range (⌊((j.last : Rat) - (j.nums.head?.getD 0 : Int)) / (12 * j.blockdays)⌋ + 1).toNat)[i]? with
    | none => rw [hr] at hi; simp at hi
    | some i' =>
      have : i' = i := by
        obtain ⟨h1, h2⟩ := List.getElem?_eq_some_iff.mp hr
        rw [List.getElem_range] at h2
        exact h2.symm
      rw [hr, this] at hi
      simp only [Option.map_some, Option.some.injEq] at hi
      rw [← hi, hhead]
      unfold Job.block
      rw [List.mem_filter]
      simp only [ge_iff_le, Bool.and_eq_true, decide_eq_true_eq]
      constructor
      · rintro ⟨h1, h2, h3⟩
        exact ⟨h1, h2, by linarith⟩
      · rintro ⟨h1, h2, h3⟩
        exact ⟨h1, h2, by linarith⟩

theorem firstBlock_reads {j : Job} (hb : 0 < j.blockdays) (k : Nat) (n1 n2 : Rat) (reads rd : List (List Int)) (p : List Trace)
    (h : firstBlock j k n1 reads = .done (n2, p, rd)) :
    ∃ r, rd = reads ++ r ∧ j.blocksFrom n1 = r ++ j.blocksFrom n2 := by
  induction k generalizing n1 reads with
  | zero => simp [firstBlock] at h
  | succ k ih =>
    rw [firstBlock] at h
    by_cases hn : n1 ≤ j.last
    · have hc := blocksFrom_cons hb hn
      simp only [if_pos hn] at h
      cases hr : j.read (j.block n1) with
      | error x =>
        simp only [hr] at h
        by_cases hx : x.skipsBlock = true
        · rw [if_pos hx] at h
          obtain ⟨r, e1, e2⟩ := ih _ _ h
          exact ⟨j.block n1 :: r, by rw [e1]; simp, by rw [hc, e2]; rfl⟩
        · rw [if_neg hx] at h
          simp at h
      | ok d =>
        cases d with
        | nil =>
          simp only [hr] at h
          obtain ⟨r, e1, e2⟩ := ih _ _ h
          exact ⟨j.block n1 :: r, by rw [e1]; simp, by rw [hc, e2]; rfl⟩
        | cons t d =>
          simp only [hr, Run.done.injEq, Prod.mk.injEq] at h
          obtain ⟨e1, _, e2⟩ := h
          exact ⟨[j.block n1], e2.symm, by rw [hc, ← e1]; rfl⟩
    · simp [if_neg hn] at h

theorem readBlocks_reads {j : Job} (hb : 0 < j.blockdays) (tt2 : Int) (out : List Trace) (k : Nat) (n1 n2 : Rat)
    (reads rd : List (List Int)) (p p' : List Trace) (h : readBlocks j tt2 out k n1 p reads = .done (n2, p', rd)) :
    ∃ r, rd = reads ++ r ∧ j.blocksFrom n1 = r ++ j.blocksFrom n2 := by
  induction k generalizing n1 reads p with
  | zero => simp [readBlocks] at h
  | succ k ih =>
    rw [readBlocks] at h
    cases hl : p.getLast? with
    | none => simp [hl] at h
    | some tr =>
      simp only [hl] at h
      by_cases hn : 10000 * tr.stop < tt2 ∧ n1 ≤ j.last
      · have hc := blocksFrom_cons hb hn.2
        simp only [if_pos hn] at h
        cases hr : j.read (j.block n1) with
        | error x =>
          simp only [hr] at h
          by_cases hx : x.skipsBlock = true
          · rw [if_pos hx] at h
            obtain ⟨r, e1, e2⟩ := ih _ _ _ h
            exact ⟨j.block n1 :: r, by rw [e1]; simp, by rw [hc, e2]; rfl⟩
          · rw [if_neg hx] at h
            simp at h
        | ok d =>
          cases d with
          | nil =>
            simp only [hr] at h
            obtain ⟨r, e1, e2⟩ := ih _ _ _ h
            exact ⟨j.block n1 :: r, by rw [e1]; simp, by rw [hc, e2]; rfl⟩
          | cons t d =>
            simp only [hr] at h
            obtain ⟨r, e1, e2⟩ := ih _ _ _ h
            exact ⟨j.block n1 :: r, by rw [e1]; simp, by rw [hc, e2]; rfl⟩
      · simp only [if_neg hn, Run.done.injEq, Prod.mk.injEq] at h
        obtain ⟨e1, _, e2⟩ := h
        exact ⟨[], by simp [e2], by rw [e1]; rfl⟩

theorem run_bind_done {α β : Type} {r : Run α} {f : α → Run β} {b : β} (h : r.bind f = .done b) :
    ∃ a, r = .done a ∧ f a = .done b := by
  cases r with
  | done a => exact ⟨a, rfl, h⟩
  | raised x out => simp [Run.bind] at h
  | running => simp [Run.bind] at h

theorem mainLoop_reads {j : Job} (hb : 0 < j.blockdays) (k : Nat) (s s' : CState) (h : mainLoop j k s = .done s') :
    ∃ r, s'.reads = s.reads ++ r ∧ j.blocksFrom s.n1 = r ++ j.blocksFrom s'.n1 := by
  induction k generalizing s with
  | zero => simp [mainLoop] at h
  | succ k ih =>
    rw [mainLoop] at h
    by_cases h1 : s.n1 > j.last
    · simp only [if_pos h1, Run.done.injEq] at h
      exact ⟨[], by simp [h], by rw [h]; rfl⟩
    · by_cases h2 : s.t1 > j.t2
      · simp only [if_neg h1, if_pos h2, Run.done.injEq] at h
        exact ⟨[], by simp [h], by rw [h]; rfl⟩
      · simp only [if_neg h1, if_neg h2] at h
        obtain ⟨⟨n2, p, rd⟩, hr, h⟩ := run_bind_done h
        obtain ⟨w, hw, h⟩ := run_bind_done h
        obtain ⟨r1, e1, e2⟩ := readBlocks_reads hb _ _ _ _ _ _ _ _ _ hr
        cases ht : trimStream w.h j.t2 w.p with
        | error x => simp [ht] at h
        | ok p' =>
          simp only [ht] at h
          obtain ⟨r2, e3, e4⟩ := ih _ h
          exact ⟨r1 ++ r2, by rw [e3, e1, List.append_assoc], by rw [e2, e4, List.append_assoc]⟩

/-- **C34, every run.** Whatever the reader does and whatever the limits, the blocks read by a conversion that ends
normally are the first blocks in order, without omission or repetition. -/
theorem C34_blocks_in_order (j : Job) (hb : 0 < j.blockdays) (t1 : Option Int) (fuel : Nat) (s : CState)
    (h : convertLoops j t1 fuel = .done s) : s.reads <+: j.blocks := by
  rw [convertLoops_eq] at h
  obtain ⟨⟨n2, p, rd⟩, hr, h⟩ := run_bind_done h
  obtain ⟨r1, e1, e2⟩ := firstBlock_reads hb _ _ _ _ _ _ hr
  unfold startRun at h
  simp only at h
  cases hst : startTime t1 p with
  | error x => simp [hst] at h
  | ok q =>
    obtain ⟨p0, t0⟩ := q
    simp only [hst] at h
    obtain ⟨s1, hs1, h⟩ := run_bind_done h
    obtain ⟨w, hw, h⟩ := run_bind_done h
    obtain ⟨r2, e3, e4⟩ := mainLoop_reads hb _ _ _ hs1
    simp only [Run.done.injEq] at h
    refine ⟨j.blocksFrom s1.n1, ?_⟩
    rw [← h]
    show s1.reads ++ _ = j.blocksFrom _
    rw [e2, e4, e3, e1]
    simp

/-! ## A concrete conversion -/

/-- Two blocks of files with a gap in the numbers (an empty block), two-hour output files. -/
def demoJob : Job where
  nums := [3, 4, 40, 41]
  blockdays := 1
  L := 7200000000
  t2 := 253402300799360500
  read := fun b =>
    if b = [3, 4] then .ok [⟨9359850, [1, 2, 3]⟩, ⟨9359898, [6, 5, 4, 3]⟩, ⟨9359998, [7, 8]⟩]
    else if b = [40, 41] then .ok [⟨9360002, [2, 2]⟩, ⟨9360500, [9]⟩]
    else .error .missingRaw

/-- A block of an eighth of a day has room for one and a half file numbers: blocks of one or two files, or none. -/
example : 0 < ({ demoJob with nums := [3, 4, 6, 8], blockdays := 1 / 8 } : Job).blockdays ∧
    ({ demoJob with nums := [3, 4, 6, 8], blockdays := 1 / 8 } : Job).blocks = [[3, 4], [], [6], [8]] := by decide +kernel

theorem demoJob_first : FirstData demoJob [⟨9359850, [1, 2, 3]⟩, ⟨9359898, [6, 5, 4, 3]⟩, ⟨9359998, [7, 8]⟩]
    [⟨9360002, [2, 2]⟩, ⟨9360500, [9]⟩] :=
  ⟨⟨[], [3, 4], [[], [], [40, 41]], by decide +kernel, by decide +kernel, by decide +kernel, by decide +kernel⟩, by simp⟩

theorem demoJob_skips : demoJob.OnlySkips := by
  intro b _ x h
  have h' : (if b = [3, 4] then (.ok [⟨9359850, [1, 2, 3]⟩, ⟨9359898, [6, 5, 4, 3]⟩, ⟨9359998, [7, 8]⟩] : Except Exc (List Trace))
    else if b = [40, 41] then .ok [⟨9360002, [2, 2]⟩, ⟨9360500, [9]⟩]
    else .error .missingRaw) = .error x := h
  split_ifs at h'
  simp only [Except.error.injEq] at h'
  rw [← h']
  rfl

/-- The hypotheses of `C29_nothing_lost` are met by `demoJob`: the two samples missing between the blocks are filled, the
half second of the first trace before the first whole second is left out and the output is cut at 26 hours. -/
example : (convertLoops demoJob none 20) = .done ⟨51, 259200000000,
    ⟨[], 100800000000, [⟨9359900, [4, 3]⟩, ⟨9359998, [7, 8]⟩, ⟨9360000, [6, 4, 2, 2]⟩, ⟨9360500, [9]⟩]⟩,
    [[3, 4], [], [], [40, 41]]⟩ := by
  decide +kernel

example : ∃ s, Settles (convertLoops demoJob none) (.done s) ∧
    samples s.w.out = from_ 93599000000 (fillIn (samples ([⟨9359850, [1, 2, 3]⟩, ⟨9359898, [6, 5, 4, 3]⟩,
      ⟨9359998, [7, 8]⟩] ++ [⟨9360002, [2, 2]⟩, ⟨9360500, [9]⟩]))) ∧ s.reads = demoJob.blocks :=
  C29_nothing_lost demoJob 720000 (by decide) (by decide) rfl demoJob_skips _ _ demoJob_first
    ⟨by decide +kernel, by unfold Increasing; decide +kernel⟩ (by decide +kernel) (by decide +kernel) 9359850 1 _
    (by decide +kernel) (by decide) (by decide) (by decide) ⟨(9359900, 4), by decide +kernel, by decide⟩

/-- A given start in the second block. -/
example : ∃ s, Settles (convertLoops demoJob (some 93600025000)) (.done s) :=
  let ⟨s, h, _⟩ := C29_given_start demoJob 720000 93600025000 (by decide) (by decide) rfl demoJob_skips _ _ demoJob_first
    ⟨by decide +kernel, by unfold Increasing; decide +kernel⟩ (by decide) (by decide +kernel)
    ⟨(9360500, 9), by decide +kernel, by decide⟩
  ⟨s, h⟩

end Gemlog
