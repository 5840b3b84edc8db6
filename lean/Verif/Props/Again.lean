import Verif.Props.TwoStepsRaw
import Verif.Props.NamesDistinct
import Verif.Props.Limits

/-!
# C126: converting again when more files have been recorded

A record is converted, the logger goes on recording, and later all files are converted into the same folder. All files of the first conversion but the last are written again as they
are; the last may become longer; nothing of the first conversion is left over.
-/

namespace Gemlog

/-! ## The segments are determined by the samples -/

theorem stamps_grow {s : Int} {A B : List Int} {t : List (Int × Int)} (h : stamps s B = stamps s A ++ t) :
    B = A ++ t.map Prod.snd ∧ t = stamps (s + A.length) (t.map Prod.snd) := by
  have hsnd : ∀ (k : Int) (l : List Int), (stamps k l).map Prod.snd = l := by
    intro k l
    induction l generalizing k with
    | nil => rfl
    | cons x l ih => simp [stamps, ih]
  have e : B = A ++ t.map Prod.snd := by
    have := congrArg (List.map Prod.snd) h
    rwa [List.map_append, hsnd, hsnd] at this
  refine ⟨e, ?_⟩
  have h2 := stamps_append s A (t.map Prod.snd)
  rw [← e, h] at h2
  exact List.append_cancel_left h2

/-- No cut can be within a window. -/
theorem no_cut {L : Int} (hL : 0 < L) {a c w : Trace} (hp : Parted L a c) (hc : c.start = a.stop + 1) (hw : InOneWindow L w) {x y : Int}
    (h1 : (a.stop, x) ∈ stamps w.start w.data) (h2 : (a.stop + 1, y) ∈ stamps w.start w.data) : False := by
  obtain ⟨m, hm⟩ := hw
  have a1 := (hm _ h1).1
  have a2 := (hm _ h2).2
  simp only at a1 a2
  rcases hp with h | ⟨k, k1, k2⟩
  · omega
  · rw [hc] at k2
    have b1 : m < k := by
      by_contra hc
      have : k * L ≤ m * L := Int.mul_le_mul_of_nonneg_right (by omega) (by omega)
      omega
    have b2 : (m + 1) * L ≤ k * L := Int.mul_le_mul_of_nonneg_right (by omega) (by omega)
    omega

theorem last_in_stamps {tr : Trace} (h : tr.data ≠ []) : ∃ x, (tr.stop, x) ∈ stamps tr.start tr.data := by
  obtain ⟨x, r, e⟩ := last_stamps h
  exact ⟨x, by rw [e]; simp⟩

/-- **Segments.** If the samples of one conversion are the first samples of another with the same file length, all its segments but the last are segments of the other, and the last
one is the beginning of a segment. -/
theorem segments_prefix {L : Int} (hL : 0 < L) : ∀ (out1 out : List Trace), (∀ tr ∈ out1, tr.data ≠ []) → (∀ tr ∈ out, tr.data ≠ []) →
    out1.Pairwise (Parted L) → out.Pairwise (Parted L) → (∀ tr ∈ out1, InOneWindow L tr) → (∀ tr ∈ out, InOneWindow L tr) →
    samples out1 <+: samples out → out1 ≠ [] →
    ∃ pre last longer post, out1 = pre ++ [last] ∧ out = pre ++ longer :: post ∧ longer.start = last.start ∧ last.data <+: longer.data
  | [], _, _, _, _, _, _, _, _, hne => absurd rfl hne
  | a :: r1, [], n1, _, _, _, _, _, hpre, _ => by
    obtain ⟨x, r, e⟩ := head_samples (p := r1) (n1 a (by simp))
    rw [e] at hpre
    simp [samples] at hpre
  | a :: r1, b :: r, n1, n, p1, p, w1, w, hpre, _ => by
    have na := n1 a (by simp)
    have nb := n b (by simp)
    have hs : b.start = a.start := by
      obtain ⟨x, s, e⟩ := head_samples (p := r1) na
      obtain ⟨y, s', e'⟩ := head_samples (p := r) nb
      rw [e, e'] at hpre
      have := (List.cons_prefix_cons.mp hpre).1
      simp only [Prod.mk.injEq] at this
      exact this.1.symm
    obtain ⟨Z, hZ⟩ := hpre
    rw [samples_cons, samples_cons, List.append_assoc, hs] at hZ
    have sta : a.stop = a.start + a.data.length - 1 := by unfold Trace.stop; rw [if_neg (by simpa using na)]
    have stb : b.stop = a.start + b.data.length - 1 := by unfold Trace.stop; rw [if_neg (by simpa using nb), hs]
    have equal : stamps a.start a.data = stamps a.start b.data → samples r1 ++ Z = samples r →
        ∃ pre last longer post, a :: r1 = pre ++ [last] ∧ b :: r = pre ++ longer :: post ∧ longer.start = last.start ∧ last.data <+: longer.data := by
      intro e eZ
      have hd : a.data = b.data := by
        have := (stamps_grow (A := b.data) (B := a.data) (t := []) (by rw [List.append_nil]; exact e)).1
        simpa using this
      have hab : a = b := by cases a; cases b; simp only at hd hs; rw [hd, hs]
      by_cases hr1 : r1 = []
      · exact ⟨[], a, b, r, by rw [hr1]; rfl, rfl, hs, by rw [hd]⟩
      · obtain ⟨pre, last, longer, post, f1, f2, f3, f4⟩ := segments_prefix hL r1 r (fun tr h => n1 tr (by simp [h])) (fun tr h => n tr (by simp [h]))
          (List.pairwise_cons.mp p1).2 (List.pairwise_cons.mp p).2 (fun tr h => w1 tr (by simp [h])) (fun tr h => w tr (by simp [h])) ⟨Z, eZ⟩ hr1
        exact ⟨a :: pre, last, longer, post, by rw [f1]; rfl, by rw [f2, hab]; rfl, f3, f4⟩
    rcases List.append_eq_append_iff.mp hZ with ⟨t, e1, e2⟩ | ⟨t, e1, e2⟩
    · cases t with
      | nil => exact equal (by simpa using e1.symm) (by simpa using e2)
      | cons q t =>
        obtain ⟨g1, g2⟩ := stamps_grow e1
        cases r1 with
        | nil => exact ⟨[], a, b, r, rfl, rfl, hs, ⟨_, g1.symm⟩⟩
        | cons c r1 =>
          exfalso
          obtain ⟨y, s, e⟩ := head_samples (p := r1) (n1 c (by simp))
          rw [e] at e2
          simp only [List.cons_append, List.cons.injEq] at e2
          have hq : q.1 = a.start + a.data.length := by
            simp only [List.map_cons, stamps, List.cons.injEq] at g2
            rw [g2.1]
          have hc : c.start = a.stop + 1 := by rw [← e2.1] at hq; simp only at hq; omega
          obtain ⟨x, hx⟩ := last_in_stamps na
          refine no_cut hL ((List.pairwise_cons.mp p1).1 c (by simp)) hc (w b (by simp)) (x := x) (y := y) ?_ ?_
          · rw [hs, e1]
            exact List.mem_append_left _ hx
          · rw [hs, e1, ← e2.1, ← hc]
            simp
    · cases t with
      | nil => exact equal (by simpa using e1) (by simpa using e2.symm)
      | cons q t =>
        exfalso
        obtain ⟨g1, g2⟩ := stamps_grow e1
        cases r with
        | nil => simp [samples] at e2
        | cons c r =>
          obtain ⟨y, s, e⟩ := head_samples (p := r) (n c (by simp))
          rw [e] at e2
          simp only [List.cons_append, List.cons.injEq] at e2
          have hq : q.1 = a.start + b.data.length := by
            simp only [List.map_cons, stamps, List.cons.injEq] at g2
            rw [g2.1]
          have hc : c.start = b.stop + 1 := by rw [← e2.1] at hq; simp only at hq; omega
          obtain ⟨x, hx⟩ := last_in_stamps nb
          rw [hs] at hx
          refine no_cut hL ((List.pairwise_cons.mp p).1 c (by simp)) hc (w1 a (by simp)) (x := x) (y := y) ?_ ?_
          · rw [e1]
            exact List.mem_append_left _ hx
          · rw [e1, ← e2.1, ← hc]
            simp

/-! ## Only the blocks are read -/

/-- The same conversion with a reader that fails for everything except the blocks. -/
def Job.onlyBlocks (j : Job) : Job := { j with read := fun b => if b ∈ j.blocks then j.read b else .error .missingRaw }

theorem onlyBlocks_read {j : Job} (hb : 0 < j.blockdays) {n1 : Rat} (hn : n1 ≤ j.last) (hs : j.blocksFrom n1 <:+ j.blocks) :
    j.onlyBlocks.read (j.block n1) = j.read (j.block n1) ∧ j.blocksFrom (n1 + 12 * j.blockdays) <:+ j.blocks := by
  rw [blocksFrom_cons hb hn] at hs
  refine ⟨?_, (List.suffix_cons _ _).trans hs⟩
  have : j.block n1 ∈ j.blocks := hs.subset (by simp)
  show (if j.block n1 ∈ j.blocks then j.read (j.block n1) else .error .missingRaw) = _
  rw [if_pos this]

theorem firstBlock_onlyBlocks {j : Job} (hb : 0 < j.blockdays) : ∀ (fuel : Nat) (n1 : Rat) (reads : List (List Int)), j.blocksFrom n1 <:+ j.blocks →
    firstBlock j.onlyBlocks fuel n1 reads = firstBlock j fuel n1 reads ∧
      ∀ r, firstBlock j fuel n1 reads = .done r → j.blocksFrom r.1 <:+ j.blocks
  | 0, _, _, _ => ⟨rfl, by intro r h; simp [firstBlock] at h⟩
  | fuel + 1, n1, reads, hs => by
    by_cases hn : n1 ≤ j.last
    · obtain ⟨e, hs'⟩ := onlyBlocks_read hb hn hs
      have ih := firstBlock_onlyBlocks hb fuel (n1 + 12 * j.blockdays) (reads ++ [j.block n1]) hs'
      have e' : j.onlyBlocks.read (j.onlyBlocks.block n1) = j.read (j.block n1) := e
      have hn' : n1 ≤ j.onlyBlocks.last := hn
      unfold firstBlock
      rw [if_pos hn, if_pos hn', e']
      dsimp only
      cases j.read (j.block n1) with
      | error x =>
        dsimp only
        by_cases hx : x.skipsBlock = true
        · rw [if_pos hx, if_pos hx]
          exact ih
        · rw [if_neg hx, if_neg hx]
          exact ⟨rfl, by intro r h; cases h⟩
      | ok p =>
        cases p with
        | nil => exact ih
        | cons tr p =>
          refine ⟨rfl, ?_⟩
          intro r h
          simp only [Run.done.injEq] at h
          rw [← h]
          exact hs'
    · have hn' : ¬ n1 ≤ j.onlyBlocks.last := hn
      unfold firstBlock
      rw [if_neg hn, if_neg hn']
      exact ⟨rfl, by intro r h; cases h⟩

theorem readBlocks_onlyBlocks {j : Job} (hb : 0 < j.blockdays) (tt2 : Int) (out : List Trace) : ∀ (fuel : Nat) (n1 : Rat) (p : List Trace) (reads : List (List Int)),
    j.blocksFrom n1 <:+ j.blocks →
    readBlocks j.onlyBlocks tt2 out fuel n1 p reads = readBlocks j tt2 out fuel n1 p reads ∧
      ∀ r, readBlocks j tt2 out fuel n1 p reads = .done r → j.blocksFrom r.1 <:+ j.blocks
  | 0, _, _, _, _ => ⟨rfl, by intro r h; simp [readBlocks] at h⟩
  | fuel + 1, n1, p, reads, hs => by
    unfold readBlocks
    cases p.getLast? with
    | none => exact ⟨rfl, by intro r h; cases h⟩
    | some tr =>
      dsimp only
      by_cases hn : 10000 * tr.stop < tt2 ∧ n1 ≤ j.last
      · obtain ⟨e, hs'⟩ := onlyBlocks_read hb hn.2 hs
        have ih := fun p' => readBlocks_onlyBlocks hb tt2 out fuel (n1 + 12 * j.blockdays) p' (reads ++ [j.block n1]) hs'
        have e' : j.onlyBlocks.read (j.onlyBlocks.block n1) = j.read (j.block n1) := e
        have hn' : 10000 * tr.stop < tt2 ∧ n1 ≤ j.onlyBlocks.last := hn
        rw [if_pos hn, if_pos hn', e']
        cases j.read (j.block n1) with
        | error x =>
          dsimp only
          by_cases hx : x.skipsBlock = true
          · rw [if_pos hx, if_pos hx]
            exact ih p
          · rw [if_neg hx, if_neg hx]
            exact ⟨rfl, by intro r h; cases h⟩
        | ok d =>
          cases d with
          | nil => exact ih p
          | cons t d => exact ih (mergeGaps (p ++ t :: d))
      · have hn' : ¬ (10000 * tr.stop < tt2 ∧ n1 ≤ j.onlyBlocks.last) := hn
        rw [if_neg hn, if_neg hn']
        refine ⟨rfl, ?_⟩
        intro r h
        simp only [Run.done.injEq] at h
        rw [← h]
        exact hs

theorem mainLoop_onlyBlocks {j : Job} (hb : 0 < j.blockdays) : ∀ (fuel : Nat) (s : CState), j.blocksFrom s.n1 <:+ j.blocks →
    mainLoop j.onlyBlocks fuel s = mainLoop j fuel s
  | 0, _, _ => rfl
  | fuel + 1, s, hs => by
    unfold mainLoop
    by_cases h1 : s.n1 > j.last
    · have h1' : s.n1 > j.onlyBlocks.last := h1
      rw [if_pos h1, if_pos h1']
    · have h1' : ¬ s.n1 > j.onlyBlocks.last := h1
      rw [if_neg h1, if_neg h1']
      by_cases h2 : s.t1 > j.t2
      · have h2' : s.t1 > j.onlyBlocks.t2 := h2
        rw [if_pos h2, if_pos h2']
      · have h2' : ¬ s.t1 > j.onlyBlocks.t2 := h2
        rw [if_neg h2, if_neg h2']
        have hday : j.onlyBlocks.day = j.day := rfl
        have ht2 : j.onlyBlocks.t2 = j.t2 := rfl
        have hL : j.onlyBlocks.L = j.L := rfl
        dsimp only
        rw [hday, ht2, hL]
        obtain ⟨e, hr⟩ := readBlocks_onlyBlocks hb (min j.t2 (truncTime s.t1 j.day + j.day)) s.w.out fuel s.n1 s.w.p s.reads hs
        rw [e]
        cases hrun : readBlocks j (min j.t2 (truncTime s.t1 j.day + j.day)) s.w.out fuel s.n1 s.w.p s.reads with
        | raised x out => rfl
        | running => rfl
        | done r =>
          have hs' := hr r hrun
          simp only [Run.bind]
          cases writeFull j.L j.t2 fuel { s.w with p := r.2.1 } with
          | raised x out => rfl
          | running => rfl
          | done w =>
            simp only
            cases trimStream w.h j.t2 w.p with
            | error x => rfl
            | ok p => exact mainLoop_onlyBlocks hb fuel _ hs'

/-- A conversion reads nothing but its blocks. -/
theorem convertLoops_onlyBlocks (j : Job) (hb : 0 < j.blockdays) (t1 : Option Int) (n : Nat) : convertLoops j.onlyBlocks t1 n = convertLoops j t1 n := by
  obtain ⟨e, hr⟩ := firstBlock_onlyBlocks hb n (j.nums.head?.getD 0 : Int) [] (List.suffix_refl _)
  unfold convertLoops
  have hn : j.onlyBlocks.nums = j.nums := rfl
  have ht2 : j.onlyBlocks.t2 = j.t2 := rfl
  have hL : j.onlyBlocks.L = j.L := rfl
  rw [hn, e, ht2, hL]
  cases hrun : firstBlock j n (j.nums.head?.getD 0 : Int) [] with
  | raised x out => rfl
  | running => rfl
  | done r =>
    have hs' := hr r hrun
    simp only [Run.bind]
    cases startTime t1 r.2.1 with
    | error x => rfl
    | ok q =>
      obtain ⟨p, t⟩ := q
      have hm : ∀ (w : WState) (rd : List (List Int)), mainLoop j.onlyBlocks n ⟨r.1, t, w, rd⟩ = mainLoop j n ⟨r.1, t, w, rd⟩ :=
        fun w rd => mainLoop_onlyBlocks hb n ⟨r.1, t, w, rd⟩ hs'
      dsimp only
      rw [hm]

/-- **C30, with a condition on the blocks only.** -/
theorem C30_blocks (j : Job) (hb : 0 < j.blockdays) (hL : 0 < j.L) (t1 : Option Int) (ht1 : ∀ t, t1 = some t → 0 ≤ t)
    (hread : ∀ tr ∈ j.record j.blocks, tr.data ≠ [] ∧ 0 ≤ tr.start) (n : Nat) :
    ∀ tr ∈ (convertLoops j t1 n).written, InOneWindow j.L tr := by
  rw [← convertLoops_onlyBlocks j hb]
  refine C30_one_window j.onlyBlocks hL t1 ht1 ?_ n
  intro b d h tr htr
  have h' : (if b ∈ j.blocks then j.read b else .error .missingRaw) = .ok d := h
  split at h'
  · rename_i hmem
    refine hread tr ?_
    unfold Job.record
    rw [List.mem_flatMap]
    refine ⟨b, hmem, ?_⟩
    unfold Job.streamOf
    rw [h']
    exact htr
  · cases h'

/-! ## Converting again -/

theorem ordinary_segments {j : Job} (h : Ordinary j) {s : CState} (hs : Settles (convertLoops j none) (.done s)) :
    (∀ tr ∈ s.w.out, tr.data ≠ []) ∧ s.w.out.Pairwise (Parted j.L) ∧ ∀ tr ∈ s.w.out, InOneWindow j.L tr := by
  obtain ⟨l, hl, hL⟩ := h.length
  obtain ⟨_, N, hN⟩ := hs
  have hN := hN N (le_refl _)
  have hp := written_parted j hl hL none (fun h => absurd rfl h) N
  have hw := C30_blocks j h.block (by rw [hL]; omega) none (by intro t h; cases h) (by
    intro tr htr
    have hne := h.order.1 tr htr
    refine ⟨hne, ?_⟩
    obtain ⟨x, r, e⟩ := head_samples (p := []) hne
    refine h.positive (tr.start, x) ?_
    unfold Job.recorded samples
    rw [List.mem_flatMap]
    refine ⟨tr, htr, ?_⟩
    rw [samples_cons] at e
    have : samples ([] : List Trace) = [] := rfl
    rw [this, List.append_nil] at e
    rw [e]
    simp) N
  rw [hN] at hp hw
  exact ⟨hp.1, hp.2, hw⟩

theorem writeAll_covered {α : Type} (ws : List (List Nat × α)) : ∀ (d d' : Dir α), (∀ name, name ∉ ws.map Prod.fst → d name = d' name) →
    d.writeAll ws = d'.writeAll ws := by
  induction ws with
  | nil => intro d d' h; funext name; exact h name (by simp)
  | cons w ws ih =>
    intro d d' h
    show (d.write w.1 w.2).writeAll ws = (d'.write w.1 w.2).writeAll ws
    apply ih
    intro name hname
    unfold Dir.write
    by_cases e : name = w.1
    · rw [if_pos e, if_pos e]
    · rw [if_neg e, if_neg e]
      exact h name (by simp only [List.map_cons, List.mem_cons, not_or]; exact ⟨e, hname⟩)

theorem writeAll_other {α : Type} (ws : List (List Nat × α)) : ∀ (d : Dir α) (name : List Nat), name ∉ ws.map Prod.fst → d.writeAll ws name = d name := by
  induction ws with
  | nil => intro d name _; rfl
  | cons w ws ih =>
    intro d name h
    simp only [List.map_cons, List.mem_cons, not_or] at h
    show (d.write w.1 w.2).writeAll ws name = d name
    rw [ih _ _ h.2]
    unfold Dir.write
    rw [if_neg h.1]

theorem fillIn_begins (a b : List (Int × Int)) : fillIn a <+: fillIn (a ++ b) := by
  by_cases ha : a = []
  · subst ha
    exact ⟨_, rfl⟩
  · by_cases hb : b = []
    · subst hb
      rw [List.append_nil]
    · obtain ⟨x, y, _, _, _, h⟩ := fillIn_parts ha hb
      rw [h, List.append_assoc]
      exact List.prefix_append _ _

/-- **C126.** Convert a record, and later, into the same folder and with the same file length, a longer record that begins with it. Every file of the first conversion but the last is
written again as it was, the last one is written again with the same samples and possibly more behind them, and the folder, whatever was in it, is as if only the longer record had been
converted. -/
theorem C126_convert_again (j1 j : Job) (h1 : Ordinary j1) (h : Ordinary j) (hL : j1.L = j.L) (more : List (Int × Int)) (hrec : j.recorded = j1.recorded ++ more)
    (id fmt : List Nat) :
    ∃ s1 s, Settles (convertLoops j1 none) (.done s1) ∧ Settles (convertLoops j none) (.done s) ∧
      (∃ pre last longer post, s1.w.out = pre ++ [last] ∧ s.w.out = pre ++ longer :: post ∧ longer.start = last.start ∧ last.data <+: longer.data) ∧
      ∀ dir : Dir Trace, (dir.writeAll (segmentWrites id fmt s1.w.out)).writeAll (segmentWrites id fmt s.w.out) = dir.writeAll (segmentWrites id fmt s.w.out) := by
  obtain ⟨s1, a1, a2⟩ := ordinary_out h1
  obtain ⟨s, b1, b2⟩ := ordinary_out h
  obtain ⟨n1, p1, w1⟩ := ordinary_segments h1 a1
  obtain ⟨n, p, w⟩ := ordinary_segments h b1
  have hfs : firstSecond j.recorded = firstSecond j1.recorded := by
    unfold firstSecond
    obtain ⟨y, t, e⟩ := List.exists_cons_of_ne_nil (ordinary_ne h1)
    rw [hrec, e]
    rfl
  have hpre : samples s1.w.out <+: samples s.w.out := by
    rw [a2, b2, hfs, hrec]
    obtain ⟨z, hz⟩ := fillIn_begins j1.recorded more
    rw [← hz]
    unfold from_
    rw [List.filter_append]
    exact List.prefix_append _ _
  have hne : s1.w.out ≠ [] := by
    intro e
    obtain ⟨q, hq, hq'⟩ := h1.reaches
    have : q ∈ samples s1.w.out := by
      rw [a2]
      exact mem_from.mpr ⟨(fillIn_sublist _).subset hq, hq'⟩
    rw [e] at this
    simp [samples] at this
  obtain ⟨l, hl, hl'⟩ := h.length
  rw [hL] at p1 w1
  obtain ⟨pre, last, longer, post, f1, f2, f3, f4⟩ := segments_prefix (by rw [hl']; omega) _ _ n1 n p1 p w1 w hpre hne
  refine ⟨s1, s, a1, b1, ⟨pre, last, longer, post, f1, f2, f3, f4⟩, ?_⟩
  intro dir
  apply writeAll_covered
  intro name hname
  apply writeAll_other
  intro hmem
  apply hname
  unfold segmentWrites at hmem ⊢
  rw [List.map_map, List.mem_map] at hmem ⊢
  obtain ⟨tr, htr, e⟩ := hmem
  rw [f1] at htr
  rcases List.mem_append.mp htr with hm | hm
  · exact ⟨tr, by rw [f2]; simp [hm], e⟩
  · simp only [List.mem_singleton] at hm
    subst hm
    refine ⟨longer, by rw [f2]; simp, ?_⟩
    simp only [Function.comp_apply] at e ⊢
    rw [f3, e]

/-- The example of `C29_nothing_lost`: the files of the first visit are converted, and later all files. -/
example := C126_convert_again firstVisit demoJob firstVisit_ordinary demoJob_ordinary rfl secondVisit.recorded (by decide +kernel) (bytes ".012..HDF") (bytes "mseed")

variable {d : RawDisk} {dir : List Entry} {SN : List Nat} {log : Entry → List Event} {nums nums1 nums2 : List (Option Int)} {blockdays : Rat} {l t2 : Int}
  {r1 r2 : BlockSpan} {rs1 rs2 : List BlockSpan} {ns ns1 ns2 : List Int}

/-- **C126, from the raw files.** The files of the first visit are converted, and after the second visit all files. Both conversions end normally, and the folder is as if only the second
one had taken place. -/
theorem C126_raw (h : TwoVisits d dir SN log nums nums1 nums2 blockdays l t2 r1 r2 rs1 rs2 ns ns1 ns2) (id fmt : List Nat) :
    ∃ s1 s, Settles (convertDir d.env true dir SN nums1 blockdays (10000 * l) none t2) (.done s1) ∧
      Settles (convertDir d.env true dir SN nums blockdays (10000 * l) none t2) (.done s) ∧
      (∃ pre last longer post, s1.w.out = pre ++ [last] ∧ s.w.out = pre ++ longer :: post ∧ longer.start = last.start ∧ last.data <+: longer.data) ∧
      ∀ folder : Dir Trace,
        (folder.writeAll (segmentWrites id fmt s1.w.out)).writeAll (segmentWrites id fmt s.w.out) = folder.writeAll (segmentWrites id fmt s.w.out) := by
  obtain ⟨o, o1, _, hrec, _⟩ := h.ordinary
  rw [convertDir_loops h.all_, convertDir_loops h.first]
  exact C126_convert_again _ _ o1 o rfl _ hrec id fmt

example := C126_raw long_visits (bytes ".012..HDF") (bytes "mseed")

end Gemlog
