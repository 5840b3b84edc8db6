import Verif.Lemmas.Convert

/-! # The block loops of `convert` -/

namespace Gemlog

/-- The blocks from number `n1` on: consecutive ranges of `12 * blockdays` numbers, as long as there are files. -/
def Job.blocksFrom (j : Job) (n1 : Rat) : List (List Int) :=
  (List.range (⌊((j.last : Rat) - n1) / (12 * j.blockdays)⌋ + 1).toNat).map fun (i : Nat) =>
    j.block (n1 + (i : Rat) * (12 * j.blockdays))

/-- The traces of a block; none if it cannot be read. -/
def Job.streamOf (j : Job) (b : List Int) : List Trace :=
  match j.read b with
  | .ok d => d
  | .error _ => []

/-- All traces of some blocks. -/
def Job.record (j : Job) (bs : List (List Int)) : List Trace := bs.flatMap j.streamOf

theorem blocksFrom_nil {j : Job} (hb : 0 < j.blockdays) {n1 : Rat} (h : n1 > j.last) : j.blocksFrom n1 = [] := by
  unfold Job.blocksFrom
  have : ⌊((j.last : Rat) - n1) / (12 * j.blockdays)⌋ < 0 := by
    rw [Int.floor_lt]
    push_cast
    exact div_neg_of_neg_of_pos (by linarith) (by linarith)
  rw [show (⌊((j.last : Rat) - n1) / (12 * j.blockdays)⌋ + 1).toNat = 0 by omega]
  rfl

theorem blocksFrom_cons {j : Job} (hb : 0 < j.blockdays) {n1 : Rat} (h : n1 ≤ j.last) :
    j.blocksFrom n1 = j.block n1 :: j.blocksFrom (n1 + 12 * j.blockdays) := by
  unfold Job.blocksFrom
  obtain ⟨h1, h2⟩ := blocks_floor hb h
  rw [h2]
  obtain ⟨k, hk⟩ : ∃ k : Nat, ⌊((j.last : Rat) - n1) / (12 * j.blockdays)⌋ = k := ⟨_, (Int.toNat_of_nonneg h1).symm⟩
  rw [hk]
  have e1 : ((k : Int) + 1).toNat = k + 1 := by omega
  have e2 : ((k : Int) - 1 + 1).toNat = k := by omega
  rw [e1, e2, List.range_succ_eq_map, List.map_cons, List.map_map]
  congr 1
  · simp
  · apply List.map_congr_left
    intro i _
    simp only [Function.comp_apply]
    congr 1
    push_cast
    ring

/-- Every failure of the reader for one of these blocks skips the block. -/
def Job.SkipsIn (j : Job) (bs : List (List Int)) : Prop := ∀ b ∈ bs, ∀ x, j.read b = .error x → x.skipsBlock = true

/-- All blocks of a job, from the first selected number on. -/
def Job.blocks (j : Job) : List (List Int) := j.blocksFrom (j.nums.head?.getD 0 : Int)

/-- Every failure of the reader skips its block. -/
def Job.OnlySkips (j : Job) : Prop := j.SkipsIn j.blocks

theorem Job.SkipsIn.right {j : Job} {a b c : List (List Int)} (h : j.SkipsIn c) (hc : c = a ++ b) : j.SkipsIn b :=
  fun x hx => h x (by rw [hc]; exact List.mem_append_right _ hx)

theorem firstBlock_ok {j : Job} (hb : 0 < j.blockdays) (k : Nat) (n1 : Rat) (reads : List (List Int))
    (hs : j.SkipsIn (j.blocksFrom n1)) (hk : (j.blocksFrom n1).length = k) (hne : j.record (j.blocksFrom n1) ≠ []) :
    ∃ n2 p rd b, Settles (fun n => firstBlock j n n1 reads) (.done (n2, p, reads ++ rd ++ [b])) ∧ p ≠ [] ∧
      j.blocksFrom n1 = rd ++ b :: j.blocksFrom n2 ∧ j.record rd = [] ∧ j.streamOf b = p := by
  induction k generalizing n1 reads with
  | zero =>
    rw [List.length_eq_zero_iff] at hk
    rw [hk] at hne
    exact absurd rfl hne
  | succ k ih =>
    have hn : n1 ≤ j.last := by
      by_contra h
      rw [blocksFrom_nil hb (not_le.mp h)] at hk
      simp at hk
    have hc := blocksFrom_cons hb hn
    have hs1 : ∀ x, j.read (j.block n1) = .error x → x.skipsBlock = true := hs _ (by rw [hc]; exact List.mem_cons_self ..)
    have hs2 : j.SkipsIn (j.blocksFrom (n1 + 12 * j.blockdays)) := hs.right (a := [j.block n1]) hc
    have hk' : (j.blocksFrom (n1 + 12 * j.blockdays)).length = k := by
      rw [hc] at hk
      simpa using hk
    cases hr : j.read (j.block n1) with
    | error x =>
      have hst : j.streamOf (j.block n1) = [] := by unfold Job.streamOf; rw [hr]
      have hrec : j.record (j.blocksFrom n1) = j.record (j.blocksFrom (n1 + 12 * j.blockdays)) := by
        rw [hc]
        unfold Job.record
        rw [List.flatMap_cons, hst, List.nil_append]
      obtain ⟨n2, p, rd, b, h1, h2, h3, h4, h5⟩ := ih (n1 + 12 * j.blockdays) (reads ++ [j.block n1]) hs2 hk' (by rw [← hrec]; exact hne)
      refine ⟨n2, p, j.block n1 :: rd, b, ?_, h2, by rw [hc, h3]; rfl, ?_, h5⟩
      · apply settles_succ
        simp only [firstBlock, if_pos hn, hr, hs1 x hr, if_true]
        simpa [List.append_assoc] using h1
      · show j.streamOf (j.block n1) ++ j.record rd = []
        rw [hst, h4]; rfl
    | ok d =>
      cases d with
      | nil =>
        have hst : j.streamOf (j.block n1) = [] := by unfold Job.streamOf; rw [hr]
        have hrec : j.record (j.blocksFrom n1) = j.record (j.blocksFrom (n1 + 12 * j.blockdays)) := by
          rw [hc]
          unfold Job.record
          rw [List.flatMap_cons, hst, List.nil_append]
        obtain ⟨n2, p, rd, b, h1, h2, h3, h4, h5⟩ := ih (n1 + 12 * j.blockdays) (reads ++ [j.block n1]) hs2 hk' (by rw [← hrec]; exact hne)
        refine ⟨n2, p, j.block n1 :: rd, b, ?_, h2, by rw [hc, h3]; rfl, ?_, h5⟩
        · apply settles_succ
          simp only [firstBlock, if_pos hn, hr]
          simpa [List.append_assoc] using h1
        · show j.streamOf (j.block n1) ++ j.record rd = []
          rw [hst, h4]; rfl
      | cons t d =>
        refine ⟨n1 + 12 * j.blockdays, t :: d, [], j.block n1, ?_, by simp, hc, rfl, ?_⟩
        · apply settles_succ
          simp only [firstBlock, if_pos hn, hr, List.append_nil]
          exact settles_const (by simp)
        · unfold Job.streamOf; rw [hr]

theorem inOrder_append {a b : List Trace} :
    InOrder (a ++ b) ↔ InOrder a ∧ InOrder b ∧ ∀ x ∈ samples a, ∀ y ∈ samples b, x.1 < y.1 := by
  unfold InOrder
  rw [samples_append, increasing_append]
  constructor
  · rintro ⟨h1, h2, h3, h4⟩
    exact ⟨⟨fun t ht => h1 t (by simp [ht]), h2⟩, ⟨fun t ht => h1 t (by simp [ht]), h3⟩, h4⟩
  · rintro ⟨⟨h1, h2⟩, ⟨h3, h4⟩, h5⟩
    refine ⟨?_, h2, h4, h5⟩
    intro t ht
    rcases List.mem_append.mp ht with ht | ht
    · exact h1 t ht
    · exact h3 t ht

/-- Merging the first part of a stream keeps the order. -/
theorem inOrder_mergeGaps_append {a b : List Trace} (h : InOrder (a ++ b)) : InOrder (mergeGaps a ++ b) := by
  obtain ⟨h1, h2, h3⟩ := inOrder_append.mp h
  refine inOrder_append.mpr ⟨inOrder_mergeGaps h1, h2, ?_⟩
  intro x hx y hy
  rw [samples_mergeGaps h1] at hx
  obtain ⟨_, c, hc, hxc⟩ := fillIn_bounds h1.2 hx
  have := h3 c hc y hy
  omega

theorem mergeGaps_ne {a : List Trace} (ho : InOrder a) (h : a ≠ []) : mergeGaps a ≠ [] := by
  intro hn
  have h1 := samples_mergeGaps ho
  rw [hn] at h1
  have h2 : samples a ≠ [] := by
    rw [Ne, samples_eq_nil ho.1]
    exact h
  have := (fillIn_sublist (samples a)).length_le
  rw [← h1] at this
  have := List.length_pos_iff.mpr h2
  simp [samples] at *
  omega

/-- The invariant of the loops over the blocks. `X`: what would be written without further filling, `Y`: with all small
gaps filled. -/
structure Progress (R0 R1 : List (Int × Int)) (full : Prop) (out p fut : List Trace) (h : Int) : Prop where
  order : InOrder (p ++ fut)
  ne : p ≠ []
  lower : R0.Sublist (samples out ++ from_ h (samples (p ++ fut)))
  upper : (samples out ++ from_ h (fillIn (samples (p ++ fut)))).Sublist R1
  exact : full → Filled (samples p) ∧ samples out ++ from_ h (fillIn (samples (p ++ fut))) = R1

theorem from_sublist {a b : List (Int × Int)} (h : a.Sublist b) (t : Int) : (from_ t a).Sublist (from_ t b) :=
  List.Sublist.filter _ h

theorem progress_merge {R0 R1 : List (Int × Int)} {full : Prop} {out p d fut : List Trace} {h : Int}
    (hp : Progress R0 R1 full out p (d ++ fut) h) : Progress R0 R1 full out (mergeGaps (p ++ d)) fut h := by
  have ho : InOrder (p ++ d ++ fut) := by rw [List.append_assoc]; exact hp.order
  have ho1 : InOrder (p ++ d) := (inOrder_append.mp ho).1
  have e1 : fillIn (samples (mergeGaps (p ++ d) ++ fut)) = fillIn (samples (p ++ (d ++ fut))) := by
    rw [samples_append, samples_mergeGaps ho1, fillIn_fillIn_append ho1.2, ← samples_append, List.append_assoc]
  refine ⟨inOrder_mergeGaps_append ho, mergeGaps_ne ho1 (by simp [hp.ne]), ?_, ?_, ?_⟩
  · refine hp.lower.trans (List.Sublist.append_left (from_sublist ?_ h) _)
    rw [← List.append_assoc, samples_append, samples_append (mergeGaps _)]
    apply List.Sublist.append_right
    rw [samples_mergeGaps ho1]
    exact fillIn_sublist _
  · rw [e1]; exact hp.upper
  · intro hf
    refine ⟨?_, ?_⟩
    · rw [samples_mergeGaps ho1]; exact fillIn_filled ho1.2
    · rw [e1]; exact (hp.exact hf).2

/-- Filling more at once gives at least as much. -/
theorem append_fillIn_sublist (a b : List (Int × Int)) : (a ++ fillIn b).Sublist (fillIn (a ++ b)) := by
  induction a with
  | nil => exact List.Sublist.refl _
  | cons x a ih =>
    cases hab : a ++ b with
    | nil =>
      have : a = [] ∧ b = [] := by simpa using hab
      rw [this.1, this.2]
      exact List.Sublist.refl _
    | cons y t =>
      rw [List.cons_append, List.cons_append, hab, fillIn]
      rw [hab] at ih
      exact List.Sublist.cons_cons x (ih.trans (List.sublist_append_right _ _))

/-- A filled record stays as it is in front of anything. -/
theorem fillIn_filled_append {a b : List (Int × Int)} {x : Int × Int} (h : Filled (a ++ x :: b)) (t : List (Int × Int)) :
    fillIn (a ++ ((x :: b) ++ t)) = a ++ fillIn ((x :: b) ++ t) := by
  rcases List.eq_nil_or_concat (x :: b) with hn | ⟨r, y, hr⟩
  · simp at hn
  · rw [List.concat_eq_append] at hr
    rw [hr] at h ⊢
    have h2 : Filled (r ++ [y]) := by
      rw [← hr]
      rcases List.eq_nil_or_concat a with ha | ⟨a', z, ha⟩
      · rw [ha] at h
        rw [hr]
        exact h
      · rw [List.concat_eq_append] at ha
        rw [ha, ← hr, List.append_assoc, List.singleton_append] at h
        exact (filled_append.mp h).2.2
    rw [List.append_assoc, List.singleton_append, fillIn_prefix h2, ← List.append_assoc a r, fillIn_prefix (by rw [List.append_assoc]; exact h)]
    rw [List.append_assoc]

theorem filled_suffix {a b : List (Int × Int)} (h : Filled (a ++ b)) : Filled b := by
  cases b with
  | nil => rfl
  | cons x b =>
    rcases List.eq_nil_or_concat a with ha | ⟨a', z, ha⟩
    · rw [ha] at h; exact h
    · rw [List.concat_eq_append] at ha
      rw [ha, List.append_assoc, List.singleton_append] at h
      exact (filled_append.mp h).2.2

/-- Cutting off a written part of the record. -/
theorem progress_cut {R0 R1 : List (Int × Int)} {full : Prop} {out out' p p' fut : List Trace} {h h' : Int}
    {r : List (Int × Int)} (hp : Progress R0 R1 full out p fut h) (hs : samples p = r ++ samples p') (hne : p' ≠ [])
    (ho' : InOrder p') (hout : samples out' = samples out ++ from_ h r)
    (hh : h' = h ∨ (h ≤ h' ∧ from_ h' (samples p') = samples p')) : Progress R0 R1 full out' p' fut h' := by
  obtain ⟨o1, o2, o3⟩ := inOrder_append.mp hp.order
  have hord : InOrder (p' ++ fut) := by
    refine inOrder_append.mpr ⟨ho', o2, ?_⟩
    intro x hx y hy
    exact o3 x (by rw [hs]; simp [hx]) y hy
  have hsne : samples p' ≠ [] := by
    rw [Ne, samples_eq_nil ho'.1]
    exact hne
  obtain ⟨x, s', hx⟩ := List.exists_cons_of_ne_nil hsne
  have hfrom : ∀ s, (∀ q ∈ s, ∃ c ∈ samples p' ++ samples fut, c.1 ≤ q.1) → from_ h' s = from_ h s := by
    intro s hs'
    rcases hh with hh | ⟨h1, h2⟩
    · rw [hh]
    · have key : ∀ q ∈ s, h' ≤ 10000 * q.1 := by
        intro q hq
        obtain ⟨c, hc, hcq⟩ := hs' q hq
        rcases List.mem_append.mp hc with hc | hc
        · rw [← h2] at hc
          have := (mem_from.mp hc).2
          omega
        · have hxm : x ∈ from_ h' (samples p') := by rw [h2, hx]; simp
          have z1 := (mem_from.mp hxm).2
          have z2 := o3 x (by rw [hs, hx]; simp) c hc
          omega
      rw [from_all key, from_all]
      intro q hq
      have := key q hq
      omega
  have f1 : from_ h' (samples (p' ++ fut)) = from_ h (samples (p' ++ fut)) := by
    apply hfrom
    intro q hq
    exact ⟨q, by rw [← samples_append]; exact hq, le_refl _⟩
  have f2 : from_ h' (fillIn (samples (p' ++ fut))) = from_ h (fillIn (samples (p' ++ fut))) := by
    apply hfrom
    intro q hq
    obtain ⟨⟨c, hc, hcq⟩, _⟩ := fillIn_bounds hord.2 hq
    exact ⟨c, by rw [← samples_append]; exact hc, hcq⟩
  have e0 : samples (p ++ fut) = r ++ samples (p' ++ fut) := by
    rw [samples_append, samples_append, hs, List.append_assoc]
  have e1 : samples out' ++ from_ h' (samples (p' ++ fut)) = samples out ++ from_ h (samples (p ++ fut)) := by
    rw [f1, hout, e0, from_append, List.append_assoc]
  refine ⟨hord, hne, by rw [e1]; exact hp.lower, ?_, ?_⟩
  · refine List.Sublist.trans ?_ hp.upper
    rw [f2, hout, e0, List.append_assoc, ← from_append]
    exact List.Sublist.append_left (from_sublist (append_fillIn_sublist _ _) h) _
  · intro hf
    obtain ⟨g1, g2⟩ := hp.exact hf
    refine ⟨filled_suffix (a := r) (by rw [← hs]; exact g1), ?_⟩
    rw [← g2, f2, hout, e0, List.append_assoc, ← from_append]
    congr 2
    rw [samples_append, hx]
    rw [hs, hx] at g1
    exact (fillIn_filled_append g1 _).symm

theorem le_stop_of_prefix {p p' : List Trace} {tr tr' : Trace} (ho : InOrder p) (ho' : InOrder p') (h : p.getLast? = some tr)
    (h' : p'.getLast? = some tr') (hs : (samples p).Sublist (samples p')) : tr.stop ≤ tr'.stop := by
  obtain ⟨x, r, e⟩ := last_samples h (ho.1 tr (List.mem_of_getLast? h))
  have : (tr.stop, x) ∈ samples p' := hs.subset (by rw [e]; simp)
  exact le_stop ho' h' this

theorem exists_last {p : List Trace} (h : p ≠ []) : ∃ tr, p.getLast? = some tr :=
  ⟨p.getLast h, List.getLast?_eq_some_getLast h⟩

theorem readBlocks_ok {j : Job} (hb : 0 < j.blockdays) {R0 R1 : List (Int × Int)} {full : Prop} (tt2 h : Int)
    (out : List Trace) (k : Nat) (n1 : Rat) (p : List Trace) (reads : List (List Int)) (hs : j.SkipsIn (j.blocksFrom n1))
    (hk : (j.blocksFrom n1).length = k) (hp : Progress R0 R1 full out p (j.record (j.blocksFrom n1)) h) :
    ∃ n2 p' rd, Settles (fun n => readBlocks j tt2 out n n1 p reads) (.done (n2, p', reads ++ rd)) ∧
      j.blocksFrom n1 = rd ++ j.blocksFrom n2 ∧ Progress R0 R1 full out p' (j.record (j.blocksFrom n2)) h ∧
      (samples p).Sublist (samples p') ∧ ((∃ tr, p'.getLast? = some tr ∧ tt2 ≤ 10000 * tr.stop) ∨ n2 > j.last) := by
  induction k generalizing n1 p reads with
  | zero =>
    rw [List.length_eq_zero_iff] at hk
    have hn : ¬ n1 ≤ j.last := by
      intro h
      rw [blocksFrom_cons hb h] at hk
      simp at hk
    obtain ⟨tr, htr⟩ := exists_last hp.ne
    refine ⟨n1, p, [], ?_, rfl, hp, List.Sublist.refl _, Or.inr (not_le.mp hn)⟩
    apply settles_succ
    simp only [readBlocks, htr, hn, and_false, if_false, List.append_nil]
    exact settles_const (by simp)
  | succ k ih =>
    obtain ⟨tr, htr⟩ := exists_last hp.ne
    have hn : n1 ≤ j.last := by
      by_contra h
      rw [blocksFrom_nil hb (not_le.mp h)] at hk
      simp at hk
    have hc := blocksFrom_cons hb hn
    have hs1 : ∀ x, j.read (j.block n1) = .error x → x.skipsBlock = true := hs _ (by rw [hc]; exact List.mem_cons_self ..)
    have hs2 : j.SkipsIn (j.blocksFrom (n1 + 12 * j.blockdays)) := hs.right (a := [j.block n1]) hc
    have hk' : (j.blocksFrom (n1 + 12 * j.blockdays)).length = k := by
      rw [hc] at hk
      simpa using hk
    have hrec : j.record (j.blocksFrom n1) = j.streamOf (j.block n1) ++ j.record (j.blocksFrom (n1 + 12 * j.blockdays)) := by
      rw [hc]; rfl
    by_cases hcond : 10000 * tr.stop < tt2
    · rw [hrec] at hp
      cases hr : j.read (j.block n1) with
      | error x =>
        have hst : j.streamOf (j.block n1) = [] := by unfold Job.streamOf; rw [hr]
        rw [hst, List.nil_append] at hp
        obtain ⟨n2, p', rd, h1, h2, h3, h4, h5⟩ := ih (n1 + 12 * j.blockdays) p (reads ++ [j.block n1]) hs2 hk' hp
        refine ⟨n2, p', j.block n1 :: rd, ?_, by rw [hc, h2]; rfl, h3, h4, h5⟩
        apply settles_succ
        simp only [readBlocks, htr, hcond, hn, and_self, if_true, hr, hs1 x hr]
        simpa [List.append_assoc] using h1
      | ok d =>
        have hst : j.streamOf (j.block n1) = d := by unfold Job.streamOf; rw [hr]
        cases d with
        | nil =>
          rw [hst, List.nil_append] at hp
          obtain ⟨n2, p', rd, h1, h2, h3, h4, h5⟩ := ih (n1 + 12 * j.blockdays) p (reads ++ [j.block n1]) hs2 hk' hp
          refine ⟨n2, p', j.block n1 :: rd, ?_, by rw [hc, h2]; rfl, h3, h4, h5⟩
          apply settles_succ
          simp only [readBlocks, htr, hcond, hn, and_self, if_true, hr]
          simpa [List.append_assoc] using h1
        | cons t d =>
          rw [hst] at hp
          have hm := progress_merge hp
          have ho1 : InOrder (p ++ t :: d) := (inOrder_append.mp (by rw [List.append_assoc]; exact hp.order)).1
          obtain ⟨n2, p', rd, h1, h2, h3, h4, h5⟩ := ih (n1 + 12 * j.blockdays) _ (reads ++ [j.block n1]) hs2 hk' hm
          refine ⟨n2, p', j.block n1 :: rd, ?_, by rw [hc, h2]; rfl, h3, List.Sublist.trans ?_ h4, h5⟩
          · apply settles_succ
            simp only [readBlocks, htr, hcond, hn, and_self, if_true, hr]
            simpa [List.append_assoc] using h1
          · rw [samples_mergeGaps ho1]
            refine List.Sublist.trans ?_ (fillIn_sublist _)
            rw [samples_append]
            exact List.sublist_append_left _ _
    · refine ⟨n1, p, [], ?_, rfl, hp, List.Sublist.refl _, Or.inl ⟨tr, htr, by omega⟩⟩
      apply settles_succ
      simp only [readBlocks, htr, hcond, false_and, if_false, List.append_nil]
      exact settles_const (by simp)

/-- `t2` lies at least a file, a block and a second behind every sample that can still be written. -/
def Far (j : Job) (R1 : List (Int × Int)) : Prop :=
  ∀ q ∈ R1, 10000 * q.1 + j.L + j.day + 1000000 ≤ j.t2

theorem progress_last_mem {R0 R1 : List (Int × Int)} {full : Prop} {out p fut : List Trace} {h : Int} {tr : Trace}
    (hp : Progress R0 R1 full out p fut h) (htr : p.getLast? = some tr) (hh : h ≤ 10000 * tr.stop) :
    ∃ x, (tr.stop, x) ∈ R1 := by
  have ho := (inOrder_append.mp hp.order).1
  obtain ⟨x, r, e⟩ := last_samples htr (ho.1 tr (List.mem_of_getLast? htr))
  refine ⟨x, hp.upper.subset ?_⟩
  rw [List.mem_append]
  right
  rw [mem_from]
  refine ⟨(fillIn_sublist _).subset ?_, hh⟩
  rw [samples_append, e]
  simp

theorem mainLoop_ok {j : Job} {l : Int} (hb : 0 < j.blockdays) (hl : 0 < l) (hL : j.L = 10000 * l)
    {R0 R1 : List (Int × Int)} {full : Prop} (hfar : Far j R1) (k : Nat) (s : CState)
    (hs : j.SkipsIn (j.blocksFrom s.n1)) (hk : (j.t2 + 1 - s.t1).toNat ≤ k) (h0 : 0 ≤ s.w.h) (ht0 : 0 ≤ s.t1)
    (ht : s.t1 ≤ j.t2 ∨ s.n1 > j.last) (tr : Trace) (htr : s.w.p.getLast? = some tr)
    (hh : s.w.h ≤ 10000 * tr.stop ∨ s.n1 > j.last ∨
      s.w.out = [] ∧ R0 ≠ [] ∧ s.w.h < truncTime s.t1 (j.day) + j.day)
    (hp : Progress R0 R1 full s.w.out s.w.p (j.record (j.blocksFrom s.n1)) s.w.h) :
    ∃ s' rd, Settles (fun n => mainLoop j n s) (.done s') ∧ s'.n1 > j.last ∧ s'.reads = s.reads ++ rd ∧
      j.blocksFrom s.n1 = rd ∧ 0 ≤ s'.w.h ∧ Progress R0 R1 full s'.w.out s'.w.p [] s'.w.h := by
  induction k using Nat.strong_induction_on generalizing s tr with
  | _ k ih =>
    by_cases hn : s.n1 > j.last
    · have hnil := blocksFrom_nil hb hn
      rw [hnil] at hp
      refine ⟨s, [], ?_, hn, by simp, hnil, h0, hp⟩
      apply settles_succ
      simp only [mainLoop, if_pos hn]
      exact settles_const (by simp)
    · have ht' : s.t1 ≤ j.t2 := by
        rcases ht with h | h
        · exact h
        · exact absurd h hn
      obtain ⟨day, hday⟩ : ∃ day, day = j.day := ⟨_, rfl⟩
      have hdpos : 0 < day := by rw [hday]; exact day_pos hb
      obtain ⟨tt2, htt2⟩ : ∃ tt2, tt2 = min j.t2 (truncTime s.t1 day + day) := ⟨_, rfl⟩
      have hLpos : 0 < j.L := by omega
      obtain ⟨n2, p1, rd1, r1, r2, r3, r4, r5⟩ := readBlocks_ok hb tt2 s.w.h s.w.out _ s.n1 s.w.p s.reads hs rfl hp
      obtain ⟨tr1, htr1⟩ := exists_last r3.ne
      have ho0 := (inOrder_append.mp hp.order).1
      have ho1 := (inOrder_append.mp r3.order).1
      have hst1 := le_stop_of_prefix ho0 ho1 htr htr1 r4
      have hh' : s.w.h ≤ 10000 * tr1.stop := by
        rcases hh with h | h | ⟨g1, g2, g3⟩
        · omega
        · exact absurd h hn
        · obtain ⟨q, hq⟩ := List.exists_mem_of_ne_nil _ g2
          have hlow := r3.lower.subset hq
          have hup := r3.upper
          rw [g1, samples_nil, List.nil_append] at hlow hup
          have hq1 := (mem_from.mp hlow).2
          have hq2 := hfar _ (hup.subset ((from_sublist (fillIn_sublist _) _).subset hlow))
          rcases r5 with ⟨tr', q1, q2⟩ | h
          · rw [htr1] at q1
            simp only [Option.some.injEq] at q1
            rw [← q1] at q2
            have : s.w.h ≤ tt2 := by
              rw [htt2, hday]
              exact le_min (by omega) (by omega)
            omega
          · rw [blocksFrom_nil hb h] at hlow
            have hm := (mem_from.mp hlow).1
            have e : p1 ++ j.record [] = p1 := by
              show p1 ++ [] = p1
              rw [List.append_nil]
            rw [e] at hm
            have := le_stop ho1 htr1 hm
            omega
      obtain ⟨x1, hx1⟩ := progress_last_mem r3 htr1 hh'
      have hf1 := hfar _ hx1
      simp only at hf1
      obtain ⟨w2, w1, w3, w4, w5, w6, w7, r, w8, w9⟩ := writeFull_ok (t2 := j.t2) hL hl (tr := tr1) _ { s.w with p := p1 } (le_refl _) ho1 htr1
        h0 (by simp only; omega) (by omega)
      simp only at w5 w7 w8 w9
      -- state after writing whole windows
      have hp2 : Progress R0 R1 full w2.out w2.p (j.record (j.blocksFrom n2)) w2.h := by
        by_cases he : w2 = { s.w with p := p1 }
        · rw [he]; exact r3
        · refine progress_cut r3 w8 w4 w3 (w9 he) ?_
          rcases w7 with h | h
          · exact absurd h he
          · exact Or.inr ⟨w5, h⟩
      obtain ⟨tr2, htr2, hst2⟩ := last_of_suffix ho1 w3 htr1 w4 ⟨r, w8.symm⟩
      -- state after trimming
      obtain ⟨p3, r', t1, t2, t3, t4, t5⟩ := trim_at (t2 := j.t2) (h := w2.h) w3 htr2 (by omega) (by omega)
      have hp3 : Progress R0 R1 full w2.out p3 (j.record (j.blocksFrom n2)) w2.h := by
        refine progress_cut hp2 t4 t2 t3 ?_ (Or.inl rfl)
        rw [t5, List.append_nil]
      obtain ⟨tr3, htr3, hst3⟩ := last_of_suffix w3 t3 htr2 t2 ⟨r', t4.symm⟩
      obtain ⟨t1', ht1'⟩ : ∃ t1', t1' = truncTime (tt2 + day + 1000000) day := ⟨_, rfl⟩
      have g1 := truncTime_nonneg ht0 hdpos
      have htt2pos : 0 ≤ tt2 := by
        rw [htt2]
        exact le_min (by omega) (by omega)
      have g2 := truncTime_nonneg (show 0 ≤ tt2 + day + 1000000 by omega) hdpos
      rw [← ht1'] at g2
      have htt2' : tt2 = j.t2 ∨ tt2 = truncTime s.t1 day + day := by
        rw [htt2]
        rcases le_total j.t2 (truncTime s.t1 day + day) with h | h
        · exact Or.inl (min_eq_left h)
        · exact Or.inr (min_eq_right h)
      have ht1lt : s.t1 < t1' := by
        rcases htt2' with h | h <;> omega
      have hnext : t1' ≤ j.t2 ∨ n2 > j.last := by
        rcases r5 with ⟨tr', q1, q2⟩ | h
        · left
          rw [htr1] at q1
          simp only [Option.some.injEq] at q1
          rw [← q1] at q2
          linarith [g2.1]
        · exact Or.inr h
      clear r5
      obtain ⟨s', rd2, u1, u2, u3, u4, u5, u6⟩ := ih (j.t2 + 1 - t1').toNat (by omega)
        ⟨n2, t1', { w2 with p := p3 }, s.reads ++ rd1⟩ (hs.right r2) (le_refl _) (by simp only; omega) (by simp only; omega)
        hnext
        tr3 htr3 (by simp only; left; omega) hp3
      simp only at u3 u4
      refine ⟨s', rd1 ++ rd2, ?_, u2, by rw [u3, List.append_assoc], by rw [r2, u4], u5, u6⟩
      apply settles_succ
      have hn' : ¬ s.t1 > j.t2 := by omega
      simp only [mainLoop, if_neg hn, if_neg hn']
      rw [← hday, ← htt2, ← ht1']
      refine settles_bind r1 ?_
      refine settles_bind w1 ?_
      simp only [t1]
      exact u1

end Gemlog
