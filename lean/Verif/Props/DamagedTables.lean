import Verif.Props.RestartsStatus
import Verif.Props.DamagedConvert

/-!
# C101: the metadata and GPS files of a folder with damaged files
-/

namespace Gemlog

/-! ## Specification -/

/-- The row found for a status line has the values of the line, and the time as if there were no damaged files (`LineFound`), but perhaps for lines at the count zero
(see `C101_violated_metadata`). -/
def LineFoundDamaged (files : List ClockedFile) (q : ClockedFile × Rat × List Rat) (m : Rat × List (Option Rat) × Option Rat) : Prop :=
  m.2.1 = q.2.2.map some ∧ (m.1 ≠ 0 → LineFound files q m)

/-! ## Proof -/

theorem damaged_block_data {d : RawDisk} {dir : List Entry} {SN : List Nat} {log : Entry → ClockedFile} {bad : Entry → Bool} (n : Int) (hn : pyInt SN = some n)
    (specs : Specs) (hspecs : gemSpecs n = .ok specs) (hfit : Reproduces d.fit) (hfit1 : ReproducesLines d.fit) (j : TableJob)
    (hj : ∀ block, j.readAll block = readGem d.env dir SN block true) {b : List Int} {ss : List Session} (h : BlockWithDamage d dir SN log bad b ss) :
    (ss = [] ∧ j.dataOf [b] = [] ∧ findFiles (without bad dir) SN b = []) ∨
      ∃ g, j.dataOf [b] = [g] ∧ ss ≠ [] ∧ List.Forall₂ SessionTrace ss g.stream ∧ (∀ p ∈ g.problems, bad p.1 = true) ∧
        (∀ e ∈ findFiles dir SN b, bad e = true → d.env.version e ≠ none → ∃ p ∈ g.problems, p.1 = e) ∧
        g.gps.map fixFound = blockFixes (without bad dir) SN log b ∧
        List.Forall₂ (fun q m => LineFoundDamaged q.1 q.2 m) (blockLines (without bad dir) SN log b) g.metadata := by
  have hsel := findFiles_without bad dir SN b
  rcases h.good with ⟨h1, rfl⟩ | ⟨first, rest, groups, hs⟩
  · left
    rcases damage_yield h n hn specs hspecs hfit hfit1 with ⟨g, g1, g2⟩ | ⟨_, x, x1, _⟩
    · refine ⟨rfl, dataOf_empty ((hj b).trans g1) ?_, h1⟩
      generalize g.stream = st at g2
      cases g2
      rfl
    · exact ⟨rfl, dataOf_error ((hj b).trans x1), h1⟩
  · right
    obtain ⟨v, hv, hver⟩ := hs.version
    obtain ⟨g, g1, g2, g3, g4, _⟩ := C100_sessions d (without bad dir) SN b log first rest hs.files hs.texts hs.sound v hv hver hs.serials n hn specs hspecs
      hs.gain hfit hfit1 groups hs.grouped ss hs.sessions hs.gaps
    obtain ⟨g', k1, k2, k3, k4, k5, lost, k6, k7⟩ := C101_read_gem d.env dir SN b bad g g1 h.damaged
      (by
        intro e he
        rw [hs.files] at he
        simp only [List.head?_cons, Option.mem_def, Option.some.injEq] at he
        subst he
        refine ⟨v, hv, ?_⟩
        show formatVersion (d.content first) = some v
        rw [hs.texts first (by simp)]
        exact formatVersion_first hv hver)
      (by
        intro e he hb
        have hm : e ∈ first :: rest := by
          rw [← hs.files, hsel]
          exact List.mem_filter.mpr ⟨he, by simp [hb]⟩
        have hf : log e ∈ (first :: rest).map log := List.mem_map_of_mem hm
        have hr := hs.sound.rate (log e) hf
        exact sound_neverZero d e hr.1 (by linarith [hr.2.1]) hfit hfit1 (hs.sound.sound (log e) hf) (hs.sound.begins (log e) hf) (hs.texts e hm)
          (hs.serials e hm) (h.whole e he hb))
    have hne : ss ≠ [] := by
      rintro rfl
      have h1 := hs.sessions
      have h2 := hs.grouped
      cases h1
      simp at h2
    refine ⟨g', dataOf_ok ((hj b).trans k1) ?_, hne, by rw [k2]; exact g2, ?_, ?_, ?_, ?_⟩
    · intro hst
      rw [← k2, hst] at g2
      cases g2
      exact hne rfl
    · intro p hp
      by_contra hc
      have : p ∈ g'.problems.filter fun p => !bad p.1 := List.mem_filter.mpr ⟨hp, by simpa using hc⟩
      rw [k5, g3] at this
      simp at this
    · intro e he hb hver'
      have hm : e ∈ lost ++ (g'.problems.map Prod.fst).filter bad := by
        rw [← k6]
        exact List.mem_filter.mpr ⟨he, hb⟩
      rcases List.mem_append.mp hm with hm | hm
      · exact absurd (k7 e hm) hver'
      · obtain ⟨p, hp, hpe⟩ := List.mem_map.mp (List.mem_filter.mp hm).1
        exact ⟨p, hp, hpe⟩
    · unfold blockFixes
      rw [k3, hs.files]
      exact g4
    · unfold blockLines
      rw [hs.files, List.forall₂_map_left_iff]
      have hl := C100_status_times d (without bad dir) SN b log first rest hs.files hs.texts hs.sound v hv hver hs.serials hfit hfit1 g g1
      generalize clockedLines ((first :: rest).map log) = qs at hl
      generalize g'.metadata = m' at k4
      generalize g.metadata = m at k4 hl
      clear k1 k2 k3 k5 k6 k7 g1 g2 g3 g4
      induction k4 generalizing qs with
      | nil =>
        cases hl
        exact .nil
      | cons ha _ ih =>
        cases hl with
        | cons hb hrest =>
          refine .cons ?_ (ih _ hrest)
          obtain ⟨a1, a2, a3⟩ := ha
          obtain ⟨b1, b2, b3⟩ := hb
          refine ⟨a2.trans b1, fun h0 => ?_⟩
          unfold LineFound
          rw [a3 h0]
          exact ⟨a2.trans b1, b2, b3⟩

theorem damaged_blocks_data {d : RawDisk} {dir : List Entry} {SN : List Nat} {log : Entry → ClockedFile} {bad : Entry → Bool} (n : Int) (hn : pyInt SN = some n)
    (specs : Specs) (hspecs : gemSpecs n = .ok specs) (hfit : Reproduces d.fit) (hfit1 : ReproducesLines d.fit) (j : TableJob)
    (hj : ∀ block, j.readAll block = readGem d.env dir SN block true) {bs : List (List Int)} {sss : List (List Session)}
    (h : List.Forall₂ (BlockWithDamage d dir SN log bad) bs sss) :
    (∀ p ∈ (j.dataOf bs).flatMap GemData.problems, bad p.1 = true) ∧
      ((j.dataOf bs).flatMap GemData.gps).map fixFound = bs.flatMap (blockFixes (without bad dir) SN log) ∧
      List.Forall₂ (fun q m => LineFoundDamaged q.1 q.2 m) (bs.flatMap (blockLines (without bad dir) SN log)) ((j.dataOf bs).flatMap GemData.metadata) ∧
      (∀ b ∈ bs, findFiles (without bad dir) SN b ≠ [] → ∀ e ∈ findFiles dir SN b, bad e = true → d.env.version e ≠ none →
        ∃ p ∈ (j.dataOf bs).flatMap GemData.problems, p.1 = e) ∧
      ∀ s0 ss, sss.flatten = s0 :: ss → ∃ pre b post g s1 ss', bs = pre ++ b :: post ∧ (∀ x ∈ pre, findFiles (without bad dir) SN x = []) ∧
        j.dataOf bs = g :: j.dataOf post ∧ g.gps.map fixFound = blockFixes (without bad dir) SN log b ∧ List.Forall₂ SessionTrace (s0 :: s1) g.stream ∧
        List.Forall₂ (BlockWithDamage d dir SN log bad) post ss' ∧ (s0 :: s1) <+: s0 :: ss := by
  induction h with
  | nil => exact ⟨by intro p hp; exact absurd hp List.not_mem_nil, rfl, .nil, by simp, by intro s0 ss h; simp at h⟩
  | @cons b ss bs sss hb hbs ih =>
    obtain ⟨i1, i2, i3, i0, i4⟩ := ih
    rw [show b :: bs = [b] ++ bs from rfl, dataOf_append]
    rcases damaged_block_data n hn specs hspecs hfit hfit1 j hj hb with ⟨rfl, h1, h2⟩ | ⟨g, h1, h2, h3, h4, h0, h5, h6⟩
    · have e1 : blockFixes (without bad dir) SN log b = [] := by unfold blockFixes; rw [h2]; rfl
      have e2 : blockLines (without bad dir) SN log b = [] := by unfold blockLines clockedLines; rw [h2]; rfl
      rw [h1, List.nil_append]
      simp only [List.singleton_append, List.flatMap_cons, e1, e2, List.nil_append]
      refine ⟨i1, i2, i3, ?_, ?_⟩
      · intro b' hb' hne
        rcases List.mem_cons.mp hb' with rfl | hb'
        · exact absurd h2 hne
        · exact i0 b' hb' hne
      intro s0 ss hs
      obtain ⟨pre, b', post, g, s1, ss', k1, k2, k3, k4, k5, k6, k7⟩ := i4 s0 ss (by simpa using hs)
      refine ⟨b :: pre, b', post, g, s1, ss', by rw [k1]; rfl, ?_, k3, k4, k5, k6, k7⟩
      intro x hx
      rcases List.mem_cons.mp hx with rfl | hx
      · exact h2
      · exact k2 x hx
    · rw [h1]
      simp only [List.singleton_append, List.flatMap_cons, List.map_append]
      refine ⟨?_, by rw [h5, i2], List.rel_append h6 i3, ?_, ?_⟩
      · intro p hp
        rcases List.mem_append.mp hp with hp | hp
        · exact h4 p hp
        · exact i1 p hp
      · intro b' hb' hne e he hbad hver
        rcases List.mem_cons.mp hb' with rfl | hb'
        · obtain ⟨p, hp, hpe⟩ := h0 e he hbad hver
          exact ⟨p, List.mem_append_left _ hp, hpe⟩
        · obtain ⟨p, hp, hpe⟩ := i0 b' hb' hne e he hbad hver
          exact ⟨p, List.mem_append_right _ hp, hpe⟩
      intro s0 ss0 hs
      obtain ⟨x, l, rfl⟩ := List.exists_cons_of_ne_nil h2
      rw [List.flatten_cons, List.cons_append, List.cons.injEq] at hs
      obtain ⟨rfl, hs⟩ := hs
      exact ⟨[], b, bs, g, l, sss, rfl, by simp, rfl, h5, h3, hbs, by rw [← hs]; exact ⟨_, rfl⟩⟩

/-- **C101, the metadata and GPS files.** Under the conditions of `C101_convert` the metadata file holds every status line of every file that is not damaged, in order, with the time as if there were
no damaged files (but perhaps for lines at the count zero). The GPS file holds every fix of every such file, in order, at the time given by the clock of its file, but those of the first
block with data which are earlier than a second before the first whole second of its data. Only damaged files are reported as problems, and every damaged file with a legible version
in a block with a file that is not damaged is reported. -/
theorem C101_tables (d : RawDisk) (dir : List Entry) (SN : List Nat) (log : Entry → ClockedFile) (bad : Entry → Bool) (nums : List (Option Int)) (ns : List Int)
    (hns : convertNums true dir SN nums = .ok ns) (n : Int) (hn : pyInt SN = some n) (specs : Specs) (hspecs : gemSpecs n = .ok specs)
    (hfit : Reproduces d.fit) (hfit1 : ReproducesLines d.fit) (blockdays : Rat) (l t2 : Int) (hb : 0 < blockdays) (hl : 0 < l)
    (sss : List (List Session)) (s0 : Session) (ss : List Session) (hss : sss.flatten = s0 :: ss)
    (hblocks : List.Forall₂ (BlockWithDamage d dir SN log bad) (jobOf d.env dir SN ns blockdays (10000 * l) t2).blocks sss)
    (horder : (s0 :: ss).IsChain fun x y => x.stop < y.start) (hpos : 1 ≤ s0.start) (hlong : 103 / 100 ≤ s0.stop - s0.start)
    (hfar : ∀ r ∈ s0 :: ss, 1000000 * r.stop + 10000 * l + ⌈86400000000 * blockdays⌉ + 1000000 ≤ t2) :
    ∃ s tb, Settles (convertT (tableJobOf d.env dir SN ns blockdays (10000 * l) t2) none) (.done (s, tb)) ∧
      Settles (convertDir d.env true dir SN nums blockdays (10000 * l) none t2) (.done s) ∧ (∀ p ∈ tb.problems, bad p.1 = true) ∧
      (∀ b ∈ (jobOf d.env dir SN ns blockdays (10000 * l) t2).blocks, findFiles (without bad dir) SN b ≠ [] →
        ∀ e ∈ findFiles dir SN b, bad e = true → d.env.version e ≠ none → ∃ p ∈ tb.problems, p.1 = e) ∧
      List.Forall₂ (fun q m => LineFoundDamaged q.1 q.2 m)
        ((jobOf d.env dir SN ns blockdays (10000 * l) t2).blocks.flatMap (blockLines (without bad dir) SN log)) tb.metadata ∧
      ∃ (h : Int) (pre : List (List Int)) (b : List Int) (post : List (List Int)), h % 1000000 = 0 ∧ s0.start - 5 / 1000 ≤ (h : Rat) / 1000000 ∧
        (h : Rat) / 1000000 < s0.start + 1005 / 1000 ∧ (jobOf d.env dir SN ns blockdays (10000 * l) t2).blocks = pre ++ b :: post ∧
        (∀ x ∈ pre, findFiles (without bad dir) SN x = []) ∧
        tb.gps.map fixFound = (blockFixes (without bad dir) SN log b).filter (fun p => decide ((h : Rat) / 1000000 - 1 < p.1)) ++
          post.flatMap (blockFixes (without bad dir) SN log) := by
  obtain ⟨_, _, s, _, _, hset, hreads, _⟩ := C101_convert d dir SN log bad nums ns hns n hn specs hspecs hfit hfit1 blockdays l t2 hb hl sss s0 ss hss
    hblocks horder hpos hlong hfar
  obtain ⟨j, hj⟩ : ∃ j, j = tableJobOf d.env dir SN ns blockdays (10000 * l) t2 := ⟨_, rfl⟩
  have hjj : jobOf d.env dir SN ns blockdays (10000 * l) t2 = j.job := by rw [hj]; rfl
  have hset' : Settles (convertLoops j.job none) (.done s) := by
    have : convertDir d.env true dir SN nums blockdays (10000 * l) none t2 = convertLoops j.job none := by
      funext fuel
      unfold convertDir
      rw [hns, ← hjj]
    rwa [this] at hset
  have hsets := convertT_settles hset'
  rw [hjj] at hreads hblocks ⊢
  rw [hreads] at hsets
  have hread : ∀ block, j.readAll block = readGem d.env dir SN block true := by rw [hj]; intro _; rfl
  obtain ⟨p1, p2, p3, p0, p4⟩ := damaged_blocks_data n hn specs hspecs hfit hfit1 j hread hblocks
  obtain ⟨pre, b, post, g, s1, ss', k1, k2, k3, k4, k5, k6, k7⟩ := p4 s0 ss hss
  have hpost := (damaged_blocks_data n hn specs hspecs hfit hfit1 j hread k6).2.1
  rw [← hj]
  refine ⟨s, _, hsets, hset, ?_⟩
  rw [k3] at p1 p2 p3 p0 ⊢
  have hlongs : ∀ r ∈ (s0 :: s1).map Session.span, 1 / 100 ≤ r.stop - r.start := by
    intro r hr
    obtain ⟨x, hx, rfl⟩ := List.mem_map.mp hr
    exact damage_long hblocks x (by rw [hss]; exact k7.subset hx)
  have hom : InOrder g.stream := by
    refine (traces_inOrder (spans_traces.mpr k5) hlongs ?_).1
    rw [List.isChain_map]
    exact horder.prefix k7
  obtain ⟨tr, trs, hg⟩ : ∃ tr trs, g.stream = tr :: trs := by
    generalize g.stream = st at k5
    cases k5 with
    | cons _ _ => exact ⟨_, _, rfl⟩
  have e2 : SessionTrace s0 tr := by
    rw [hg] at k5
    cases k5 with
    | cons h _ => exact h
  obtain ⟨x0, lx, hx0⟩ := List.exists_cons_of_ne_nil (hom.1 tr (by rw [hg]; simp))
  unfold tablesFor
  simp only
  rw [merged_start (k := tr.start) (x0 := x0) hom (by rw [hg, samples_cons, hx0, stamps]; rfl)]
  obtain ⟨h, hh⟩ : ∃ h : Int, h = 1000000 * ⌈(10000 * tr.start : Rat) / 1000000⌉ := ⟨_, rfl⟩
  rw [← hh]
  refine ⟨p1, p0, p3, h, pre, b, post, by omega, ?_, ?_, k1, k2, ?_⟩
  · rw [le_div_iff₀ (by norm_num)]
    have h1 := Int.le_ceil ((10000 * tr.start : Rat) / 1000000)
    have h2 := (abs_le.mp e2.start).1
    unfold Trace.time at h2
    push_cast at h2
    rw [hh]
    push_cast
    linarith
  · rw [div_lt_iff₀ (by norm_num)]
    have h1 := Int.ceil_lt_add_one ((10000 * tr.start : Rat) / 1000000)
    have h2 := (abs_le.mp e2.start).2
    unfold Trace.time at h2
    push_cast at h2
    rw [hh]
    push_cast
    linarith
  · rw [List.map_append, hpost]
    congr 1
    rw [← k4, List.filter_map]
    congr 1
    refine List.filter_congr fun f _ => ?_
    rw [Function.comp, decide_eq_decide]
    show _ ↔ (h : Rat) / 1000000 - 1 < f.t
    rw [show (h : Rat) / 1000000 - 1 = ((h : Rat) - 1000000) / 1000000 by ring, div_lt_iff₀ (by norm_num), mul_comm]

/-! ## Example -/

/-- The hypotheses hold for the three sessions and the three damaged files of the example of `C101_convert`. -/
example := C101_tables dmgDisk dmgDir (bytes "012") sessOf dmgBad [none] [0, 1, 2, 3, 30, 45] dmg_nums 12 (by decide +kernel)
    (specsOf (7 / 10)) (by decide +kernel) idealFit_reproduces idealFit_line 1 360000 endOfTime (by decide) (by decide)
    [[sessSpan 0, sessSpan 20], [], [sessSpan 40], []] (sessSpan 0) [sessSpan 20, sessSpan 40] rfl
    (by
      have hb : (jobOf dmgDisk.env dmgDir (bytes "012") [0, 1, 2, 3, 30, 45] 1 (10000 * 360000) endOfTime).blocks = [[0, 1, 2, 3], [], [30], [45]] := by
        decide +kernel
      rw [hb]
      exact dmg_blocks)
    (by unfold sessSpan; simp only [List.isChain_cons_cons, List.isChain_singleton]; norm_num) (by unfold sessSpan; norm_num)
    (by unfold sessSpan; norm_num)
    (by
      intro r hr
      simp only [List.mem_cons, List.not_mem_nil, or_false] at hr
      rcases hr with rfl | rfl | rfl <;> unfold sessSpan endOfTime <;> norm_num)

end Gemlog
