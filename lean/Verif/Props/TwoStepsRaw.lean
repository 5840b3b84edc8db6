import Verif.Props.TwoSteps
import Verif.Props.WholeConvert

/-!
# C123: from the raw files of two visits
-/

namespace Gemlog

theorem clean_yields (d : RawDisk) (dir : List Entry) (SN : List Nat) (log : Entry → List Event) (n : Int) (hn : pyInt SN = some n) (specs : Specs)
    (hspecs : gemSpecs n = .ok specs) (hfit : Reproduces d.fit) (hfit1 : ReproducesLines d.fit) {bs : List (List Int)} {qs : List BlockSpan}
    (h : List.Forall₂ (fun block r => ∃ first rest, CleanBlock d dir SN log block r first rest) bs qs) :
    List.Forall₂ (BlockYields d.env dir SN) bs (qs.map fun r => [r]) := by
  induction h with
  | nil => exact .nil
  | @cons b0 q0 _ _ hr _ ih =>
    obtain ⟨g, tr, h1, h1', h2, _⟩ := cleanBlock_trace hr n hn specs hspecs hfit hfit1
    exact .cons (.inl ⟨g, h1, by rw [h1']; exact .cons h2 .nil⟩) ih

/-- A conversion of blocks without defects is an ordinary one. -/
theorem spans_ordinary (env : Env) (dir : List Entry) (SN : List Nat) (ns : List Int) (blockdays : Rat) (l t2 : Int) (hb : 0 < blockdays) (hl : 0 < l)
    (rss : List (List BlockSpan)) (r0 : BlockSpan) (rs : List BlockSpan) (hrss : rss.flatten = r0 :: rs)
    (hblocks : List.Forall₂ (BlockYields env dir SN) (jobOf env dir SN ns blockdays (10000 * l) t2).blocks rss)
    (hlongs : ∀ r ∈ r0 :: rs, 1 / 100 ≤ r.stop - r.start)
    (horder : (r0 :: rs).IsChain fun x y => x.stop < y.start) (hpos : 1 ≤ r0.start) (hlong : 103 / 100 ≤ r0.stop - r0.start)
    (hfar : ∀ r ∈ r0 :: rs, 1000000 * r.stop + 10000 * l + ⌈86400000000 * blockdays⌉ + 1000000 ≤ t2) :
    Ordinary (jobOf env dir SN ns blockdays (10000 * l) t2) := by
  obtain ⟨j, hj⟩ : ∃ j, j = jobOf env dir SN ns blockdays (10000 * l) t2 := ⟨_, rfl⟩
  rw [← hj] at hblocks ⊢
  have hread : ∀ block, j.read block = (readGem env dir SN block true).map GemData.stream := by rw [hj]; intro _; rfl
  have hskip : j.OnlySkips := (yields_all hread hblocks).2
  obtain ⟨before, b, after, tr0, d1, hbs, hbef, hst, hall⟩ := yields_split hread hblocks r0 rs hrss
  have hrec : j.record j.blocks = tr0 :: (d1 ++ j.record after) := by
    unfold Job.record at hbef ⊢
    rw [hbs, List.flatMap_append, hbef, List.flatMap_cons, hst]
    rfl
  have hR : j.recorded = samples (tr0 :: (d1 ++ j.record after)) := by unfold Job.recorded; rw [hrec]
  generalize d1 ++ j.record after = trs at hall hrec hR
  have g1 : TraceOver r0 tr0 := by
    cases hall with
    | cons g _ => exact g
  obtain ⟨ho, hlo⟩ := traces_inOrder hall hlongs horder
  have hne0 := traceOver_ne g1 (hlongs r0 (by simp))
  obtain ⟨x0, lx, hx0⟩ := List.exists_cons_of_ne_nil hne0
  have hjL : j.L = 10000 * l := by rw [hj]; rfl
  have hjb : j.blockdays = blockdays := by rw [hj]; rfl
  have hjt : j.t2 = t2 := by rw [hj]; rfl
  obtain ⟨v, sv, ev⟩ := last_stamps hne0
  refine ⟨by rw [hjb]; exact hb, ⟨l, hl, hjL⟩, hskip, by rw [hrec]; exact ho, ?_, ?_, ⟨(tr0.stop, v), ?_, ?_⟩⟩
  · intro q hq
    rw [hR] at hq
    have := hlo q hq r0 (by simp)
    have : (0 : Rat) ≤ q.1 := by linarith
    exact_mod_cast this
  · intro q hq
    rw [hR] at hq
    obtain ⟨r, hr, _, hu⟩ := traces_upper hall q hq
    have hf := hfar r hr
    have hjd : j.day = ⌈86400000000 * blockdays⌉ := by unfold Job.day; rw [hjb]
    rw [hjL, hjd, hjt]
    have : (10000 : Rat) * q.1 + 10000 * l + ⌈86400000000 * blockdays⌉ + 1000000 ≤ t2 := by linarith
    exact_mod_cast this
  · rw [hR, samples_cons, ev]; simp
  · have e1 := traceOver_stop g1 hne0
    have e2 := g1.start
    unfold Trace.time at e2
    rw [abs_le] at e2
    have e3 : (tr0.start : Rat) + 99 < tr0.stop := by
      have := e2.2
      push_cast at this
      linarith
    have : tr0.start + 99 < tr0.stop := by exact_mod_cast e3
    unfold firstSecond
    rw [hR, samples_cons, hx0, stamps]
    simp only [List.cons_append, List.head?_cons, Option.map_some, Option.getD_some]
    omega

theorem spans_start (env : Env) (dir : List Entry) (SN : List Nat) (ns : List Int) (blockdays : Rat) (l t2 : Int)
    (rss : List (List BlockSpan)) (r0 : BlockSpan) (rs : List BlockSpan) (hrss : rss.flatten = r0 :: rs)
    (hblocks : List.Forall₂ (BlockYields env dir SN) (jobOf env dir SN ns blockdays (10000 * l) t2).blocks rss)
    (hlong : 103 / 100 ≤ r0.stop - r0.start) :
    ∃ k v rest, (jobOf env dir SN ns blockdays (10000 * l) t2).recorded = (k, v) :: rest ∧ |(k : Rat) / 100 - r0.start| ≤ 5 / 1000 := by
  obtain ⟨j, hj⟩ : ∃ j, j = jobOf env dir SN ns blockdays (10000 * l) t2 := ⟨_, rfl⟩
  rw [← hj] at hblocks ⊢
  have hread : ∀ block, j.read block = (readGem env dir SN block true).map GemData.stream := by rw [hj]; intro _; rfl
  obtain ⟨before, b, after, tr0, d1, hbs, hbef, hst, hall⟩ := yields_split hread hblocks r0 rs hrss
  have hrec : j.record j.blocks = tr0 :: (d1 ++ j.record after) := by
    unfold Job.record at hbef ⊢
    rw [hbs, List.flatMap_append, hbef, List.flatMap_cons, hst]
    rfl
  have g1 : TraceOver r0 tr0 := by
    cases hall with
    | cons g _ => exact g
  obtain ⟨x0, lx, hx0⟩ := List.exists_cons_of_ne_nil (traceOver_ne g1 (by linarith))
  refine ⟨tr0.start, x0, stamps (tr0.start + 1) lx ++ samples (d1 ++ j.record after), ?_, ?_⟩
  · unfold Job.recorded
    rw [hrec, samples_cons, hx0, stamps]
    rfl
  · have := g1.start
    unfold Trace.time at this
    simpa using this

theorem chain_left {α : Type} {R : α → α → Prop} {a b : List α} (h : (a ++ b).IsChain R) : a.IsChain R ∧ b.IsChain R :=
  ⟨h.prefix (List.prefix_append a b), h.suffix (List.suffix_append a b)⟩

/-- Raw files of a logger from two visits: recorded without defects, the files of the second visit forming blocks of their own, and each block beginning after the end of the one before. `nums`,
`nums1` and `nums2` select all files, those of the first and those of the second visit. The spans of the blocks are `r1 :: rs1` and `r2 :: rs2`; the first of each visit is longer than a second. -/
structure TwoVisits (d : RawDisk) (dir : List Entry) (SN : List Nat) (log : Entry → List Event) (nums nums1 nums2 : List (Option Int)) (blockdays : Rat) (l t2 : Int)
    (r1 r2 : BlockSpan) (rs1 rs2 : List BlockSpan) (ns ns1 ns2 : List Int) : Prop where
  all_ : convertNums true dir SN nums = .ok ns
  first : convertNums true dir SN nums1 = .ok ns1
  second : convertNums true dir SN nums2 = .ok ns2
  serial : ∃ n specs, pyInt SN = some n ∧ gemSpecs n = .ok specs
  fit : Reproduces d.fit ∧ ReproducesLines d.fit
  block : 0 < blockdays
  length : 0 < l
  visits : (jobOf d.env dir SN ns blockdays (10000 * l) t2).blocks =
    (jobOf d.env dir SN ns1 blockdays (10000 * l) t2).blocks ++ (jobOf d.env dir SN ns2 blockdays (10000 * l) t2).blocks
  clean1 : List.Forall₂ (fun block r => ∃ first rest, CleanBlock d dir SN log block r first rest)
    (jobOf d.env dir SN ns1 blockdays (10000 * l) t2).blocks (r1 :: rs1)
  clean2 : List.Forall₂ (fun block r => ∃ first rest, CleanBlock d dir SN log block r first rest)
    (jobOf d.env dir SN ns2 blockdays (10000 * l) t2).blocks (r2 :: rs2)
  order : (r1 :: rs1 ++ r2 :: rs2).IsChain fun x y => x.stop < y.start
  positive : 1 ≤ r1.start
  long1 : 103 / 100 ≤ r1.stop - r1.start
  long2 : 103 / 100 ≤ r2.stop - r2.start
  far : ∀ r ∈ r1 :: rs1 ++ r2 :: rs2, 1000000 * r.stop + 10000 * l + ⌈86400000000 * blockdays⌉ + 1000000 ≤ t2

theorem chain_positive : ∀ (rs : List BlockSpan) (r : BlockSpan), 1 ≤ r.start → (∀ x ∈ r :: rs, 1 / 100 ≤ x.stop - x.start) →
    (r :: rs).IsChain (fun x y => x.stop < y.start) → ∀ x ∈ r :: rs, 1 ≤ x.start := by
  intro rs
  induction rs with
  | nil => intro r h _ _ x hx; simp only [List.mem_cons, List.not_mem_nil, or_false] at hx; rw [hx]; exact h
  | cons r' rs ih =>
    intro r h hh hc x hx
    rw [List.isChain_cons_cons] at hc
    rcases List.mem_cons.mp hx with rfl | hx
    · exact h
    · have := hh r (by simp)
      exact ih r' (by linarith [hc.1]) (fun x hx => hh x (by simp at hx ⊢; tauto)) hc.2 x hx

section
variable {d : RawDisk} {dir : List Entry} {SN : List Nat} {log : Entry → List Event} {nums nums1 nums2 : List (Option Int)} {blockdays : Rat} {l t2 : Int}
  {r1 r2 : BlockSpan} {rs1 rs2 : List BlockSpan} {ns ns1 ns2 : List Int}

theorem TwoVisits.ordinary (h : TwoVisits d dir SN log nums nums1 nums2 blockdays l t2 r1 r2 rs1 rs2 ns ns1 ns2) :
    Ordinary (jobOf d.env dir SN ns blockdays (10000 * l) t2) ∧ Ordinary (jobOf d.env dir SN ns1 blockdays (10000 * l) t2) ∧
      Ordinary (jobOf d.env dir SN ns2 blockdays (10000 * l) t2) ∧
      (jobOf d.env dir SN ns blockdays (10000 * l) t2).recorded =
        (jobOf d.env dir SN ns1 blockdays (10000 * l) t2).recorded ++ (jobOf d.env dir SN ns2 blockdays (10000 * l) t2).recorded ∧
      ∃ k v rest, (jobOf d.env dir SN ns2 blockdays (10000 * l) t2).recorded = (k, v) :: rest ∧ |(k : Rat) / 100 - r2.start| ≤ 5 / 1000 := by
  obtain ⟨n, specs, hn, hspecs⟩ := h.serial
  have y1 := clean_yields d dir SN log n hn specs hspecs h.fit.1 h.fit.2 h.clean1
  have y2 := clean_yields d dir SN log n hn specs hspecs h.fit.1 h.fit.2 h.clean2
  have y : List.Forall₂ (BlockYields d.env dir SN) (jobOf d.env dir SN ns blockdays (10000 * l) t2).blocks
      ((r1 :: rs1 ++ r2 :: rs2).map fun r => [r]) := by
    rw [h.visits, List.map_append]
    exact List.rel_append y1 y2
  have hflat : ∀ rs : List BlockSpan, (rs.map fun r => [r]).flatten = rs := by
    intro rs
    rw [← List.flatMap_def]
    simp
  have hl1 : ∀ r ∈ r1 :: rs1, 1 / 100 ≤ r.stop - r.start := by
    intro r hr
    obtain ⟨b, _, _, _, h⟩ := forall₂_right h.clean1 r hr
    exact h.long
  have hl2 : ∀ r ∈ r2 :: rs2, 1 / 100 ≤ r.stop - r.start := by
    intro r hr
    obtain ⟨b, _, _, _, h⟩ := forall₂_right h.clean2 r hr
    exact h.long
  have hl12 : ∀ r ∈ r1 :: rs1 ++ r2 :: rs2, 1 / 100 ≤ r.stop - r.start := by
    intro r hr
    rcases List.mem_append.mp hr with h | h
    · exact hl1 r h
    · exact hl2 r h
  have hpos2 : 1 ≤ r2.start := chain_positive (rs1 ++ r2 :: rs2) r1 h.positive hl12 h.order r2 (by simp)
  refine ⟨spans_ordinary d.env dir SN ns blockdays l t2 h.block h.length _ r1 (rs1 ++ r2 :: rs2) (hflat _) y hl12 h.order h.positive h.long1 h.far,
    spans_ordinary d.env dir SN ns1 blockdays l t2 h.block h.length _ r1 rs1 (hflat _) y1 hl1 (chain_left h.order).1 h.positive h.long1
      fun r hr => h.far r (List.mem_append_left _ hr),
    spans_ordinary d.env dir SN ns2 blockdays l t2 h.block h.length _ r2 rs2 (hflat _) y2 hl2 (chain_left h.order).2 hpos2 h.long2
      fun r hr => h.far r (List.mem_append_right _ hr), ?_,
    spans_start d.env dir SN ns2 blockdays l t2 _ r2 rs2 (hflat _) y2 h.long2⟩
  unfold Job.recorded
  rw [h.visits, ← samples_append]
  unfold Job.record
  rw [List.flatMap_append]
  rfl

theorem convertDir_loops {env : Env} {nums : List (Option Int)} {ns : List Int} (h : convertNums true dir SN nums = .ok ns) (blockdays : Rat) (L t2 : Int) :
    convertDir env true dir SN nums blockdays L none t2 = convertLoops (jobOf env dir SN ns blockdays L t2) none := by
  funext fuel
  unfold convertDir
  rw [h]

/-- **C123, from the raw files.** Convert the files of two visits together, and those of each visit. All three conversions end normally. What the two write is written by the one, in the same
order, and besides it writes only samples after all of the first visit, before all of the second, and less than 1.005 seconds after the start of the second visit.
Missing: these samples. -/
theorem C123_raw_partial (h : TwoVisits d dir SN log nums nums1 nums2 blockdays l t2 r1 r2 rs1 rs2 ns ns1 ns2) :
    ∃ s s1 s2, Settles (convertDir d.env true dir SN nums blockdays (10000 * l) none t2) (.done s) ∧
      Settles (convertDir d.env true dir SN nums1 blockdays (10000 * l) none t2) (.done s1) ∧
      Settles (convertDir d.env true dir SN nums2 blockdays (10000 * l) none t2) (.done s2) ∧
      (samples s1.w.out ++ samples s2.w.out).Sublist (samples s.w.out) ∧
      ∀ q ∈ samples s.w.out, q ∈ samples s1.w.out ∨ q ∈ samples s2.w.out ∨
        (∀ p ∈ samples s1.w.out, p.1 < q.1) ∧ (∀ p ∈ samples s2.w.out, q.1 < p.1) ∧ (q.1 : Rat) / 100 < r2.start + 1005 / 1000 := by
  obtain ⟨o, o1, o2, hrec, k, v, rest, hk, hk2⟩ := h.ordinary
  rw [convertDir_loops h.all_, convertDir_loops h.first, convertDir_loops h.second]
  obtain ⟨s, s1, s2, a, a1, a2, hsub, hall⟩ := C123_two_visits_partial _ _ _ o o1 o2 hrec
  refine ⟨s, s1, s2, a, a1, a2, hsub, fun q hq => ?_⟩
  rcases hall q hq with h | h | ⟨h1, h2, h3⟩
  · exact .inl h
  · exact .inr (.inl h)
  · right; right
    obtain ⟨s1', a1', b1⟩ := ordinary_out o1
    obtain ⟨s2', a2', b2⟩ := ordinary_out o2
    have e1 : s1' = s1 := Run.done.inj (settles_unique a1' a1)
    have e2 : s2' = s2 := Run.done.inj (settles_unique a2' a2)
    subst e1 e2
    refine ⟨fun p hp => ?_, fun p hp => ?_, ?_⟩
    · rw [b1] at hp
      obtain ⟨_, ⟨p', hp', hpp⟩⟩ := fillIn_bounds o1.order.2 (mem_from.mp hp).1
      have := h1 p' hp'
      omega
    · rw [b2] at hp
      have := (mem_from.mp hp).2
      omega
    · have := h3 (k, v) (by rw [hk]; simp)
      simp only at this
      have hq' : (q.1 : Rat) < k + 100 := by exact_mod_cast this
      rw [abs_le] at hk2
      linarith [hk2.2]

/-- **C123 is violated, from the raw files.** If the second visit begins more than 5 ms from a whole second, then its first sample, within 5 ms of its beginning, is written when all files
are converted together, and by neither conversion of one visit. -/
theorem C123_violated_raw (h : TwoVisits d dir SN log nums nums1 nums2 blockdays l t2 r1 r2 rs1 rs2 ns ns1 ns2)
    (hoff : ∀ m : Int, 5 / 1000 < |r2.start - m|) :
    ∃ s s1 s2 q, Settles (convertDir d.env true dir SN nums blockdays (10000 * l) none t2) (.done s) ∧
      Settles (convertDir d.env true dir SN nums1 blockdays (10000 * l) none t2) (.done s1) ∧
      Settles (convertDir d.env true dir SN nums2 blockdays (10000 * l) none t2) (.done s2) ∧
      q ∈ samples s.w.out ∧ |(q.1 : Rat) / 100 - r2.start| ≤ 5 / 1000 ∧ (∀ p ∈ samples s1.w.out, p.1 ≠ q.1) ∧ ∀ p ∈ samples s2.w.out, p.1 ≠ q.1 := by
  obtain ⟨o, o1, o2, hrec, k, v, rest, hk, hk2⟩ := h.ordinary
  rw [convertDir_loops h.all_, convertDir_loops h.first, convertDir_loops h.second]
  obtain ⟨s, s1, s2, a, a1, a2, b, b1, b2⟩ := C123_violated_joint _ _ _ o o1 o2 hrec (k, v) (by rw [hk]; simp) (by
    have hne : k % 100 ≠ 0 := by
      intro h0
      have hm : (k : Rat) / 100 = ((k / 100 : Int) : Rat) := by
        have : (k : Rat) = 100 * ((k / 100 : Int) : Rat) := by
          have : k = 100 * (k / 100) := by omega
          exact_mod_cast this
        linarith
      have := hoff (k / 100)
      rw [← hm, abs_sub_comm] at this
      linarith
    unfold firstSecond
    rw [hk]
    simp only [List.head?_cons, Option.map_some, Option.getD_some]
    omega)
  exact ⟨s, s1, s2, (k, v), a, a1, a2, b, hk2, b1, b2⟩

end

/-! ## Example: the two files of `C66_convert`, one from each visit; the second begins 9 ms after a whole second -/

theorem long_visits : TwoVisits longDisk longDir (bytes "012") longOf [none] [some 1] [some 13] 1 360000 253402300799000000
    (longSpan 0) (longSpan 2) [] [] [1, 13] [1] [13] where
  all_ := by decide +kernel
  first := by decide +kernel
  second := by decide +kernel
  serial := ⟨12, specsOf (7 / 10), by decide +kernel, by decide +kernel⟩
  fit := ⟨idealFit_reproduces, idealFit_line⟩
  block := by decide
  length := by decide
  visits := by decide +kernel
  clean1 := by
    have : (jobOf longDisk.env longDir (bytes "012") [1] 1 (10000 * 360000) 253402300799000000).blocks = [[1]] := by decide +kernel
    rw [this]
    exact .cons ⟨_, _, long_block 0 (.inl rfl) 1 _ (.inl ⟨rfl, rfl, rfl⟩)⟩ .nil
  clean2 := by
    have : (jobOf longDisk.env longDir (bytes "012") [13] 1 (10000 * 360000) 253402300799000000).blocks = [[13]] := by decide +kernel
    rw [this]
    exact .cons ⟨_, _, long_block 2 (.inr rfl) 13 _ (.inr ⟨rfl, rfl, rfl⟩)⟩ .nil
  order := by
    show ([longSpan 0, longSpan 2]).IsChain _
    unfold longSpan; simp only [List.isChain_cons_cons, List.isChain_singleton]; norm_num
  positive := by unfold longSpan; norm_num
  long1 := by unfold longSpan; norm_num
  long2 := by unfold longSpan; norm_num
  far := by
    intro r hr
    simp only [List.cons_append, List.nil_append, List.mem_cons, List.not_mem_nil, or_false] at hr
    rcases hr with rfl | rfl <;> unfold longSpan <;> norm_num

example (m : Int) : 5 / 1000 < |(longSpan 2).start - m| := by
  have e : (longSpan 2).start = 1577836802 + 9144320 / 1000000000 := by unfold longSpan; norm_num
  rw [e, lt_abs]
  by_cases hm : m ≤ 1577836802
  · left
    have : (m : Rat) ≤ 1577836802 := by exact_mod_cast hm
    linarith
  · right
    have : (1577836803 : Rat) ≤ m := by exact_mod_cast (by omega : 1577836803 ≤ m)
    linarith

end Gemlog
