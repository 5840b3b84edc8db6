import Verif.Props.Merging
import Verif.Props.Command

/-!
# C106: converting merged recordings

The documented way to use recordings with files without fixes: first `gem_cat`, then `gemconvert` on the folder it wrote.
-/

namespace Gemlog

/-! ## Blocks of consecutive numbers -/

theorem range_filter {k o m : Nat} (h : o + m ≤ k) {P : Nat → Bool} (hP : ∀ n < k, P n = true ↔ o ≤ n ∧ n < o + m) :
    (List.range k).filter P = List.range' o m := by
  have e : List.range k = List.range' 0 o ++ (List.range' o m ++ List.range' (o + m) (k - o - m)) := by
    rw [List.range_eq_range', List.range'_append_1 (s := o), show List.range' 0 o ++ List.range' o (m + (k - o - m)) = List.range' 0 (o + (m + (k - o - m))) by
      have := List.range'_append_1 (s := 0) (m := o) (n := m + (k - o - m))
      rwa [Nat.zero_add] at this]
    congr 1
    omega
  rw [e, List.filter_append, List.filter_append, List.filter_eq_nil_iff.mpr, List.filter_eq_self.mpr, List.filter_eq_nil_iff.mpr]
  · simp
  · intro n hn
    rw [List.mem_range'_1] at hn
    rw [hP n (by omega)]
    omega
  · intro n hn
    rw [List.mem_range'_1] at hn
    rw [hP n (by omega)]
    omega
  · intro n hn
    rw [List.mem_range'_1] at hn
    rw [hP n (by omega)]
    omega

/-- Pieces of `N` each; the last may be shorter. -/
def CutBy {α : Type} (N : Nat) : List (List α) → Prop
  | [] => True
  | [p] => 0 < p.length ∧ p.length ≤ N
  | p :: q :: ps => p.length = N ∧ CutBy N (q :: ps)

/-- The numbers of the members of consecutive pieces (helper). -/
def spansFrom {α : Type} (o : Nat) : List (List α) → List (List Int)
  | [] => []
  | p :: ps => (List.range' o p.length).map (fun i : Nat => (i : Int)) :: spansFrom (o + p.length) ps

theorem blocks_cut {α : Type} {j : Job} {k N : Nat} (hN : 0 < N) (hb : 12 * j.blockdays = N)
    (hnums : j.nums = (List.range k).map fun i : Nat => (i : Int)) (hk : 0 < k) : ∀ (parts : List (List α)) (o : Nat), CutBy N parts →
    o + parts.flatten.length = k → j.blocksFrom (o : Rat) = spansFrom o parts := by
  have hbd : 0 < j.blockdays := by
    have : (0 : Rat) < N := by exact_mod_cast hN
    linarith
  have hlast : j.last = (k : Int) - 1 := by
    unfold Job.last
    rw [hnums, List.getLast?_map, List.getLast?_range, if_neg (by omega)]
    simp
    omega
  have hblock : ∀ o m : Nat, o + m ≤ k → (o + m = k ∧ m ≤ N ∨ m = N) →
      j.block (o : Rat) = (List.range' o m).map (fun i : Nat => (i : Int)) := by
    intro o m h1 h2
    unfold Job.block
    rw [hnums, List.filter_map, ← range_filter h1 (P := (fun n : Int => decide ((n : Rat) ≥ o) && decide ((n : Rat) < o + 12 * j.blockdays)) ∘ fun i : Nat => (i : Int))]
    intro n hn
    rw [hb]
    simp only [Function.comp_apply, Bool.and_eq_true, decide_eq_true_eq, ge_iff_le, Int.cast_natCast]
    rw [Nat.cast_le, ← Nat.cast_add, Nat.cast_lt]
    omega
  intro parts
  induction parts with
  | nil =>
    intro o _ ho
    simp only [List.flatten_nil, List.length_nil, Nat.add_zero] at ho
    refine blocksFrom_nil hbd ?_
    rw [hlast, ho]
    push_cast
    linarith
  | cons p ps ih =>
    intro o hcut ho
    rw [List.flatten_cons, List.length_append] at ho
    have hpl : 0 < p.length := by
      cases ps with
      | nil => exact hcut.1
      | cons q ps => rw [hcut.1]; exact hN
    rw [blocksFrom_cons hbd (by
      rw [hlast]
      have : ((o : Int) : Rat) ≤ ((k : Int) - 1 : Int) := by exact_mod_cast (by omega : (o : Int) ≤ (k : Int) - 1)
      exact_mod_cast this)]
    unfold spansFrom
    cases ps with
    | nil =>
      simp only [List.flatten_nil, List.length_nil, Nat.add_zero] at ho
      rw [hblock o p.length (by omega) (.inl ⟨by omega, hcut.2⟩), blocksFrom_nil hbd]
      · rfl
      · rw [hlast, hb]
        have h1 : (k : Rat) = o + p.length := by exact_mod_cast ho.symm
        have h2 : (p.length : Rat) ≤ N := by exact_mod_cast hcut.2
        push_cast
        linarith
    | cons q ps =>
      rw [hblock o p.length (by omega) (.inr hcut.1)]
      congr 1
      rw [hb]
      have := ih (o + p.length) hcut.2 (by omega)
      rw [← this, hcut.1]
      congr 1
      push_cast
      rfl

/-! ## The files of a block -/

theorem filter_slice {α : Type} (F : List α) (f : α → Int) (hf : ∀ i (h : i < F.length), f F[i] = i) (o m : Nat) :
    F.filter (fun e => decide (f e ∈ (List.range' o m).map (fun i : Nat => (i : Int)))) = (F.drop o).take m := by
  have hmem : ∀ i (h : i < F.length), f F[i] ∈ (List.range' o m).map (fun i : Nat => (i : Int)) ↔ o ≤ i ∧ i < o + m := by
    intro i h
    rw [hf i h, List.mem_map]
    simp only [List.mem_range'_1, Nat.cast_inj, exists_eq_right]
  have e : F = F.take o ++ ((F.drop o).take m ++ (F.drop o).drop m) := by rw [List.take_append_drop, List.take_append_drop]
  conv_lhs => rw [e]
  rw [List.filter_append, List.filter_append, List.filter_eq_nil_iff.mpr, List.filter_eq_self.mpr, List.filter_eq_nil_iff.mpr]
  · simp
  · intro x hx
    obtain ⟨i, hi, rfl⟩ := List.getElem_of_mem hx
    simp only [List.length_drop] at hi
    rw [List.getElem_drop, List.getElem_drop, decide_eq_true_eq, hmem]
    omega
  · intro x hx
    obtain ⟨i, hi, rfl⟩ := List.getElem_of_mem hx
    simp only [List.length_take, List.length_drop] at hi
    rw [List.getElem_take, List.getElem_drop, decide_eq_true_eq, hmem]
    omega
  · intro x hx
    obtain ⟨i, hi, rfl⟩ := List.getElem_of_mem hx
    simp only [List.length_take] at hi
    rw [List.getElem_take, decide_eq_true_eq, hmem]
    omega

theorem findFiles_sub (dir : List Entry) (SN : List Nat) {all block : List Int} (h : ∀ n ∈ block, n ∈ all) :
    findFiles dir SN block = (findFiles dir SN all).filter fun e => decide (fileNum e.name ∈ block) := by
  unfold findFiles
  simp only [List.filter_filter]
  apply List.filter_congr
  intro e _
  rw [Bool.eq_iff_iff]
  simp only [Bool.and_eq_true, decide_eq_true_eq]
  constructor
  · rintro ⟨h1, h2, h3⟩
    exact ⟨h2, h1, h _ h2, h3⟩
  · rintro ⟨h1, h2, _, h3⟩
    exact ⟨h2, h1, h3⟩

/-- All files of the folder written by `gem_cat` are converted. -/
theorem merged_nums {outs : List (List Nat × List Nat)} {k : Nat} {SN : List Nat} {n : Int} (hn : pyInt SN = some n) (hk : 0 < k) (hmany : k ≤ 10000)
    (h3 : SN.length = 3) (hnames : outs.map Prod.fst = (List.range k).map fun i => outName i SN) {content : Entry → List Nat} {dir : List Entry}
    (hdir : (dir.map fun e => (e.name, content e)).Perm outs) (hsn : ∀ e ∈ dir, e.sn = .str SN) :
    convertNums true dir SN [none] = .ok ((List.range k).map fun i : Nat => (i : Int)) := by
  have hperm : (dir.map Entry.name).Perm ((List.range k).map fun i => outName i SN) := by
    rw [← hnames]
    have := hdir.map Prod.fst
    rwa [List.map_map] at this
  have hname : ∀ e ∈ dir, ∃ i < k, e.name = outName i SN := by
    intro e he
    obtain ⟨i, hi, e1⟩ := List.mem_map.mp (hperm.mem_iff.mp (List.mem_map.mpr ⟨e, he, rfl⟩))
    exact ⟨i, List.mem_range.mp hi, e1.symm⟩
  have hlen : dir.length = k := by
    have := hperm.length_eq
    simpa using this
  have hT : SN ≠ bytes "TXT" := by
    rintro rfl
    have : pyInt (bytes "TXT") = none := by decide +kernel
    rw [this] at hn
    simp at hn
  have hraw : dir.filter (fun e => isRawName e.name) = dir := by
    rw [List.filter_eq_self]
    intro e he
    obtain ⟨i, hi, e1⟩ := hname e he
    exact (isRawName_iff _).mpr ⟨i, SN, e1 ▸ outName_raw (by omega) h3⟩
  have hc : candidates dir SN = dir := by
    unfold candidates
    rw [List.filter_eq_self.mpr, List.filter_eq_nil_iff.mpr, List.append_nil]
    · intro e he
      obtain ⟨i, hi, e1⟩ := hname e he
      rw [e1, ((outName_raw (SN := SN) (i := i) (by omega) h3).parts).2]
      simp [hT]
    · intro e he
      obtain ⟨i, hi, e1⟩ := hname e he
      rw [e1, ((outName_raw (SN := SN) (i := i) (by omega) h3).parts).2, Bool.and_eq_true]
      exact ⟨(isRawName_iff _).mpr ⟨i, SN, outName_raw (by omega) h3⟩, by simp⟩
  have hfound : (dir.map fun e => fileNum e.name).Perm ((List.range k).map fun i : Nat => (i : Int)) := by
    have h1 := hperm.map fileNum
    rw [List.map_map, List.map_map] at h1
    refine h1.trans (List.Perm.of_eq ?_)
    apply List.map_congr_left
    intro i hi
    exact ((outName_raw (SN := SN) (i := i) (by have := List.mem_range.mp hi; omega) h3).parts).1
  unfold convertNums
  rw [if_neg (by simp), if_neg (by rw [hraw]; omega), if_neg (by rw [hn]; simp), if_neg (by simpa using h3)]
  simp only [hc, List.head?_cons, or_true, if_true]
  rw [List.filter_eq_self.mpr (fun e he => by simpa using hsn e he), if_neg (by rw [List.length_map]; omega)]
  congr 1
  refine List.Perm.eq_of_pairwise (le := (· ≤ ·)) (fun _ _ _ _ h1 h2 => le_antisymm h1 h2) (sortNums_sorted _) ?_ ((sortNums_perm _).trans hfound)
  rw [List.pairwise_map]
  exact List.pairwise_lt_range.imp fun h => by exact_mod_cast h.le

/-! ## Conversion -/

/-- What happened during some groups of files is a recording without defects and without gaps over 25 ms. -/
structure CleanPart (d : RawDisk) (r : BlockSpan) (part : List (List (List Event))) : Prop where
  clean : CleanRecording r.offset r.rate (part.map joinedLog)
  first_ : ((trueRecord r.offset r.rate part.flatten).map Prod.fst).head? = some r.start
  last_ : ((trueRecord r.offset r.rate part.flatten).map Prod.fst).getLast? = some r.stop
  long : 1 / 100 ≤ r.stop - r.start
  gapless : ((trueRecord r.offset r.rate part.flatten).map Prod.fst).IsChain fun x y => y - x ≤ 25 / 1000
  spline : d.spline ((trueRecord r.offset r.rate part.flatten).map fun p => (p.1, some (p.2 : Rat))) = some r.curve

/-- The blocks of the folder written by `gem_cat` are recordings without defects (helper). -/
theorem merged_blocks (d : RawDisk) (dir : List Entry) (SN : List Nat) (log : Entry → List Event) (k : Nat) (hmany : k ≤ 10000) (h3 : SN.length = 3) (F : List Entry)
    (hF : F = findFiles dir SN ((List.range k).map fun i : Nat => (i : Int)))
    (hcont : ∀ e ∈ F, d.content e = textOf (log e))
    (hver : ∀ e ∈ F, ∃ v ∈ ["0.85C", "0.9", "0.91", "1.10"], HasVersion v (log e))
    (hname : F.map Entry.name = (List.range k).map fun i => outName i SN)
    (hdsn : ∀ e ∈ dir, ∃ sn, d.readSN e = .ok sn) (hadc : ∀ e ∈ dir, d.adc e = 0 ∨ d.adc e = 1) :
    ∀ (parts : List (List (List (List Event)))) (rs : List BlockSpan) (o : Nat), o + parts.flatten.length = k → (∀ p ∈ parts, p ≠ []) →
      List.Forall₂ Merges ((F.drop o).map log) parts.flatten →
      List.Forall₂ (fun part r => CleanPart d r part) parts rs →
      List.Forall₂ (fun block r => ∃ first rest, CleanBlock d dir SN log block r first rest) (spansFrom o parts) rs := by
  have hnum : ∀ i (h : i < F.length),
      fileNum F[i].name = i := by
    intro i h
    have hl : i < k := by
      have := congrArg List.length hname
      simp only [List.length_map, List.length_range] at this
      omega
    have e1 : F[i].name = outName i SN := by
      have := congrArg (fun l => l[i]?) hname
      simp only [List.getElem?_map, List.getElem?_eq_getElem h, Option.map_some, List.getElem?_range hl, Option.some.injEq] at this
      exact this
    rw [e1]
    exact ((outName_raw (SN := SN) (i := i) (by omega) h3).parts).1
  intro parts
  induction parts with
  | nil =>
    intro rs o _ _ _ h
    cases h
    exact .nil
  | cons p ps ih =>
    intro rs o ho hne hM h
    cases h with
    | @cons _ r _ rs h1 h2 =>
    rw [List.flatten_cons] at hM
    rw [List.flatten_cons, List.length_append] at ho
    have hfiles : findFiles dir SN ((List.range' o p.length).map fun i : Nat => (i : Int)) =
        (F.drop o).take p.length := by
      rw [findFiles_sub dir SN (all := (List.range k).map fun i : Nat => (i : Int)), ← hF]
      · generalize fileNum = num at hnum
        exact filter_slice F (fun e => num e.name) hnum o p.length
      · intro n hn
        obtain ⟨i, hi, rfl⟩ := List.mem_map.mp hn
        rw [List.mem_range'_1] at hi
        exact List.mem_map.mpr ⟨i, List.mem_range.mpr (by omega), rfl⟩
    have hM1 := List.forall₂_take_append _ _ _ hM
    have hM2 := List.forall₂_drop_append _ _ _ hM
    rw [← List.map_take, ← hfiles] at hM1
    rw [← List.map_drop, List.drop_drop] at hM2
    refine .cons ?_ (ih rs (o + p.length) (by omega) (fun q hq => hne q (by simp [hq])) hM2 h2)
    have hin : ∀ e ∈ findFiles dir SN ((List.range' o p.length).map fun i : Nat => (i : Int)),
        e ∈ F := by
      intro e he
      rw [hfiles] at he
      exact List.mem_of_mem_drop (List.mem_of_mem_take he)
    cases hff : findFiles dir SN ((List.range' o p.length).map fun i : Nat => (i : Int)) with
    | nil =>
      rw [hff] at hM1
      cases hM1
      exact absurd rfl (hne [] (by simp))
    | cons first rest =>
      rw [hff] at hM1 hin
      have hd : ∀ e ∈ first :: rest, e ∈ dir := fun e he => ((mem_findFiles _ _ _ _).mp (hF ▸ hin e he)).1
      have hrec := merges_record (a := r.offset) (b := r.rate) hM1
      refine ⟨first, rest, hff, fun e he => hcont e (hin e he), merges_clean hM1 h1.clean, hver first (hin first (by simp)),
        fun e he => hdsn e (hd e he), hadc first (hd first (by simp)), ?_, ?_, h1.long, ?_, ?_⟩
      · rw [hrec]; exact h1.first_
      · rw [hrec]; exact h1.last_
      · rw [hrec]; exact h1.gapless
      · rw [hrec]; exact h1.spline

theorem CutBy.nonempty {α : Type} {N : Nat} (hN : 0 < N) : ∀ {parts : List (List α)}, CutBy N parts → ∀ p ∈ parts, p ≠ [] := by
  intro parts
  induction parts with
  | nil => intro _ p hp; simp at hp
  | cons q ps ih =>
    intro h p hp e
    cases ps with
    | nil =>
      rw [List.mem_singleton] at hp
      rw [← hp, e] at h
      exact absurd h.1 (by simp)
    | cons q' ps =>
      rcases List.mem_cons.mp hp with hp | hp
      · have := h.1
        rw [← hp, e] at this
        simp at this
        omega
      · exact ih h.2 p hp e

/-- The folder written by `gem_cat`, as `convert` cuts it into blocks (helper). -/
theorem merged_convert (env : CatEnv) (files before : List (List Event)) (parts : List (List (List (List Event)))) (SN : List Nat)
    (hfiles : files = before ++ parts.flatten.flatten) (hm : ∀ es ∈ files, MergeFile es)
    (hsn : ∃ es, files.head? = some es ∧ env.readSN (textOf es) = some SN) (hb : ∀ es ∈ before, ¬ HasFix (textOf es))
    (hg : Grouped (parts.flatten.flatten.map textOf) (parts.flatten.map (List.map textOf)))
    (hmany : parts.flatten.length ≤ 10000) (h3 : SN.length = 3) (n : Int) (hn : pyInt SN = some n)
    (N : Nat) (hN : 0 < N) (hcut : CutBy N parts) :
    ∃ outs, gemCatFiles env false (files.map textOf) = .ok outs ∧
      ∀ (d : RawDisk) (dir : List Entry), (dir.map fun e => (e.name, d.content e)).Perm outs → (∀ e ∈ dir, e.size = (d.content e).length) →
        (∀ e ∈ dir, e.sn = .str SN) → (∀ e ∈ dir, ∃ sn, d.readSN e = .ok sn) → (∀ e ∈ dir, d.adc e = 0 ∨ d.adc e = 1) →
        ∀ r0 rs, List.Forall₂ (fun part r => CleanPart d r part) parts (r0 :: rs) →
        ∃ log ns, convertNums true dir SN [none] = .ok ns ∧ ∀ (blockdays : Rat) (L t2 : Int), 12 * blockdays = N →
          List.Forall₂ (fun block r => ∃ first rest, CleanBlock d dir SN log block r first rest) (jobOf d.env dir SN ns blockdays L t2).blocks (r0 :: rs) := by
  have hT : SN ≠ bytes "TXT" := by
    rintro rfl
    have : pyInt (bytes "TXT") = none := by decide +kernel
    rw [this] at hn
    simp at hn
  obtain ⟨outs, hok, hnames, hlogs⟩ := merged_logs env files before parts.flatten SN hfiles hm hsn hb hg hmany h3 hT
  refine ⟨outs, hok, ?_⟩
  intro d dir hdir hsize hesn hdsn hadc r0 rs hparts
  have hpne := hcut.nonempty hN
  have hk : 0 < parts.flatten.length := by
    cases hparts with
    | @cons p _ ps _ _ _ =>
      have := List.length_pos_iff.mpr (hpne p (by simp))
      rw [List.flatten_cons, List.length_append]
      omega
  obtain ⟨log, hcont, hM, hver, hname⟩ := hlogs d.content dir ((List.range parts.flatten.length).map fun i : Nat => (i : Int)) hdir hsize
    (fun i hi => List.mem_map.mpr ⟨i, List.mem_range.mpr hi, rfl⟩)
  refine ⟨log, _, merged_nums hn hk hmany h3 hnames hdir hesn, ?_⟩
  intro blockdays L t2 hbd
  have hblocks := blocks_cut (j := jobOf d.env dir SN ((List.range parts.flatten.length).map fun i : Nat => (i : Int)) blockdays L t2)
    (k := parts.flatten.length) hN hbd rfl hk parts 0 hcut (by omega)
  have hhead : (((List.range parts.flatten.length).map fun i : Nat => (i : Int)).head?.getD 0 : Int) = 0 := by
    rw [List.head?_map, List.head?_range, if_neg (by omega)]
    rfl
  unfold Job.blocks
  rw [show (jobOf d.env dir SN ((List.range parts.flatten.length).map fun i : Nat => (i : Int)) blockdays L t2).nums =
    (List.range parts.flatten.length).map fun i : Nat => (i : Int) from rfl, hhead, Int.cast_zero]
  rw [Nat.cast_zero] at hblocks
  rw [hblocks]
  exact merged_blocks d dir SN log parts.flatten.length hmany h3 _ rfl hcont hver hname hdsn hadc parts (r0 :: rs) 0 (by omega) hpne
    (by rw [List.drop_zero]; exact hM) hparts

/-- **C106, `convert`.** Let the files of an instrument, from the first one with a fix on, be groups as `gem_cat` forms them, and let each `N` groups (the
last time perhaps fewer) together hold a recording without defects and without gaps, each starting after the end of the one before; single files
need have no fixes at all. Then merging succeeds, and converting the folder written, in blocks of `N` files, ends normally, and there is one trace per block, such that
the converted samples are exactly those of the traces, with the samples missing where the blocks meet filled in, from the first whole second on. -/
theorem C106_convert (env : CatEnv) (files before : List (List Event)) (parts : List (List (List (List Event)))) (SN : List Nat)
    (hfiles : files = before ++ parts.flatten.flatten) (hm : ∀ es ∈ files, MergeFile es)
    (hsn : ∃ es, files.head? = some es ∧ env.readSN (textOf es) = some SN) (hb : ∀ es ∈ before, ¬ HasFix (textOf es))
    (hg : Grouped (parts.flatten.flatten.map textOf) (parts.flatten.map (List.map textOf)))
    (hmany : parts.flatten.length ≤ 10000) (h3 : SN.length = 3) (n : Int) (hn : pyInt SN = some n)
    (N : Nat) (hN : 0 < N) (hcut : CutBy N parts) :
    ∃ outs, gemCatFiles env false (files.map textOf) = .ok outs ∧
      ∀ (d : RawDisk) (dir : List Entry), (dir.map fun e => (e.name, d.content e)).Perm outs → (∀ e ∈ dir, e.size = (d.content e).length) →
        (∀ e ∈ dir, e.sn = .str SN) → (∀ e ∈ dir, ∃ sn, d.readSN e = .ok sn) → (∀ e ∈ dir, d.adc e = 0 ∨ d.adc e = 1) →
        ∀ (specs : Specs), gemSpecs n = .ok specs → Reproduces d.fit → ReproducesLines d.fit →
        ∀ r0 rs, List.Forall₂ (fun part r => CleanPart d r part) parts (r0 :: rs) →
        (r0 :: rs).IsChain (fun x y => x.stop < y.start) → 1 ≤ r0.start → 103 / 100 ≤ r0.stop - r0.start →
        ∀ (blockdays : Rat) (l t2 : Int), 12 * blockdays = N → 0 < l →
        (∀ r ∈ r0 :: rs, 1000000 * r.stop + 10000 * l + ⌈86400000000 * blockdays⌉ + 1000000 ≤ t2) →
        ∃ tr0 trs s h, List.Forall₂ TraceOver (r0 :: rs) (tr0 :: trs) ∧
          Settles (convertDir d.env true dir SN [none] blockdays (10000 * l) none t2) (.done s) ∧
          h % 1000000 = 0 ∧ 10000 * tr0.start ≤ h ∧ h < 10000 * tr0.start + 1000000 ∧
          samples s.w.out = from_ h (fillIn (samples (tr0 :: trs))) ∧
          ((r0 :: rs).IsChain (fun x y => y.start - x.stop ≤ 1 / 100) →
            (samples s.w.out).IsChain (fun x y => y.1 = x.1 + 1) ∧ (samples s.w.out).head?.map Prod.fst = some (h / 10000) ∧
            ∃ q r, (samples s.w.out).getLast? = some q ∧ (r0 :: rs).getLast? = some r ∧
              r.stop - 25 / 1000 < (q.1 : Rat) / 100 ∧ (q.1 : Rat) / 100 ≤ r.stop - 5 / 1000) := by
  obtain ⟨outs, hok, h⟩ := merged_convert env files before parts SN hfiles hm hsn hb hg hmany h3 n hn N hN hcut
  refine ⟨outs, hok, ?_⟩
  intro d dir hdir hsize hesn hdsn hadc specs hspecs hfit hfit1 r0 rs hparts horder hpos hlong blockdays l t2 hbd hl hfar
  obtain ⟨log, ns, hns, hblocks⟩ := h d dir hdir hsize hesn hdsn hadc r0 rs hparts
  have hb : 0 < blockdays := by
    have : (0 : Rat) < N := by exact_mod_cast hN
    linarith
  obtain ⟨tr0, trs, s, h, c1, c2, _, c3⟩ := C66_convert d dir SN log [none] ns hns n hn specs hspecs hfit hfit1 blockdays l t2 hb hl r0 rs (hblocks _ _ _ hbd) horder hpos hlong hfar
  exact ⟨tr0, trs, s, h, c1, c2, c3⟩

/-- **C106, `gemconvert`.** As `C106_convert`, from the command line: let the parts (twelve groups each, the last time perhaps fewer) follow each other
within 10 ms. When `gemconvert` has been called on the folder `gem_cat` wrote, and all conversions have ended, in whatever order they worked,
the output folder holds files which together have a sample for each 10 ms from the first whole second to the end of the record, once, with the
values of the record. -/
theorem C106_command (env : CatEnv) (files before : List (List Event)) (parts : List (List (List (List Event)))) (SN : List Nat)
    (hfiles : files = before ++ parts.flatten.flatten) (hm : ∀ es ∈ files, MergeFile es)
    (hsn : ∃ es, files.head? = some es ∧ env.readSN (textOf es) = some SN) (hb : ∀ es ∈ before, ¬ HasFix (textOf es))
    (hg : Grouped (parts.flatten.flatten.map textOf) (parts.flatten.map (List.map textOf)))
    (hmany : parts.flatten.length ≤ 10000) (h3 : SN.length = 3) (n : Int) (hn : pyInt SN = some n) (hcut : CutBy 12 parts)
    (ws : List Word) (hv : ∀ w ∈ ws, w.Valid) (hh : Word.flag 104 ∉ ws) (htest : Word.flag 116 ∉ ws)
    (hcodes : typedValue ws 99 = none) (hproc : 0 < typedProcesses ws) (m : Int) (hmp : 0 < m)
    (hlength : LengthTyped (typedValue ws 108) m) :
    ∃ outs, gemCatFiles env false (files.map textOf) = .ok outs ∧
      ∀ (cli : CliEnv) (d : RawDisk) (dir : List Entry), (dir.map fun e => (e.name, d.content e)).Perm outs →
        (∀ e ∈ dir, e.size = (d.content e).length) →
        (∀ e ∈ dir, e.sn = .str SN) → (∀ e ∈ dir, ∃ sn, d.readSN e = .ok sn) → (∀ e ∈ dir, d.adc e = 0 ∨ d.adc e = 1) →
        cli.listdir ((typedValue ws 105).getD (bytes "raw")) = some (dir.map Entry.name) →
        (∀ s, WantedSNs ws (dir.map Entry.name) s → s.length = 3) → WantedSNs ws (dir.map Entry.name) SN →
        ∀ (specs : Specs), gemSpecs n = .ok specs → Reproduces d.fit → ReproducesLines d.fit →
        ∀ r0 rs, List.Forall₂ (fun part r => CleanPart d r part) parts (r0 :: rs) →
        (r0 :: rs).IsChain (fun x y => x.stop < y.start ∧ y.start - x.stop ≤ 1 / 100) → 1 ≤ r0.start → 103 / 100 ≤ r0.stop - r0.start →
        (∀ r ∈ r0 :: rs, 1000000 * r.stop + 1000000 * m + 86400000000 + 1000000 ≤ endOfTime) →
        ∃ jobs, gemconvert cli (ws.flatMap Word.typed) = .run jobs (typedProcesses ws) ∧
          ∀ (js : List (Proc FilePiece)), List.Forall₂ (IsConversion d.env dir) jobs js →
          (∀ j ∈ js, ∀ a c, Instr.segment a c ∈ j.todo → Datable a) →
          ∀ (disk : Disk FilePiece), (∀ k, k ∈ disk.dirs) →
          ∀ sched, (∀ j ∈ (runSchedule sched (js, disk)).1, j.todo = []) →
          ∃ (tr0 : Trace) (trs out : List Trace) (h : Int), List.Forall₂ TraceOver (r0 :: rs) (tr0 :: trs) ∧
            h % 1000000 = 0 ∧ 10000 * tr0.start ≤ h ∧ h < 10000 * tr0.start + 1000000 ∧
            samples out = from_ h (fillIn (samples (tr0 :: trs))) ∧
            (samples out).IsChain (fun x y => y.1 = x.1 + 1) ∧ (samples out).head?.map Prod.fst = some (h / 10000) ∧
            (∃ q r, (samples out).getLast? = some q ∧ (r0 :: rs).getLast? = some r ∧
              r.stop - 25 / 1000 < (q.1 : Rat) / 100 ∧ (q.1 : Rat) / 100 ≤ r.stop - 5 / 1000) ∧
            ∀ tr ∈ out, (runSchedule sched (js, disk)).2.get (.converted, convertedName (bytes "." ++ SN ++ bytes "..HDF")
              ((typedValue ws 102).getD (bytes "MSEED")) tr.start) = some [.wave tr] := by
  obtain ⟨outs, hok, h⟩ := merged_convert env files before parts SN hfiles hm hsn hb hg hmany h3 n hn 12 (by decide) hcut
  refine ⟨outs, hok, ?_⟩
  intro cli d dir hdir hsize hesn hdsn hadc hlist hthree hwanted specs hspecs hfit hfit1 r0 rs hparts horder hpos hlong hfar
  obtain ⟨log, ns, hns, hblocks⟩ := h d dir hdir hsize hesn hdsn hadc r0 rs hparts
  obtain ⟨jobs, j1, j2⟩ := C97_command ws hv hh htest hcodes hproc m hmp hlength cli d dir hlist hthree SN hwanted log ns hns n hn specs hspecs hfit hfit1
    r0 rs (hblocks _ _ _ (by norm_num)) horder hpos hlong hfar
  refine ⟨jobs, j1, fun js hjs hdat disk hdisk sched hend => ?_⟩
  obtain ⟨tr0, trs, out, h, e1, e2, e3, e4, e5, e6, e7, e8, e9, _⟩ := j2 js hjs hdat disk hdisk sched hend
  exact ⟨tr0, trs, out, h, e1, e2, e3, e4, e5, e6, e7, e8, e9⟩

/-! ## Two files, one of them without fixes, of more than a second together -/

def spanFixes : List Event :=
  [demoFixEvent (-4 * 9765625 / 10000) ⟨false, 4285, bytes "75", by decide +kernel⟩ 0,
   demoFixEvent (-3 * 9765625 / 10000) ⟨false, 5262, bytes "3125", by decide +kernel⟩ 1,
   demoFixEvent (-2 * 9765625 / 10000) ⟨false, 6238, bytes "875", by decide +kernel⟩ 2,
   demoFixEvent (-1 * 9765625 / 10000) ⟨false, 7215, bytes "4375", by decide +kernel⟩ 3,
   demoFixEvent (0 * 9765625 / 10000) ⟨false, 0, bytes "", by decide +kernel⟩ 4,
   demoFixEvent (1 * 9765625 / 10000) ⟨false, 976, bytes "5625", by decide +kernel⟩ 5,
   demoFixEvent (2 * 9765625 / 10000) ⟨false, 1953, bytes "125", by decide +kernel⟩ 6,
   demoFixEvent (3 * 9765625 / 10000) ⟨false, 2929, bytes "6875", by decide +kernel⟩ 7,
   demoFixEvent (4 * 9765625 / 10000) ⟨false, 3906, bytes "25", by decide +kernel⟩ 8,
   demoFixEvent (5 * 9765625 / 10000) ⟨false, 4882, bytes "8125", by decide +kernel⟩ 9]

def spanStatus (t : Nat) : Event := ⟨t, .status (.ofNat t) (.ofNat 4) (.ofNat 20) (.ofNat 0) (.ofNat 0) 1 2 3 4 1 6 7⟩

/-- A file with fixes and 25 samples. -/
def spanLogA : List Event :=
  ⟨0, .other (bytes "#GemCSV0.9")⟩ :: ((spanFixes ++ [spanStatus 816]) ++ (List.range' 34 25).map longSample)

/-- The file after it: 25 samples, no fixes. -/
def spanLogB : List Event :=
  ⟨0, .other (bytes "#GemCSV0.9")⟩ :: ([spanStatus 1400] ++ (List.range' 59 25).map longSample)

theorem spanLogA_ok : MergeFile spanLogA := by
  refine ⟨⟨"0.9", 0, spanFixes ++ [spanStatus 816], (24 * 34 : Nat), .ofNat (24 * 34), 1, (List.range' 35 24).map longSample, by decide, by rfl, by decide +kernel,
    by decide +kernel⟩, by decide +kernel, by decide +kernel, by decide +kernel, by decide +kernel⟩

theorem spanLogB_ok : MergeFile spanLogB := by
  refine ⟨⟨"0.9", 0, [spanStatus 1400], (24 * 59 : Nat), .ofNat (24 * 59), 1, (List.range' 60 24).map longSample, by decide, by rfl, by decide +kernel,
    by decide +kernel⟩, by decide +kernel, by decide +kernel, by decide +kernel, by decide +kernel⟩

theorem span_joined : [[spanLogA, spanLogB]].map joinedLog =
    [⟨0, .other (bytes "#GemCSV0.9")⟩ :: (spanFixes ++ (spanStatus 816 :: ((List.range' 34 50).map longSample ++ [])))] := by
  have h : fromSample spanLogB = (List.range' 59 25).map longSample := by rfl
  have h2 : List.range' 34 50 = List.range' 34 25 ++ List.range' 59 25 := by decide
  rw [h2]
  simp only [List.map_cons, List.map_nil, joinedLog, List.flatMap_cons, List.flatMap_nil, List.append_nil, h, spanLogA, List.map_append]
  simp

theorem span_clean : CleanRecording 1577836804 (1024 / 1000000) ([[spanLogA, spanLogB]].map joinedLog) := by
  rw [span_joined]
  refine ⟨by norm_num, ⟨⟨⟨by decide +kernel, by decide +kernel, ?_, by decide +kernel, by decide +kernel, by decide +kernel, by decide +kernel,
    ?_, by decide +kernel, by decide +kernel, by decide +kernel⟩, by unfold NearStart; decide +kernel, by decide +kernel⟩, trivial⟩, by decide +kernel, ?_⟩
  · have w : ∀ (T s : Rat) (k : Int), 0 ≤ s → s < 8192 → T = s + k * 8192 → WrappedReading 8192 T s := fun T s k h1 h2 h3 => ⟨h1, h2, k, h3⟩
    have hs : ∀ prev, TimesPrinted prev (spanStatus 816 :: ((List.range' 34 50).map longSample ++ [])) := by
      intro prev
      unfold spanStatus
      simp only [TimesPrinted]
      refine ⟨w _ _ 0 ?_ ?_ ?_, printed_samples (rest := []) (fun _ => trivial) _ _ (by decide)⟩ <;> decide +kernel
    generalize spanStatus 816 :: ((List.range' 34 50).map longSample ++ []) = tail at hs ⊢
    unfold spanFixes demoFixEvent
    simp only [List.cons_append, List.nil_append, TimesPrinted]
    refine ⟨w _ _ (-1) ?_ ?_ ?_, w _ _ (-1) ?_ ?_ ?_, w _ _ (-1) ?_ ?_ ?_, w _ _ (-1) ?_ ?_ ?_, w _ _ 0 ?_ ?_ ?_, w _ _ 0 ?_ ?_ ?_, w _ _ 0 ?_ ?_ ?_,
      w _ _ 0 ?_ ?_ ?_, w _ _ 0 ?_ ?_ ?_, w _ _ 0 ?_ ?_ ?_, hs _⟩ <;> decide +kernel
  · intro e he hfix
    rcases List.mem_cons.mp he with rfl | he
    · exact absurd hfix (by simp [Event.isFix])
    · rcases List.mem_append.mp he with he | he
      · unfold spanFixes at he
        simp only [List.mem_cons, List.not_mem_nil, or_false] at he
        rcases he with rfl | rfl | rfl | rfl | rfl | rfl | rfl | rfl | rfl | rfl <;> exact ⟨_, mergeFixAt _ _ _ (by decide) (by norm_num)⟩
      · exfalso
        rcases List.mem_cons.mp he with rfl | he
        · exact absurd hfix (by simp [Event.isFix, spanStatus])
        · rw [List.append_nil] at he
          obtain ⟨i, _, rfl⟩ := List.mem_map.mp he
          exact absurd hfix (by simp [Event.isFix, longSample])
  · intro x y z l h
    have : ([⟨0, .other (bytes "#GemCSV0.9")⟩ :: (spanFixes ++ (spanStatus 816 :: ((List.range' 34 50).map longSample ++ [])))].flatMap sampleTimes) =
        816 :: 840 :: (List.range' 36 48).map fun i : Nat => ((24 * i : Nat) : Rat) := by decide +kernel
    rw [this] at h
    simp only [List.cons.injEq] at h
    obtain ⟨rfl, rfl, -⟩ := h
    left; norm_num

theorem span_grouped : Grouped ([[spanLogA, spanLogB]].flatten.map textOf) ([[spanLogA, spanLogB]].map (List.map textOf)) := by
  have hA : HasFix (textOf spanLogA) :=
    .inr ⟨(textOf spanLogA).take 10, (textOf spanLogA).drop 12, by decide +kernel⟩
  have hB : ¬ HasFix (textOf spanLogB) := by
    rintro (h | ⟨x, y, h⟩)
    · exact absurd h (by decide +kernel)
    · have key : ∀ (l x y : List Nat), l = x ++ 10 :: 71 :: y → (l.zip l.tail).contains (10, 71) = true := by
        intro l x
        induction x generalizing l with
        | nil => rintro y rfl; simp
        | cons c x ih =>
          rintro y rfl
          have := ih _ y rfl
          rw [List.cons_append]
          cases hx : x ++ 10 :: 71 :: y with
          | nil => simp at hx
          | cons u v =>
            rw [hx] at this
            simp only [List.tail_cons] at this ⊢
            rw [List.zip_cons_cons, List.contains_cons, this, Bool.or_true]
      have := key _ x y h
      exact absurd this (by decide +kernel)
  refine ⟨rfl, ?_, ?_, by simp⟩
  · intro g hg
    simp only [List.map_cons, List.map_nil, List.mem_singleton] at hg
    exact ⟨_, by rw [hg]; rfl, hA⟩
  · intro g hg
    simp only [List.map_cons, List.map_nil, List.mem_singleton] at hg
    rw [hg]
    simp [hB]

def spanOver : BlockSpan :=
  ⟨1577836804, 1024 / 1000000, 1577836804 + 1024 / 1000000 * (816 + 893 / 100), 1577836804 + 1024 / 1000000 * (1992 + 893 / 100), fun _ => 7⟩

def spanCat : CatEnv := ⟨true, [], [], fun _ => .error .corrupt, fun _ => .error .corrupt, fun _ => some (bytes "012")⟩

noncomputable def spanDisk (out : List Nat) : RawDisk :=
  ⟨fun _ => out, fun _ _ => .error .other, fun _ _ => .error .other, fun _ => .ok "012", fun _ => 0, [], [], false, 1800000000, idealFit, flatSpline⟩

theorem span_part (out : List Nat) : CleanPart (spanDisk out) spanOver [[spanLogA, spanLogB]] := by
  refine ⟨span_clean, by decide +kernel, by decide +kernel, by unfold spanOver; norm_num, by decide +kernel, ?_⟩
  have hne : ¬ (trueRecord 1577836804 (1024 / 1000000) [[spanLogA, spanLogB]].flatten).length < 2 := by decide +kernel
  rw [show (spanDisk out).spline = flatSpline from rfl]
  unfold flatSpline
  rw [show spanOver.offset = 1577836804 from rfl, show spanOver.rate = 1024 / 1000000 from rfl, List.length_map, if_neg hne]
  rfl

/-- `gem_cat` writes one file for the two. -/
theorem span_merged : ∃ out, gemCatFiles spanCat false [textOf spanLogA, textOf spanLogB] = .ok [(bytes "FILE0000.012", out)] := by
  obtain ⟨outs, o1, o2, _⟩ := merge_events spanCat [spanLogA, spanLogB] [] [[spanLogA, spanLogB]] (bytes "012") rfl
      (by intro es hes; simp only [List.mem_cons, List.not_mem_nil, or_false] at hes; rcases hes with rfl | rfl; exacts [spanLogA_ok, spanLogB_ok])
      ⟨spanLogA, rfl, rfl⟩ (by simp) span_grouped
  have hlen : outs.map Prod.fst = [bytes "FILE0000.012"] := by
    rw [o2]
    decide +kernel
  obtain ⟨o, rfl⟩ : ∃ o, outs = [o] := by
    have : outs.length = 1 := by rw [← List.length_map (f := Prod.fst), hlen]; rfl
    exact List.length_eq_one_iff.mp this
  obtain ⟨nm, out⟩ := o
  simp only [List.map_cons, List.map_nil, List.cons.injEq, and_true] at hlen
  subst hlen
  exact ⟨out, o1⟩

/-- The hypotheses of `C106_convert` and `C106_command` hold for the two files: merged, they are converted without a gap. -/
example : ∃ out s jobs, gemCatFiles spanCat false [textOf spanLogA, textOf spanLogB] = .ok [(bytes "FILE0000.012", out)] ∧
    Settles (convertDir (spanDisk out).env true [⟨bytes "FILE0000.012", out.length, .str (bytes "012")⟩] (bytes "012") [none] 1 (10000 * 360000) none
      253402300799000000) (.done s) ∧
    (samples s.w.out).IsChain (fun x y => y.1 = x.1 + 1) ∧
    gemconvert ⟨fun f => if f = bytes "raw" then some [bytes "FILE0000.012"] else none, fun _ => none⟩ (shortWords.flatMap Word.typed) = .run jobs 2 := by
  obtain ⟨out, hout⟩ := span_merged
  have hm : ∀ es ∈ [spanLogA, spanLogB], MergeFile es := by
    intro es hes; simp only [List.mem_cons, List.not_mem_nil, or_false] at hes; rcases hes with rfl | rfl; exacts [spanLogA_ok, spanLogB_ok]
  have hparts : List.Forall₂ (fun part r => CleanPart (spanDisk out) r part) [[[spanLogA, spanLogB]]] [spanOver] := .cons (span_part out) .nil
  have hcut : CutBy 12 [[[spanLogA, spanLogB]]] := by unfold CutBy; simp
  obtain ⟨outs, h1, h2⟩ := C106_convert spanCat [spanLogA, spanLogB] [] [[[spanLogA, spanLogB]]] (bytes "012") rfl hm ⟨spanLogA, rfl, rfl⟩ (by simp)
    span_grouped (by simp) (by decide +kernel) 12 (by decide +kernel) 12 (by decide) hcut
  obtain ⟨outs', h1', h2'⟩ := C106_command spanCat [spanLogA, spanLogB] [] [[[spanLogA, spanLogB]]] (bytes "012") rfl hm ⟨spanLogA, rfl, rfl⟩ (by simp)
    span_grouped (by simp) (by decide +kernel) 12 (by decide +kernel) hcut shortWords
    (by
      intro w hw
      unfold shortWords at hw
      simp only [List.mem_cons, List.not_mem_nil, or_false] at hw
      rcases hw with rfl | rfl
      · show 108 ∈ bytes "isxcoflp"; decide +kernel
      · show 112 ∈ bytes "isxcoflp"; decide +kernel)
    (by simp [shortWords]) (by simp [shortWords]) (by decide +kernel) (by decide +kernel) 3600 (by decide) shortWords_length
  have ho : outs = [(bytes "FILE0000.012", out)] := by
    have e : Except.ok outs = Except.ok [(bytes "FILE0000.012", out)] := h1.symm.trans hout
    simpa using e
  have ho' : outs' = [(bytes "FILE0000.012", out)] := by
    have e : Except.ok outs' = Except.ok [(bytes "FILE0000.012", out)] := h1'.symm.trans hout
    simpa using e
  subst ho ho'
  obtain ⟨_, _, s, _, _, hs, _, _, _, _, hc⟩ := h2 (spanDisk out) [⟨bytes "FILE0000.012", out.length, .str (bytes "012")⟩] (by simp [spanDisk]) (by simp [spanDisk]) (by simp)
    (fun _ _ => ⟨_, rfl⟩) (fun _ _ => .inl rfl) (specsOf (7 / 10)) (by decide +kernel) idealFit_reproduces idealFit_line spanOver [] hparts (by simp)
    (by unfold spanOver; norm_num) (by unfold spanOver; norm_num) 1 360000 253402300799000000 (by norm_num) (by decide)
    (by
      intro r hr
      rw [List.mem_singleton.mp hr]
      unfold spanOver; norm_num)
  have hw : ∀ t, WantedSNs shortWords [bytes "FILE0000.012"] t ↔ t = bytes "012" := by
    intro t
    have e1 : typedValue shortWords 115 = none := by decide +kernel
    have e2 : typedValue shortWords 120 = none := by decide +kernel
    unfold WantedSNs
    rw [e1, e2]
    simp only [reduceCtorEq, false_and, exists_false, not_false_eq_true, and_true, List.mem_singleton, exists_eq_left]
    rw [show ((bytes "FILE0000.012").drop 9).take 4 = bytes "012" by decide +kernel]
  obtain ⟨jobs, hj, _⟩ := h2' ⟨fun f => if f = bytes "raw" then some [bytes "FILE0000.012"] else none, fun _ => none⟩ (spanDisk out)
    [⟨bytes "FILE0000.012", out.length, .str (bytes "012")⟩] (by simp [spanDisk]) (by simp [spanDisk]) (by simp)
    (fun _ _ => ⟨_, rfl⟩) (fun _ _ => .inl rfl) (by simp only [List.map_cons, List.map_nil]; decide +kernel) (fun t ht => by rw [(hw t).mp ht]; decide +kernel) ((hw _).mpr rfl)
    (specsOf (7 / 10)) (by decide +kernel) idealFit_reproduces idealFit_line spanOver [] hparts (by simp)
    (by unfold spanOver; norm_num) (by unfold spanOver; norm_num)
    (by
      intro r hr
      rw [List.mem_singleton.mp hr]
      unfold spanOver endOfTime; norm_num)
  exact ⟨out, s, jobs, hout, hs, (hc (by simp)).1, hj⟩

end Gemlog
