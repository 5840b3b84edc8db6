import Verif.Model.Segments
import Verif.Props.Drift
import Verif.Props.ReadSeveral

/-!
# Properties C24, C25: which clock times a sample
-/

namespace Gemlog

/-! ## Specification -/

/-- The count lies in the file's millisecond range. -/
def Contains (row : HeaderRow) (x : Rat) : Prop := row.info.startMs ≤ x ∧ x ≤ row.info.endMs

/-- `row` is the last row of the header that contains `x`. -/
def LastContaining (header : List HeaderRow) (x : Rat) (row : HeaderRow) : Prop :=
  ∃ before after, header = before ++ row :: after ∧ Contains row x ∧ ∀ r ∈ after, ¬ Contains r x

theorem segmentStep_eq (x : Rat) (y : Option Rat) (row : HeaderRow) :
    (Contains row x → segmentStep x y row = some (timeOf row.info x)) ∧
    (¬ Contains row x → segmentStep x y row = y) := by
  unfold segmentStep Contains applyFit timeOf
  constructor
  · intro h; rw [if_pos h]
  · intro h; rw [if_neg h]

theorem segments_fold (x : Rat) (header : List HeaderRow) : ∀ y,
    (∀ row, LastContaining header x row → header.foldl (segmentStep x) y = some (timeOf row.info x)) ∧
    ((∀ r ∈ header, ¬ Contains r x) → header.foldl (segmentStep x) y = y) := by
  induction header with
  | nil =>
    intro y
    refine ⟨?_, fun _ => rfl⟩
    rintro row ⟨b, a, h, _⟩
    simp at h
  | cons r header ih =>
    intro y
    constructor
    · rintro row ⟨b, a, h, hc, hn⟩
      rw [List.foldl_cons]
      cases b with
      | nil =>
        simp only [List.nil_append, List.cons.injEq] at h
        obtain ⟨rfl, rfl⟩ := h
        rw [(segmentStep_eq x y r).1 hc]
        exact (ih _).2 hn
      | cons r' b =>
        simp only [List.cons_append, List.cons.injEq] at h
        exact (ih _).1 row ⟨b, a, h.2, hc, hn⟩
    · intro hn
      rw [List.foldl_cons, (segmentStep_eq x y r).2 (hn r (by simp))]
      exact (ih _).2 fun r' hr' => hn r' (by simp [hr'])

open Classical in
theorem lastContaining_or (x : Rat) (header : List HeaderRow) :
    (∃ row, LastContaining header x row) ∨ ∀ r ∈ header, ¬ Contains r x := by
  induction header with
  | nil => right; simp
  | cons r header ih =>
    rcases ih with ⟨row, b, a, h, hc, hn⟩ | hn
    · exact Or.inl ⟨row, r :: b, a, by rw [h]; rfl, hc, hn⟩
    · by_cases hc : Contains r x
      · exact Or.inl ⟨r, [], header, rfl, hc, hn⟩
      · right
        intro r' hr'
        rcases List.mem_cons.mp hr' with rfl | h
        · exact hc
        · exact hn r' h

/-! ## C24 -/

/-- **C24.** A count gets the time of the clock of the last file whose range contains it, and no time exactly if no
range does. -/
theorem C24_last_containing (header : List HeaderRow) (x : Rat) :
    (∀ row, LastContaining header x row → applySegments header x = some (timeOf row.info x)) ∧
    (applySegments header x = none ↔ ∀ row ∈ header, ¬ Contains row x) := by
  refine ⟨(segments_fold x header none).1, ?_, (segments_fold x header none).2⟩
  intro h
  rcases lastContaining_or x header with ⟨row, hr⟩ | hn
  · rw [applySegments, (segments_fold x header none).1 row hr] at h
    simp at h
  · exact hn

/-- The time columns apply this to every sample, metadata row and file limit. -/
theorem C24_columns (out : List (Rat × Option Rat)) (md : List (Rat × List (Option Rat))) (header : List HeaderRow) :
    (timedData out header).map (fun p => (p.1, p.2.1)) = out ∧
    (∀ p ∈ timedData out header, p.2.2 = applySegments header p.1) ∧
    (timedMetadata md header).map (fun p => (p.1, p.2.1)) = md ∧
    (∀ p ∈ timedMetadata md header, p.2.2 = applySegments header p.1) ∧
    headerTimes header = header.map fun r =>
      (applySegments header r.info.startMs, applySegments header r.info.endMs) := by
  refine ⟨?_, ?_, ?_, ?_, rfl⟩
  · unfold timedData
    rw [List.map_map]
    exact List.map_id' out
  · intro p hp
    obtain ⟨q, _, rfl⟩ := List.mem_map.mp hp
    rfl
  · unfold timedMetadata
    rw [List.map_map]
    exact List.map_id' md
  · intro p hp
    obtain ⟨q, _, rfl⟩ := List.mem_map.mp hp
    rfl

/-- The clock of a file covers exactly its data. -/
def CoversData {F : Type} (ops : FileOps F) : Prop :=
  ∀ f L rg info, ops.drift f L rg = .ok info →
    info.startMs = (L.data.head?.map Prod.fst).getD 0 ∧ info.endMs = (L.data.getLast?.map Prod.fst).getD 0

theorem chain_bounds (l : List Rat) (h : l.IsChain (fun a b => a ≤ b ∧ b ≤ a + 1000)) :
    ∀ x ∈ l, l.head?.getD 0 ≤ x ∧ x ≤ l.getLast?.getD 0 := by
  have hc : l.Pairwise (· ≤ ·) := by
    rw [← List.isChain_iff_pairwise]
    exact h.imp fun a b hab => hab.1
  intro x hx
  cases l with
  | nil => simp at hx
  | cons a l =>
    constructor
    · simp only [List.head?_cons, Option.getD_some]
      rcases List.mem_cons.mp hx with rfl | h'
      · exact le_rfl
      · exact List.rel_of_pairwise_cons hc h'
    · rw [List.getLast?_eq_some_getLast (by simp)]
      simp only [Option.getD_some]
      obtain ⟨i, hi, rfl⟩ := List.getElem_of_mem hx
      rw [List.getLast_eq_getElem]
      by_cases he : i = (a :: l).length - 1
      · subst he; exact le_rfl
      · exact List.pairwise_iff_getElem.mp hc i _ hi (by simp) (by omega)

theorem forall₂_split {α β : Type} {R : α → β → Prop} {l : List α} {m : List β} (h : List.Forall₂ R l m)
    {pre : List α} {a : α} {post : List α} (hl : l = pre ++ a :: post) :
    ∃ pre' b post', m = pre' ++ b :: post' ∧ R a b ∧ List.Forall₂ R post post' ∧ List.Forall₂ R pre pre' := by
  induction pre generalizing l m with
  | nil =>
    subst hl
    cases h with
    | cons hab ht => exact ⟨[], _, _, rfl, hab, ht, .nil⟩
  | cons c pre ih =>
    subst hl
    cases h with
    | cons hab ht =>
      obtain ⟨pre', b, post', h1, h2, h3, h4⟩ := ih ht rfl
      exact ⟨_ :: pre', b, post', by rw [h1]; rfl, h2, h3, .cons hab h4⟩

/-- **C24.** In the result of reading several files every sample of an accepted file lies in the range of its own file;
if no later file's range contains it, it is timed by its own file's clock. -/
theorem C24_own_file {F : Type} (ops : FileOps F) (hcov : CoversData ops) (rg : Bool)
    (hdrift : ∀ f L info, ops.drift f L true = .ok info → L.gps ≠ [])
    (version : String) (files : List F) (out : Several F) (h : readSeveral ops files version rg = .ok out) :
    ∃ hist : List (F × Except Exc FileData), hist.map Prod.fst = files ∧
      out.data = ((accepted hist).map FileData.data).flatten ∧
      ∀ pre f P post, hist = pre ++ (f, .ok P) :: post →
        ∃ before row after, out.header = before ++ row :: after ∧ ops.drift f P rg = .ok row.info ∧
          after.length = post.length ∧
          ∀ p ∈ P.data, Contains row p.1 ∧
            ((∀ r ∈ after, ¬ Contains r p.1) → applySegments out.header p.1 = some (timeOf row.info p.1)) := by
  obtain ⟨hist, h1, h2, h3, _, _, _, h7⟩ := C15_used_or_reported ops rg version files out h
  refine ⟨hist, h1, h3, ?_⟩
  intro pre f P post hh
  have hst := history_steady h2 P (by
    unfold accepted
    rw [List.mem_filterMap]
    exact ⟨(f, .ok P), by rw [hh]; simp, rfl⟩)
  obtain ⟨before, row, after, e1, e2, e3, _⟩ := forall₂_split h7 hh
  cases e2 with
  | used _ _ info sn hd hn =>
    have hrec : recordedClock rg P info = info := by
      unfold recordedClock
      rw [if_neg]
      rintro ⟨rfl, hg⟩
      exact hdrift f P info hd hg
    refine ⟨before, _, after, e1, ?_, ?_, ?_⟩
    · simp only [hrec]; exact hd
    · exact e3.length_eq.symm
    · intro p hp
      have hb := chain_bounds _ hst p.1 (List.mem_map.mpr ⟨p, hp, rfl⟩)
      obtain ⟨c1, c2⟩ := hcov f P rg info hd
      have hc : Contains ⟨recordedClock rg P info, P.data.length, sn⟩ p.1 := by
        unfold Contains
        simp only [hrec]
        rw [c1, c2]
        simpa using hb
      refine ⟨hc, fun hn => ?_⟩
      exact (C24_last_containing out.header p.1).1 _ ⟨before, after, e1, hc, hn⟩

/-- The clock regression satisfies the hypotheses of `C24_own_file`. -/
theorem C24_regression_qualifies (fit : Fitter) (L : FileData) (rg : Bool) (info : HeaderInfo)
    (h : calculateDrift fit L rg = .ok info) :
    info.startMs = (L.data.head?.map Prod.fst).getD 0 ∧ info.endMs = (L.data.getLast?.map Prod.fst).getD 0 ∧
    (rg = true → L.gps ≠ []) := by
  rw [calculateDrift_eq] at h
  have hfin : ∃ c m n, info = headerOf L c m n := by
    by_cases h1 : rg = true ∧ L.gps = []
    · rw [if_pos h1] at h; simp at h
    rw [if_neg h1] at h
    by_cases h2 : rg = true ∧ sufficientB L = false
    · rw [if_pos h2] at h; simp at h
    rw [if_neg h2] at h
    by_cases h3 : rg = true ∧ ∃ x, detectStep fit (fixPoints L) = .error x
    · rw [if_pos h3] at h; simp at h
    rw [if_neg h3] at h
    by_cases h4 : rg = true ∧ detectStep fit (fixPoints L) = .ok true
    · rw [if_pos h4] at h; simp at h
    rw [if_neg h4] at h
    by_cases h5 : sufficientB L = true
    · rw [if_pos h5] at h
      cases htr : tryRegression fit (dataSpan L) (fixPoints L) with
      | some r =>
        rw [htr] at h
        simp only [Except.ok.injEq] at h
        exact ⟨_, _, _, h.symm⟩
      | none =>
        rw [htr] at h
        simp only at h
        by_cases h6 : rg = true
        · rw [if_pos h6] at h; simp at h
        · rw [if_neg h6] at h
          simp only [Except.ok.injEq] at h
          exact ⟨_, _, _, h.symm⟩
    · rw [if_neg h5] at h
      simp only [Except.ok.injEq] at h
      exact ⟨_, _, _, h.symm⟩
  obtain ⟨c, m, n, rfl⟩ := hfin
  refine ⟨rfl, rfl, ?_⟩
  intro hr hg
  rw [if_pos ⟨hr, hg⟩] at h
  simp at h

/-! ## C25 -/

/-- **C25** (counts other than zero, no file without serial number). If every rejected file was rejected before its clock was
recorded, a count different from zero is only ever timed by the clock of an accepted file.
Missing: count zero and files rejected for lack of a serial number, see `C25_violated_zero`,
`C25_violated_no_serial`. -/
theorem C25_only_accepted_clocks_partial {F : Type} (ops : FileOps F) (rg : Bool) (version : String) (files : List F)
    (out : Several F) (h : readSeveral ops files version rg = .ok out)
    (hsn : ∀ f ∈ files, ∃ sn, ops.readSN f = .ok sn) (x t : Rat) (hx : x ≠ 0)
    (ht : applySegments out.header x = some t) :
    ∃ hist : List (F × Except Exc FileData), hist.map Prod.fst = files ∧ out.problems = rejected hist ∧
      out.data = ((accepted hist).map FileData.data).flatten ∧
      ∃ f P info, (f, Except.ok P) ∈ hist ∧ ops.drift f P rg = .ok info ∧ t = timeOf info x ∧
        info.startMs ≤ x ∧ x ≤ info.endMs := by
  obtain ⟨hist, h1, _, h3, _, _, h6, h7⟩ := C15_used_or_reported ops rg version files out h
  refine ⟨hist, h1, h6, h3, ?_⟩
  rcases lastContaining_or x out.header with ⟨row, hl⟩ | hn
  swap
  · rw [(C24_last_containing _ x).2.mpr hn] at ht
    simp at ht
  have htime := (C24_last_containing _ x).1 row hl
  rw [ht] at htime
  simp only [Option.some.injEq] at htime
  obtain ⟨b, a, e1, hc, _⟩ := hl
  obtain ⟨pre, q, post, e2, e3, _⟩ := forall₂_split h7.flip e1
  have hzero : ¬ Contains zeroRow x := by
    unfold Contains zeroRow
    rintro ⟨c1, c2⟩
    exact hx (le_antisymm c2 c1)
  cases e3 with
  | zero f y => exact absurd hc hzero
  | noSerial f y P info hd hn =>
    obtain ⟨sn, hsn⟩ := hsn f (by rw [← h1, e2]; simp)
    rw [hn] at hsn
    simp at hsn
  | used f P info sn hd hn =>
    have hrec : recordedClock rg P info = info := by
      unfold recordedClock
      rw [if_neg]
      intro hbad
      have : Contains zeroRow x := by
        unfold Contains recordedClock at hc
        rw [if_pos hbad] at hc
        exact hc
      exact hzero this
    unfold Contains at hc
    simp only [hrec] at hc htime
    exact ⟨f, P, info, by rw [e2]; simp, hd, htime, hc.1, hc.2⟩

/-- The files of `demoFiles`, and one without a serial number. -/
def demoSN (f : Table × Bool) : Except Exc String :=
  if f.1 = oldFile [50, 60, 70] then .error .corrupt else .ok "001"

/-- The hypotheses are met by `demoFiles`, with the first sample as the count. -/
example : (readSeveral (readFiles true demoReaders (fun f => nominalDrift f.1) demoSN) demoFiles "0.8" false
    ).toOption.map (fun out => (applySegments out.header (1893 / 100), applySegments out.header 30, out.problems.length)) =
    some (some (128 / 125000 * (1893 / 100)), none, 1) := by decide +kernel

theorem history_used_data {F : Type} {ops : FileOps F} {rg : Bool} {version : String} {start : Rat} {hist : List (F × Except Exc FileData)}
    (h : History ops rg version start hist) {f : F} {P : FileData} (hm : (f, Except.ok P) ∈ hist) : P.data ≠ [] := by
  induction h with
  | nil => simp at hm
  | rejected start g x h rest hr ih =>
    rcases List.mem_cons.mp hm with e | e
    · simp at e
    · exact ih e
  | accepted start g Q h rest hr ih =>
    rcases List.mem_cons.mp hm with e | e
    · simp only [Prod.mk.injEq, Except.ok.injEq] at e
      obtain ⟨rfl, rfl⟩ := e
      cases h with
      | used v hv L _ hL hp hs info hd sn hn =>
        cases hp with
        | asRead h1 h2 => exact h2
        | moved h1 =>
          obtain ⟨p, hp, -⟩ := h1
          unfold movedBy
          intro h0
          rw [List.map_eq_nil_iff] at h0
          simp [h0] at hp
    · exact ih e

/-- **C25 is violated** at count zero. Whenever a file is rejected, a metadata row at count 0 gets the time 0 (1970) from the row of zeros,
although no file contains this count. -/
theorem C25_violated_zero {F : Type} (ops : FileOps F) (rg : Bool) (version : String) (files : List F)
    (out : Several F) (h : readSeveral ops files version rg = .ok out) (hrej : out.problems ≠ [])
    (hsn : ∀ f ∈ files, ∃ sn, ops.readSN f = .ok sn)
    (hout : ∀ f P info, f ∈ files → P.data ≠ [] → (∀ p ∈ P.data, p ∈ out.data) → ops.drift f P rg = .ok info → 0 < info.startMs ∨ info.endMs < 0) :
    applySegments out.header 0 = some 0 := by
  obtain ⟨hist, h1, h2, h3, _, _, h6, h7⟩ := C15_used_or_reported ops rg version files out h
  have hrow : ∀ row ∈ out.header, Contains row 0 → timeOf row.info 0 = 0 := by
    intro row hr hc
    obtain ⟨q, hq, e⟩ : ∃ q ∈ hist, RowFor ops rg q row := by
      obtain ⟨b, a, e⟩ := List.append_of_mem hr
      obtain ⟨pre, q, post, e2, e3, _⟩ := forall₂_split h7.flip e
      exact ⟨q, by rw [e2]; simp, e3⟩
    have hz : timeOf zeroRow.info 0 = 0 := by unfold timeOf zeroRow; norm_num
    cases e with
    | zero f y => exact hz
    | noSerial f y P info hd hn =>
      obtain ⟨sn, hsn⟩ := hsn f (by rw [← h1]; exact List.mem_map_of_mem (f := Prod.fst) hq)
      rw [hn] at hsn
      simp at hsn
    | used f P info sn hd hn =>
      unfold recordedClock at hc ⊢
      split_ifs at hc ⊢ with hb
      · exact hz
      · unfold Contains at hc
        have := hout f P info (by rw [← h1]; exact List.mem_map_of_mem (f := Prod.fst) hq) (history_used_data h2 hq) (by
          intro p hp
          rw [h3]
          exact List.mem_flatten.mpr ⟨P.data, List.mem_map_of_mem (List.mem_filterMap.mpr ⟨_, hq, rfl⟩), hp⟩) hd
        rcases this with h | h
        · exact absurd hc.1 (not_le.mpr h)
        · exact absurd hc.2 (not_le.mpr h)
  have hex : ∃ row ∈ out.header, Contains row 0 := by
    rw [h6] at hrej
    obtain ⟨e, he⟩ := List.exists_mem_of_ne_nil _ hrej
    obtain ⟨q, hq, hqe⟩ := List.mem_filterMap.mp he
    obtain ⟨b, a, e2⟩ := List.append_of_mem hq
    obtain ⟨pre, row, post, e3, e4, _⟩ := forall₂_split h7 e2
    refine ⟨row, by rw [e3]; simp, ?_⟩
    have hz : Contains zeroRow 0 := by unfold Contains zeroRow; norm_num
    cases e4 with
    | zero f y => exact hz
    | noSerial f y P info hd hn =>
      obtain ⟨sn, hsn⟩ := hsn f (by rw [← h1]; exact List.mem_map_of_mem (f := Prod.fst) hq)
      rw [hn] at hsn
      simp at hsn
    | used f P info sn hd hn => simp [errPart] at hqe
  rcases lastContaining_or 0 out.header with ⟨row, hl⟩ | hn
  · rw [(C24_last_containing _ 0).1 row hl]
    obtain ⟨b, a, e1, hc, _⟩ := hl
    rw [hrow row (by rw [e1]; simp) hc]
  · obtain ⟨row, hr, hc⟩ := hex
    exact absurd hc (hn row hr)

/-- The hypotheses hold for these files. -/
example (out : Several (Table × Bool)) (h : readSeveral (readFiles true demoReaders (fun f => nominalDrift f.1) demoSN)
      [(oldFile [0, 10, 20], true), (oldFile [30, 40], false)] "0.8" false = .ok out) : applySegments out.header 0 = some 0 := by
  have e : (readSeveral (readFiles true demoReaders (fun f => nominalDrift f.1) demoSN)
      [(oldFile [0, 10, 20], true), (oldFile [30, 40], false)] "0.8" false).toOption.map (fun out => (out.problems.length, out.data.all fun p => decide (0 < p.1))) =
      some (1, true) := by decide +kernel
  rw [h] at e
  simp only [Except.toOption, Option.map_some, Option.some.injEq, Prod.mk.injEq] at e
  refine C25_violated_zero _ _ _ _ out h ?_ ?_ ?_
  · intro h0
    rw [h0] at e
    simp at e
  · intro f hf
    simp only [List.mem_cons, List.not_mem_nil, or_false] at hf
    rcases hf with rfl | rfl <;> exact ⟨"001", by decide +kernel⟩
  · intro f P info _ hne hmem hd
    left
    obtain ⟨p, l, hl⟩ := List.exists_cons_of_ne_nil hne
    have hd' : nominalDrift f.1 P false = .ok info := hd
    unfold nominalDrift at hd'
    rw [hl] at hd'
    simp only [List.head?_cons, Option.map_some, Option.getD_some, Except.ok.injEq] at hd'
    rw [← hd']
    have := List.all_eq_true.mp e.2 p (hmem p (by rw [hl]; simp))
    simpa using this

/-- A row of zeros appears for a rejected file, but not without one. -/
example :
    (readSeveral (readFiles true demoReaders (fun f => nominalDrift f.1) demoSN)
      [(oldFile [0, 10, 20], true)] "0.8" false).toOption.map (fun out => applySegments out.header 0) = some none ∧
    (readSeveral (readFiles true demoReaders (fun f => nominalDrift f.1) demoSN)
      [(oldFile [0, 10, 20], true), (oldFile [30, 40], false)] "0.8" false).toOption.map
        (fun out => (applySegments out.header 0, out.problems)) =
      some (some 0, [((oldFile [30, 40], false), .corrupt)]) := by
  refine ⟨by decide +kernel, by decide +kernel⟩

theorem severalLoop_concat {F : Type} (ops : FileOps F) (rg : Bool) (version : String) (f : F) : ∀ (files : List F) (acc out : Several F),
    severalLoop ops rg version files acc = .ok out →
    severalLoop ops rg version (files ++ [f]) acc = severalStep ops rg version out f
  | [], acc, out, h => by
    simp only [severalLoop, Except.ok.injEq] at h
    subst h
    simp only [List.nil_append, severalLoop]
    cases severalStep ops rg version acc f <;> rfl
  | g :: files, acc, out, h => by
    rw [List.cons_append]
    unfold severalLoop at h ⊢
    cases hs : severalStep ops rg version acc g with
    | error x => rw [hs] at h; simp at h
    | ok acc' =>
      rw [hs] at h
      exact severalLoop_concat ops rg version f files acc' out h

theorem alignStart_placed {L P : FileData} {start : Rat} (h : Placed start L P) : alignStart L start = .ok P := by
  unfold alignStart
  cases h with
  | asRead h hne =>
    obtain ⟨p, l, hl⟩ := List.exists_cons_of_ne_nil hne
    rw [hl] at h ⊢
    simp only
    rw [if_neg (not_lt.mpr (h p rfl))]
  | moved h =>
    obtain ⟨p, hp, hlt⟩ := h
    cases hl : L.data with
    | nil => simp [hl] at hp
    | cons q l =>
      rw [hl] at hp
      simp only [List.head?_cons, Option.mem_def, Option.some.injEq] at hp
      subst hp
      simp only
      rw [if_pos hlt]
      unfold FileData.shift movedBy
      norm_num

theorem readVersioned_passed {F : Type} {ops : FileOps F} {rg : Bool} {version v : String} (hv : PassedVersion version v) (f : F) (start : Rat) :
    readVersioned ops rg version f start = ops.read f start rg v := by
  unfold readVersioned
  rcases hv with ⟨rfl, h⟩ | ⟨rfl, h⟩
  · rw [if_pos (by simpa using h)]
  · rw [if_neg (by rcases h with h | h <;> rw [h] <;> decide), if_pos (by simpa using h)]

/-- **C25 is violated** by every file that is rejected for lack of a serial number: no sample of it is used, but its clock stays in the header and times the counts in its
range. -/
theorem C25_violated_no_serial {F : Type} (ops : FileOps F) (rg : Bool) (version : String) (files : List F) (before : Several F)
    (hb : readSeveral ops files version rg = .ok before) (f : F) (v : String) (hv : PassedVersion version v) (L P : FileData) (hread : ops.read f before.startMillis rg v = .ok L)
    (hplaced : Placed before.startMillis L P) (hs : Steady P) (info : HeaderInfo) (hd : ops.drift f P rg = .ok info)
    (hgps : rg = true → P.gps ≠ []) (e : Exc) (he : e.isException = true) (hsn : ops.readSN f = .error e) :
    ∃ out, readSeveral ops (files ++ [f]) version rg = .ok out ∧ out.data = before.data ∧ out.problems = before.problems ++ [(f, e)] ∧
      ∀ x, info.startMs ≤ x → x ≤ info.endMs → applySegments out.header x = some (timeOf info x) := by
  have hone : readOne ops rg version f before.startMillis = (⟨info, P.data.length, ""⟩, .error e) := by
    unfold readOne
    rw [readVersioned_passed hv, hread]
    simp only [Except.bind, alignStart_placed hplaced]
    rw [(discontinuous_iff _).mpr hs]
    simp only [Bool.false_eq_true, if_false, hd, hsn]
    rw [if_pos (by cases rg <;> simp at hgps ⊢; exact hgps)]
    rfl
  refine ⟨{ before with header := before.header ++ [⟨info, P.data.length, ""⟩], problems := before.problems ++ [(f, e)] }, ?_, rfl, rfl, ?_⟩
  · unfold readSeveral
    rw [severalLoop_concat ops rg version f files _ before hb]
    unfold severalStep
    rw [hone]
    simp only
    rw [if_pos he]
  · intro x h1 h2
    exact (C24_last_containing _ x).1 ⟨info, P.data.length, ""⟩ ⟨before.header, [], rfl, ⟨h1, h2⟩, by simp⟩

/-- The second file has no serial number. -/
example :
    (readSeveral (readFiles true demoReaders (fun f => nominalDrift f.1) demoSN)
      [(oldFile [10, 20], true), (oldFile [50, 60, 70], true)] "0.8" false).toOption.map
        (fun out => (out.data.length, out.problems, applySegments out.header 65)) =
      some (2, [((oldFile [50, 60, 70], true), .corrupt)], some (128 / 125000 * 65)) := by decide +kernel

end Gemlog
