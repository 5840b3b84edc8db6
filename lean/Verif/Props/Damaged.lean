import Verif.Spec.Damaged
import Verif.Props.ReadBuffer
import Verif.Props.Whole
import Verif.Lemmas.Restarts

/-!
# C101: damaged files cost only their own data (reading)
-/

namespace Gemlog

/-! ## Selection -/

theorem insertEntry_filter (p : Entry → Bool) (e : Entry) : ∀ l : List Entry, l.Pairwise (fun a b => nameLe a.name b.name = true) →
    (insertEntry e l).filter p = if p e = true then insertEntry e (l.filter p) else l.filter p
  | [], _ => by
    unfold insertEntry
    by_cases h : p e = true <;> simp [h, insertEntry]
  | f :: l, h => by
    rw [List.pairwise_cons] at h
    rw [insertEntry]
    by_cases c : nameLe e.name f.name = true
    · rw [if_pos c]
      by_cases he : p e = true
      · rw [if_pos he, List.filter_cons_of_pos he]
        cases hl : (f :: l).filter p with
        | nil => rfl
        | cons g m =>
          rw [insertEntry, if_pos]
          have hg : g ∈ (f :: l).filter p := by rw [hl]; simp
          rcases List.mem_cons.mp (List.mem_filter.mp hg).1 with rfl | hg
          · exact c
          · exact nameLe_trans _ _ _ c (h.1 g hg)
      · rw [if_neg he, List.filter_cons_of_neg he]
    · rw [if_neg c]
      have ih := insertEntry_filter p e l h.2
      by_cases hf : p f = true
      · rw [List.filter_cons_of_pos hf, List.filter_cons_of_pos hf, ih]
        by_cases he : p e = true
        · rw [if_pos he, if_pos he, insertEntry, if_neg c]
        · rw [if_neg he, if_neg he]
      · rw [List.filter_cons_of_neg hf, List.filter_cons_of_neg hf, ih]

theorem sortEntries_filter (p : Entry → Bool) : ∀ l : List Entry, (sortEntries l).filter p = sortEntries (l.filter p)
  | [] => rfl
  | e :: l => by
    rw [sortEntries, insertEntry_filter p e _ (sortEntries_sorted l), sortEntries_filter p l]
    by_cases he : p e = true
    · rw [if_pos he, List.filter_cons_of_pos he, sortEntries]
    · rw [if_neg he, List.filter_cons_of_neg he]

/-- Without some files, the others are selected as before. -/
theorem findFiles_without (bad : Entry → Bool) (dir : List Entry) (SN : List Nat) (nums : List Int) :
    findFiles (without bad dir) SN nums = without bad (findFiles dir SN nums) := by
  have h1 : ((dir.filter fun e => !bad e).filter fun e => isRawName e.name) = (dir.filter fun e => isRawName e.name).filter fun e => !bad e := by
    rw [List.filter_filter, List.filter_filter]
    congr 1
    funext e
    exact Bool.and_comm _ _
  unfold findFiles without
  simp only
  rw [h1, ← sortEntries_filter]
  simp only [List.filter_filter]
  congr 1
  funext e
  cases bad e <;> simp

/-! ## The loop over the files -/

theorem refused_readOne {env : Env} {e : Entry} (h : Refused env e) (start : Rat) :
    ∃ x : Exc, x.isException = true ∧ readOne env.ops true "0.9" e start = (emptyRow, .error x) := by
  have hv : readVersioned env.ops true "0.9" e start = env.ops.read e start true "0.9" := by
    unfold readVersioned
    rw [if_pos (by decide)]
  unfold readOne
  rw [hv]
  rcases h start with ⟨x, hx, h⟩ | ⟨L, hL, h⟩
  · exact ⟨x, hx, by rw [h]; rfl⟩
  · rw [hL]
    rw [show ((Except.ok L : Except Exc FileData).bind fun L => alignStart L start) = alignStart L start from rfl]
    rcases h with h | ⟨P, hP, h⟩
    · refine ⟨.other, rfl, ?_⟩
      unfold alignStart
      rw [h]
    · have ha : alignStart L start = .ok P := by
        unfold alignStart
        cases hd : L.data with
        | nil =>
          exfalso
          clear h
          cases hP with
          | asRead _ hne => exact hne hd
          | moved h => obtain ⟨p, hp, _⟩ := h; rw [hd] at hp; simp at hp
        | cons p l =>
          clear h
          cases hP with
          | asRead h _ =>
            simp only
            rw [if_neg (by have := h p (by rw [hd]; simp); linarith)]
          | moved h =>
            obtain ⟨q, hq, hlt⟩ := h
            rw [hd] at hq
            simp only [List.head?_cons, Option.mem_def, Option.some.injEq] at hq
            subst hq
            simp only
            rw [if_pos hlt]
            unfold FileData.shift movedBy
            norm_num
      rw [ha]
      simp only
      by_cases hs : Steady P
      · rw [if_neg (by rw [(discontinuous_iff _).mpr hs]; simp)]
        rcases h with h | ⟨x, hx, h⟩
        · exact absurd hs h
        · exact ⟨x, hx, by rw [h]⟩
      · refine ⟨.corrupt, rfl, ?_⟩
        rw [if_pos]
        by_contra hc
        exact hs ((discontinuous_iff _).mp (by simpa using hc))

/-- Header rows that are not zero. -/
def clockRows (header : List HeaderRow) : List HeaderRow := header.filter fun r => decide (r ≠ emptyRow)

theorem applySegments_clockRows (x : Rat) (hx : x ≠ 0) (header : List HeaderRow) :
    applySegments (clockRows header) x = applySegments header x := by
  unfold applySegments
  generalize (none : Option Rat) = y
  induction header generalizing y with
  | nil => rfl
  | cons r header ih =>
    unfold clockRows at ih ⊢
    by_cases hr : r = emptyRow
    · rw [List.filter_cons_of_neg (by simp [hr]), ih, List.foldl_cons]
      congr 1
      subst hr
      unfold segmentStep emptyRow
      simp only
      rw [if_neg]
      rintro ⟨h1, h2⟩
      exact hx (le_antisymm h2 h1)
    · rw [List.filter_cons_of_pos (by simp [hr]), List.foldl_cons, List.foldl_cons, ih]

/-- The same table but for files that were refused. -/
structure SameBut (bad : Entry → Bool) (a b : Several Entry) : Prop where
  data : a.data = b.data
  gps : a.gps = b.gps
  metadata : a.metadata = b.metadata
  clocks : clockRows a.header = clockRows b.header
  start : a.startMillis = b.startMillis
  problems : (a.problems.filter fun p => !bad p.1) = b.problems

theorem clockRows_append (a b : List HeaderRow) : clockRows (a ++ b) = clockRows a ++ clockRows b := List.filter_append ..

theorem loop_damaged (env : Env) (bad : Entry → Bool) : ∀ (files : List Entry) (a b out : Several Entry),
    (∀ e ∈ files, bad e = true → Refused env e) → SameBut bad a b →
    severalLoop env.ops true "0.9" (without bad files) b = .ok out →
    ∃ out', severalLoop env.ops true "0.9" files a = .ok out' ∧ SameBut bad out' out ∧
      (out'.problems.map Prod.fst).filter bad = (a.problems.map Prod.fst).filter bad ++ files.filter bad := by
  intro files
  induction files with
  | nil =>
    intro a b out _ hs h
    simp only [without, List.filter_nil, severalLoop, Except.ok.injEq] at h
    subst h
    exact ⟨a, rfl, hs, by simp⟩
  | cons e files ih =>
    intro a b out hbad hs h
    have hrest : ∀ e ∈ files, bad e = true → Refused env e := fun x hx => hbad x (by simp [hx])
    by_cases he : bad e = true
    · obtain ⟨x, hx, hr⟩ := refused_readOne (hbad e (by simp) he) a.startMillis
      have hw : without bad (e :: files) = without bad files := by
        unfold without
        rw [List.filter_cons_of_neg (by simp [he])]
      rw [hw] at h
      unfold severalLoop severalStep
      rw [hr]
      simp only [hx, if_true]
      obtain ⟨out', o1, o2, o3⟩ := ih { a with header := a.header ++ [emptyRow], problems := a.problems ++ [(e, x)] } b out hrest
        ⟨hs.data, hs.gps, hs.metadata, by
          show clockRows (a.header ++ [emptyRow]) = _
          rw [clockRows_append, hs.clocks]
          simp [clockRows], hs.start, by
          show ((a.problems ++ [(e, x)]).filter fun p => !bad p.1) = _
          rw [List.filter_append, hs.problems]
          simp [he]⟩ h
      refine ⟨out', o1, o2, ?_⟩
      rw [o3]
      simp [he]
    · have hw : without bad (e :: files) = e :: without bad files := by
        unfold without
        rw [List.filter_cons_of_pos (by simp [he])]
      rw [hw] at h
      unfold severalLoop severalStep at h
      rw [← hs.start] at h
      unfold severalLoop severalStep
      obtain ⟨row, r, hro⟩ : ∃ row r, readOne env.ops true "0.9" e a.startMillis = (row, r) := ⟨_, _, rfl⟩
      rw [hro] at h ⊢
      cases r with
      | ok L =>
        simp only at h ⊢
        obtain ⟨out', o1, o2, o3⟩ := ih (Several.mk (a.metadata ++ L.metadata) (a.gps ++ L.gps) (a.data ++ L.data) (a.header ++ [row]) a.problems
            (lastTime a.startMillis (a.data ++ L.data))) (Several.mk (b.metadata ++ L.metadata) (b.gps ++ L.gps) (b.data ++ L.data) (b.header ++ [row])
            b.problems (lastTime a.startMillis (b.data ++ L.data))) out hrest ⟨by
            show a.data ++ L.data = b.data ++ L.data
            rw [hs.data], by
            show a.gps ++ L.gps = b.gps ++ L.gps
            rw [hs.gps], by
            show a.metadata ++ L.metadata = b.metadata ++ L.metadata
            rw [hs.metadata], by
            show clockRows (a.header ++ [row]) = clockRows (b.header ++ [row])
            rw [clockRows_append, clockRows_append, hs.clocks], by
            show lastTime a.startMillis (a.data ++ L.data) = lastTime a.startMillis (b.data ++ L.data)
            rw [hs.data], hs.problems⟩ h
        refine ⟨out', o1, o2, ?_⟩
        rw [o3]
        simp [he]
      | error x =>
        simp only at h ⊢
        by_cases hx : x.isException = true
        · rw [if_pos hx] at h ⊢
          obtain ⟨out', o1, o2, o3⟩ := ih { a with header := a.header ++ [row], problems := a.problems ++ [(e, x)] }
            { b with header := b.header ++ [row], problems := b.problems ++ [(e, x)], startMillis := a.startMillis } out hrest ⟨hs.data, hs.gps,
            hs.metadata, by
            show clockRows (a.header ++ [row]) = clockRows (b.header ++ [row])
            rw [clockRows_append, clockRows_append, hs.clocks], rfl, by
            show ((a.problems ++ [(e, x)]).filter fun p => !bad p.1) = b.problems ++ [(e, x)]
            rw [List.filter_append, hs.problems]
            simp [he]⟩ h
          refine ⟨out', o1, o2, ?_⟩
          rw [o3]
          simp [he]
        · rw [if_neg hx] at h
          simp at h

/-- The samples that the loop adds to its table are those of accepted files. -/
theorem loop_counts (env : Env) : ∀ (files : List Entry) (a out : Several Entry), (∀ e ∈ files, NeverZero env e) → (∀ p ∈ a.data, p.1 ≠ 0) →
    severalLoop env.ops true "0.9" files a = .ok out → ∀ p ∈ out.data, p.1 ≠ 0 := by
  intro files
  induction files with
  | nil =>
    intro a out _ h0 h
    simp only [severalLoop, Except.ok.injEq] at h
    subst h
    exact h0
  | cons e files ih =>
    intro a out hz h0 h
    have ho := readOne_outcome env.ops true "0.9" e a.startMillis
    unfold severalLoop severalStep at h
    obtain ⟨row, r, hro⟩ : ∃ row r, readOne env.ops true "0.9" e a.startMillis = (row, r) := ⟨_, _, rfl⟩
    rw [hro] at h ho
    cases r with
    | ok L =>
      simp only at h
      refine ih _ out (fun x hx => hz x (by simp [hx])) ?_ h
      intro p hp
      rcases List.mem_append.mp hp with hp | hp
      · exact h0 p hp
      · exact hz e (by simp) _ _ ho p hp
    | error x =>
      simp only at h
      by_cases hx : x.isException = true
      · rw [if_pos hx] at h
        simp only at h
        exact ih _ out (fun x hx => hz x (by simp [hx])) (by exact h0) h
      · rw [if_neg hx] at h
        simp at h

/-- If the last file is refused, the last row of the header is empty. -/
theorem loop_last_refused (env : Env) (e : Entry) (he : Refused env e) : ∀ (files : List Entry) (a out : Several Entry),
    severalLoop env.ops true "0.9" (files ++ [e]) a = .ok out → ∃ rows, out.header = rows ++ [emptyRow] := by
  intro files
  induction files with
  | nil =>
    intro a out h
    obtain ⟨x, hx, hr⟩ := refused_readOne he a.startMillis
    simp only [List.nil_append, severalLoop, severalStep, hr, hx, if_true, Except.ok.injEq] at h
    subst h
    exact ⟨_, rfl⟩
  | cons f files ih =>
    intro a out h
    rw [List.cons_append] at h
    unfold severalLoop at h
    split at h
    · simp at h
    · exact ih _ out h

theorem timedMetadata_same {a b : List HeaderRow} (h : clockRows a = clockRows b) (m : List (Rat × List (Option Rat))) :
    List.Forall₂ (fun p q => p.1 = q.1 ∧ p.2.1 = q.2.1 ∧ (p.1 ≠ 0 → p.2.2 = q.2.2)) (timedMetadata m a) (timedMetadata m b) := by
  unfold timedMetadata
  rw [List.forall₂_map_left_iff, List.forall₂_map_right_iff, List.forall₂_same]
  intro p _
  refine ⟨rfl, rfl, fun hp => ?_⟩
  show applySegments a p.1 = applySegments b p.1
  rw [← applySegments_clockRows _ hp a, h, applySegments_clockRows _ hp b]

theorem timedData_same {a b : List HeaderRow} (h : clockRows a = clockRows b) (m : List (Rat × Option Rat)) (hm : ∀ p ∈ m, p.1 ≠ 0) :
    timedData m a = timedData m b := by
  unfold timedData
  refine List.map_congr_left fun p hp => ?_
  rw [← applySegments_clockRows _ (hm p hp) a, h, applySegments_clockRows _ (hm p hp) b]

theorem without_append (bad : Entry → Bool) (a b : List Entry) : without bad (a ++ b) = without bad a ++ without bad b := List.filter_append ..

theorem lost_bad {env : Env} {bad : Entry → Bool} {lost l rest : List Entry} {first : Entry} {v : String}
    (h : without bad (lost ++ l) = first :: rest) (hv : env.version first = some v) (hl : ∀ e ∈ lost, env.version e = none) :
    without bad lost = [] := by
  rw [without_append] at h
  cases hw : without bad lost with
  | nil => rfl
  | cons z zs =>
    rw [hw, List.cons_append, List.cons.injEq] at h
    have hz : z ∈ without bad lost := by rw [hw]; simp
    have := hl z (List.mem_filter.mp hz).1
    rw [h.1, hv] at this
    simp at this

/-! ## C101 -/

/-- **C101.** Let some of the files `read_gem` selects be damaged (`bad`), and suppose that it would read the others, the first of which has a legible version
of the compact formats and none of which has a sample at count zero. Then it reads the folder with the damaged files too, and returns the same stream, the same fixes, the same
metadata (and the same times for them, but for counts of zero, see `C101_violated_metadata`), and the same problems with the other files.
The damaged files are reported, each once and in order, but for those before the first file with a legible version. -/
theorem C101_read_gem (env : Env) (dir : List Entry) (SN : List Nat) (nums : List Int) (bad : Entry → Bool) (g : GemData)
    (h : readGem env (without bad dir) SN nums true = .ok g)
    (hbad : ∀ e ∈ findFiles dir SN nums, bad e = true → Damaged env e)
    (hfirst : ∀ e ∈ (findFiles (without bad dir) SN nums).head?, ∃ v ∈ ["0.85C", "0.9", "0.91", "1.10"], env.version e = some v)
    (hzero : ∀ e ∈ findFiles dir SN nums, bad e = false → NeverZero env e) :
    ∃ g', readGem env dir SN nums true = .ok g' ∧ g'.stream = g.stream ∧ g'.gps = g.gps ∧
      List.Forall₂ (fun p q => p.1 = q.1 ∧ p.2.1 = q.2.1 ∧ (p.1 ≠ 0 → p.2.2 = q.2.2)) g'.metadata g.metadata ∧
      (g'.problems.filter fun p => !bad p.1) = g.problems ∧
      ∃ lost, (findFiles dir SN nums).filter bad = lost ++ (g'.problems.map Prod.fst).filter bad ∧ ∀ e ∈ lost, env.version e = none := by
  have hsel := findFiles_without bad dir SN nums
  obtain ⟨first, rest, hf⟩ : ∃ first rest, findFiles (without bad dir) SN nums = first :: rest := by
    cases hf : findFiles (without bad dir) SN nums with
    | nil => unfold readGem at h; rw [hf] at h; simp at h
    | cons a l => exact ⟨a, l, rfl⟩
  have hread : readFilesAs env (first :: rest) SN true = .ok g := by
    unfold readGem at h
    rw [hf] at h
    exact h
  obtain ⟨v, hv, hver⟩ := hfirst first (by rw [hf]; rfl)
  rw [hf] at hsel
  -- the good part
  obtain ⟨bad0, first', rest', v', w, L, a1, a2, a3, a4, a5, a6, a7, a8, a9, a10, a11, b, b1, b2⟩ := readFilesAs_ok hread
  have hb0 : bad0 = [] := by
    cases bad0 with
    | nil => rfl
    | cons x l =>
      rw [List.cons_append, List.cons.injEq] at a1
      have := a2 x (by simp)
      rw [← a1.1, hver] at this
      simp at this
  subst hb0
  rw [List.nil_append, List.cons.injEq] at a1
  obtain ⟨rfl, rfl⟩ := a1
  rw [hver, Option.some.injEq] at a3
  subst a3
  have hw : w = "0.9" := by
    unfold severalVersion at a4
    rw [if_pos hv, Option.some.injEq] at a4
    exact a4.symm
  subst hw
  -- the whole folder
  generalize hall : findFiles dir SN nums = files at hsel hbad hzero
  obtain ⟨lost, f1, files', hlost, hlostv, f1v, hf1, hf1v⟩ : ∃ lost f1 files', files = lost ++ f1 :: files' ∧
      (∀ e ∈ lost, env.version e = none) ∧ ∃ u, env.version f1 = some u ∧ u ∈ ["0.85C", "0.9", "0.91", "1.10"] := by
    cases hfr : firstReadable env files with
    | none =>
      rw [firstReadable_none] at hfr
      have hm : first ∈ without bad files := by rw [← hsel]; simp
      have := hfr first (List.mem_filter.mp hm).1
      rw [hver] at this
      simp at this
    | some t =>
      obtain ⟨fs, u, f1⟩ := t
      obtain ⟨lost, h1, h2, h3, h4⟩ := (firstReadable_some env _ _ _ _).mp hfr
      obtain ⟨l, rfl⟩ : ∃ l, fs = f1 :: l := by
        cases fs with
        | nil => simp at h3
        | cons a l => simp only [List.head?_cons, Option.some.injEq] at h3; exact ⟨l, by rw [h3]⟩
      refine ⟨lost, f1, l, h1, h2, u, h4, ?_⟩
      by_cases hb : bad f1 = true
      · exact (hbad f1 (by rw [h1]; simp) hb).version u h4
      · have hl : without bad lost = [] := lost_bad (by rw [← h1]; exact hsel.symm) hver h2
        have h5 : without bad files = f1 :: without bad l := by
          rw [h1, without_append, hl, List.nil_append]
          unfold without
          rw [List.filter_cons_of_pos (by simp [hb])]
        rw [← hsel, List.cons.injEq] at h5
        rw [← h5.1, hver, Option.some.injEq] at h4
        rw [← h4]
        exact hv
  have hlw : without bad lost = [] := lost_bad (by rw [← hlost]; exact hsel.symm) hver hlostv
  have hrest : without bad (f1 :: files') = first :: rest := by
    rw [hlost, without_append, hlw, List.nil_append] at hsel
    exact hsel.symm
  have hsub : ∀ e ∈ f1 :: files', e ∈ files := fun e he => by rw [hlost]; exact List.mem_append_right _ he
  obtain ⟨L', l1, l2, l3⟩ := loop_damaged env bad (f1 :: files') ⟨[], [], [], [], [], 0⟩ ⟨[], [], [], [], [], 0⟩ L
    (fun e he hb => (hbad e (hsub e he) hb).refused) ⟨rfl, rfl, rfl, rfl, rfl, rfl⟩ (by rw [hrest]; exact a5)
  have hcounts : ∀ p ∈ L.data, p.1 ≠ 0 := loop_counts env (first :: rest) ⟨[], [], [], [], [], 0⟩ L
    (fun e he => by
      rw [← hrest] at he
      obtain ⟨h1, h2⟩ := List.mem_filter.mp he
      exact hzero e (hsub e h1) (by simpa using h2)) (by simp) a5
  obtain ⟨b', hb'⟩ : ∃ b', bitweightInfo SN (env.adc f1) (bytes "Pa") = .ok b' := by
    have hadc : env.adc f1 = 0 ∨ env.adc f1 = 1 := by
      by_cases hb : bad f1 = true
      · exact (hbad f1 (hsub f1 (by simp)) hb).gain
      · unfold without at hrest
        rw [List.filter_cons_of_pos (by simp [hb]), List.cons.injEq] at hrest
        rw [hrest.1]
        unfold bitweightInfo at b1
        by_contra hc
        rw [if_pos (by omega)] at b1
        simp at b1
    unfold bitweightInfo at b1 ⊢
    rw [if_neg (by omega)]
    split at b1
    · simp at b1
    · dsimp only at b1 ⊢
      cases hp : pyInt SN with
      | none => rw [hp] at b1; simp at b1
      | some n =>
        rw [hp] at b1
        dsimp only at b1 ⊢
        cases hs : gemSpecs n with
        | error x => rw [hs] at b1; simp at b1
        | ok s =>
          dsimp only
          rw [if_pos (by decide +kernel)]
          exact ⟨_, rfl⟩
  have hgood : ∃ st, assignTimes env (if L.gps = [] then { L with gps := [zeroFix] } else L) = .ok st := by
    unfold readFilesAs at hread
    rw [(firstReadable_some env (first :: rest) (first :: rest) v first).mpr ⟨[], rfl, by simp, rfl, hver⟩] at hread
    simp only [a4, a5] at hread
    rw [if_neg a6] at hread
    cases hst : assignTimes env (if L.gps = [] then { L with gps := [zeroFix] } else L) with
    | error x => rw [hst] at hread; simp at hread
    | ok st => exact ⟨st, rfl⟩
  obtain ⟨st, hst⟩ := hgood
  have htimes : timedData L'.data L'.header = timedData L.data L.header := by
    rw [l2.data]
    exact timedData_same l2.clocks L.data hcounts
  have hst' : assignTimes env (if L'.gps = [] then { L' with gps := [zeroFix] } else L') = .ok st := by
    rw [← hst]
    unfold assignTimes
    by_cases hg : L.gps = []
    · rw [if_pos hg, if_pos (by rw [l2.gps]; exact hg)]
      simp only [htimes]
      rw [l2.data]
    · rw [if_neg hg, if_neg (by rw [l2.gps]; exact hg), htimes, l2.data, l2.gps]
  have hstream : st = g.stream := by
    unfold assignTimes at hst
    split at hst
    · simp at hst
    · have : interpTime env.spline (timedData L.data L.header) = .ok st := by
        by_cases hg : L.gps = []
        · rw [if_pos hg] at hst; exact hst
        · rw [if_neg hg] at hst; exact hst
      rw [this, Except.ok.injEq] at a11
      exact a11
  have hfinal : readGem env dir SN nums true = .ok ⟨st, (if L'.gps = [] then { L' with gps := [zeroFix] } else L').header,
      timedMetadata (if L'.gps = [] then { L' with gps := [zeroFix] } else L').metadata (if L'.gps = [] then { L' with gps := [zeroFix] } else L').header,
      (if L'.gps = [] then { L' with gps := [zeroFix] } else L').gps, (if L'.gps = [] then { L' with gps := [zeroFix] } else L').problems, b'.1⟩ := by
    have h1 : readGem env dir SN nums true = readFilesAs env files SN true := by
      unfold readGem
      rw [hall, hlost]
      cases lost <;> rfl
    rw [h1]
    unfold readFilesAs
    rw [(firstReadable_some env files (f1 :: files') f1v f1).mpr ⟨lost, hlost, hlostv, rfl, hf1⟩]
    have hw : severalVersion f1v = some "0.9" := by
      unfold severalVersion
      rw [if_pos hf1v]
    have hr : readSeveral env.ops (f1 :: files') "0.9" true = .ok L' := l1
    simp only [hw, hr]
    rw [if_neg (by rw [l2.data]; exact a6)]
    simp only [hst', hb']
  refine ⟨_, hfinal, hstream, ?_, ?_, ?_, lost, ?_, hlostv⟩
  · rw [a9]
    by_cases hg : L.gps = []
    · simp only [l2.gps, hg, if_true]
    · simp only [l2.gps, hg, if_false]
  · rw [a8]
    have e1 : (if L'.gps = [] then { L' with gps := [zeroFix] } else L').metadata = L.metadata := by split <;> exact l2.metadata
    have e2 : (if L'.gps = [] then { L' with gps := [zeroFix] } else L').header = L'.header := by split <;> rfl
    simp only [e1, e2]
    exact timedMetadata_same l2.clocks L.metadata
  · rw [a10, ← l2.problems]
    split <;> rfl
  · rw [hlost, List.filter_append]
    congr 1
    · rw [List.filter_eq_self]
      intro e he
      by_contra hc
      have : e ∈ without bad lost := List.mem_filter.mpr ⟨he, by simpa using hc⟩
      rw [hlw] at this
      simp at this
    · have e3 : (if L'.gps = [] then { L' with gps := [zeroFix] } else L').problems = L'.problems := by split <;> rfl
      simp only [e3]
      rw [l3]
      simp

/-- **C101 violated.** If the last file is refused, metadata at count zero get the time 0 (1970-01-01), whatever the clock of the file they are from (and
where they would have none otherwise, because no sample comes before them): the row of zeros that stands for the refused file in the table of clocks claims them. -/
theorem C101_violated_metadata (env : Env) (dir : List Entry) (SN : List Nat) (nums : List Int) (g : GemData)
    (h : readGem env dir SN nums true = .ok g) (files : List Entry) (good e : Entry) (hf : findFiles dir SN nums = good :: files ++ [e])
    (v : String) (hv : v ∈ ["0.85C", "0.9", "0.91", "1.10"]) (hver : env.version good = some v) (he : Refused env e) :
    ∀ p ∈ g.metadata, p.1 = 0 → p.2.2 = some 0 := by
  have hread : readFilesAs env (good :: files ++ [e]) SN true = .ok g := by
    unfold readGem at h
    rw [hf] at h
    exact h
  obtain ⟨bad0, first', rest', v', w, L, a1, a2, a3, a4, a5, _, _, a8, _⟩ := readFilesAs_ok hread
  have hb0 : bad0 = [] := by
    cases bad0 with
    | nil => rfl
    | cons x l =>
      rw [List.cons_append, List.cons_append, List.cons.injEq] at a1
      have := a2 x (by simp)
      rw [← a1.1, hver] at this
      simp at this
  subst hb0
  rw [List.nil_append, List.cons_append, List.cons.injEq] at a1
  obtain ⟨rfl, rfl⟩ := a1
  rw [hver, Option.some.injEq] at a3
  subst a3
  have hw : w = "0.9" := by
    unfold severalVersion at a4
    rw [if_pos hv, Option.some.injEq] at a4
    exact a4.symm
  subst hw
  obtain ⟨rows, hrows⟩ := loop_last_refused env e he (good :: files) _ L a5
  intro p hp hp0
  rw [a8] at hp
  unfold timedMetadata at hp
  obtain ⟨q, _, rfl⟩ := List.mem_map.mp hp
  simp only at hp0 ⊢
  rw [hrows, hp0]
  unfold applySegments
  rw [List.foldl_append]
  unfold emptyRow
  simp [segmentStep, applyFit]

/-- **C101.** If all the selected files are damaged, `read_gem` raises an exception for which `convert` goes on to the next block: CorruptRawFile if no version
is legible, and CorruptRawFileInadequateGPS otherwise. -/
theorem C101_all_damaged (env : Env) (dir : List Entry) (SN : List Nat) (nums : List Int) (hne : findFiles dir SN nums ≠ [])
    (hbad : ∀ e ∈ findFiles dir SN nums, Damaged env e) :
    ∃ x, readGem env dir SN nums true = .error x ∧ x.skipsBlock = true ∧ (x = .corrupt ∨ x = .inadequateGPS) := by
  have h1 : readGem env dir SN nums true = readFilesAs env (findFiles dir SN nums) SN true := by
    unfold readGem
    split
    · rename_i h; exact absurd h hne
    · rfl
  rw [h1]
  unfold readFilesAs
  cases hfr : firstReadable env (findFiles dir SN nums) with
  | none => exact ⟨.corrupt, rfl, rfl, .inl rfl⟩
  | some t =>
    obtain ⟨fs, u, f1⟩ := t
    obtain ⟨lost, l1, l2, l3, l4⟩ := (firstReadable_some env _ _ _ _).mp hfr
    have hf1 : f1 ∈ fs := List.mem_of_mem_head? l3
    have hsub : ∀ e ∈ fs, Damaged env e := fun e he => hbad e (by rw [l1]; exact List.mem_append_right _ he)
    have hw : severalVersion u = some "0.9" := by
      unfold severalVersion
      rw [if_pos ((hsub f1 hf1).version u l4)]
    have hwo : without (fun _ => true) fs = [] := by
      unfold without
      rw [List.filter_eq_nil_iff]
      simp
    obtain ⟨L, m1, m2, _⟩ := loop_damaged env (fun _ => true) fs ⟨[], [], [], [], [], 0⟩ ⟨[], [], [], [], [], 0⟩ ⟨[], [], [], [], [], 0⟩
      (fun e he _ => (hsub e he).refused) ⟨rfl, rfl, rfl, rfl, rfl, rfl⟩ (by rw [hwo]; rfl)
    have hr : readSeveral env.ops fs "0.9" true = .ok L := m1
    simp only [hw, hr]
    rw [if_pos m2.data]
    exact ⟨.inadequateGPS, rfl, rfl, .inr rfl⟩

/-- **C101 violated.** The bitweight is that of the gain setting of the first file with a legible version, even if the file is refused: if its setting is lost
(and therefore taken to be high gain), while all other files were recorded with low gain, the returned bitweight is half of
what it is without the damaged file. -/
theorem C101_violated_gain (env : Env) (dir : List Entry) (SN : List Nat) (nums : List Int) (bad : Entry → Bool) (g g' : GemData)
    (h : readGem env (without bad dir) SN nums true = .ok g) (h' : readGem env dir SN nums true = .ok g')
    (e : Entry) (he : (findFiles dir SN nums).head? = some e) (v : String) (hv : env.version e = some v)
    (h0 : env.adc e = 0) (h1 : ∀ f ∈ findFiles (without bad dir) SN nums, env.adc f = 1) :
    g.specs.bitweightPa = 2 * g'.specs.bitweightPa := by
  have hread : ∀ {dir : List Entry} {g : GemData}, readGem env dir SN nums true = .ok g → readFilesAs env (findFiles dir SN nums) SN true = .ok g := by
    intro dir g h
    unfold readGem at h
    split at h
    · simp at h
    · exact h
  obtain ⟨b1, f1, r1, v1, w1, L1, p1, _, _, _, _, _, _, _, _, _, _, b, q1, q2⟩ := readFilesAs_ok (hread h)
  obtain ⟨b2, f2, r2, v2, w2, L2, p2, p3, _, _, _, _, _, _, _, _, _, b', q3, q4⟩ := readFilesAs_ok (hread h')
  have hb2 : b2 = [] := by
    cases b2 with
    | nil => rfl
    | cons x l =>
      rw [p2] at he
      simp only [List.cons_append, List.head?_cons, Option.some.injEq] at he
      have := p3 x (by simp)
      rw [he, hv] at this
      simp at this
  subst hb2
  rw [p2] at he
  simp only [List.nil_append, List.head?_cons, Option.some.injEq] at he
  subst he
  rw [h1 f1 (by rw [p1]; simp)] at q1
  rw [h0] at q3
  rw [q2, q4]
  unfold bitweightInfo at q1 q3
  rw [if_neg (by omega)] at q1 q3
  dsimp only at q1 q3
  cases hp : pyInt SN with
  | none => rw [hp] at q1; simp at q1
  | some n =>
    rw [hp] at q1 q3
    dsimp only at q1 q3
    cases hs : gemSpecs n with
    | error x => rw [hs] at q1; simp at q1
    | ok s =>
      rw [hs] at q1 q3
      dsimp only at q1 q3
      rw [if_pos (by decide +kernel), Except.ok.injEq] at q1 q3
      rw [← q1, ← q3]
      simp only [if_true]
      norm_num
      ring

/-! ## Contents -/

/-- **C101.** A file is refused whatever else it holds if none of its lines (cut after 255 bytes) begins with `G`, that is, is a fix: it is empty, or was
overwritten, or the receiver never saw the sky. (Of up to 65,520,000 bytes; larger files are left to the fallback reader.) -/
theorem C101_no_fix (d : RawDisk) (e : Entry) (pieces : List (List Nat)) (hcut : CutIntoLines (d.content e) pieces)
    (hG : ∀ p ∈ pieces, p.head? ≠ some 71) (hlen : (d.content e).length ≤ 65520000) : Refused d.env e := by
  have hkind : ∀ buf, ∀ r ∈ parseGem buf (d.content e), r.kind ≠ .G := by
    intro buf r hr hk
    obtain ⟨q, hq, h2⟩ := C01_rows_are_data_lines buf (d.content e)
    rw [C01_cut_unique _ _ _ hq hcut] at h2
    have hm : Kind.G ∈ pieces.filterMap lineKind := by
      rw [← h2]
      exact List.mem_map.mpr ⟨r, hr, hk⟩
    obtain ⟨p, hp, hl⟩ := List.mem_filterMap.mp hm
    cases p with
    | nil => simp [lineKind] at hl
    | cons b t =>
      unfold lineKind at hl
      have hb : b ≠ 71 := fun hb => hG _ hp (by rw [hb]; rfl)
      simp only [hb, if_false] at hl
      split at hl
      · simp at hl
      · split at hl <;> simp at hl
  have hcount : ∀ buf, (parseGem buf (d.content e)).length ≤ 65520000 := by
    intro buf
    obtain ⟨q, hq, h2⟩ := C01_rows_are_data_lines buf (d.content e)
    have h3 := congrArg List.length h2
    rw [List.length_map] at h3
    have h4 : (q.filterMap lineKind).length ≤ q.length := List.length_filterMap_le _ _
    have h5 : q.length ≤ q.flatten.length := by
      have hn := hq.nonempty
      clear h4 h3 h2 hq
      induction q with
      | nil => simp
      | cons a q ih =>
        have := ih fun p hp => hn p (by simp [hp])
        have h6 : 0 < a.length := List.length_pos_iff.mpr (hn a (by simp))
        simp only [List.length_cons, List.flatten_cons, List.length_append]
        omega
    rw [hq.concat] at h5
    omega
  have hout : ∀ buf, ∃ x, rowsOutcome true (parseGem buf (d.content e)) = .error x ∧ x.isException = true ∧ x.exitsEarly = true := by
    intro buf
    have hk := hkind buf
    cases hp : parseGem buf (d.content e) with
    | nil => exact ⟨.emptyRaw, rfl, rfl, rfl⟩
    | cons r rows =>
      rw [hp] at hk
      refine ⟨.noGPS, ?_, rfl, rfl⟩
      unfold rowsOutcome
      simp only [Bool.true_and, List.isEmpty_iff]
      rw [if_pos]
      rw [List.filter_eq_nil_iff]
      intro x hx hc
      exact hk x hx (by simpa using hc)
  have hcy : ∃ x, readWithCython d.buf0 d.buf1 true (some (d.content e)) = .error x ∧ x.isException = true ∧ x.exitsEarly = true := by
    have hc6 := C06_complete_or_error d.buf0 d.buf1 true (d.content e)
    by_cases hn : (parseGem d.buf0 (d.content e)).length ≤ 1560000
    · rw [hc6.1 hn]; exact hout _
    · rw [hc6.2.1 (by omega) (hcount _)]; exact hout _
  obtain ⟨x, hx, hx1, hx2⟩ := hcy
  intro start
  refine .inl ⟨x, hx1, ?_⟩
  show d.readSingle e start true "0.9" = _
  unfold RawDisk.readSingle readSingle
  rw [if_pos (by decide), hx]
  unfold tryReaders
  simp only [Except.map, Except.bind, hx2, if_true]

theorem logLine_isLine {l : LogLine} (h : l.Valid) : IsLine l.text := by
  cases l with
  | sample ms step => exact lineD_isLine h
  | letters x y =>
    refine ⟨[x, y], rfl, ?_, by simp⟩
    intro b hb
    have h1 := h.1.1
    have h2 := h.2.1
    simp only [List.mem_cons, List.not_mem_nil, or_false] at hb
    omega
  | fix ms lag yr mo day hr mn sec lat lon =>
    have h' : (lineG ms lag yr mo day hr mn sec lat lon).length ≤ 255 := h
    refine ⟨71 :: 44 :: joinFields [.dec ms, .dec lag, .int yr, .int mo, .int day, .int hr, .int mn, .dec sec, .dec lat, .dec lon], rfl, ?_, ?_⟩
    · intro b hb
      rcases List.mem_cons.mp hb with hb | hb
      · subst hb; decide
      · rcases List.mem_cons.mp hb with hb | hb
        · subst hb; decide
        · exact (join_bytes _ b hb).2
    · simp only [lineG, List.length_append, List.length_cons, List.length_nil] at *; omega
  | status ms batt temp a2 a3 maxLag minFree maxUsed maxOver gpsFlag fs1 fsIdle =>
    have h' : (lineM ms batt temp a2 a3 maxLag minFree maxUsed maxOver gpsFlag fs1 fsIdle).length ≤ 255 := h
    refine ⟨77 :: 44 :: joinFields [.dec ms, .dec batt, .dec temp, .dec a2, .dec a3, .int maxLag, .int minFree, .int maxUsed, .int maxOver, .int gpsFlag,
      .int fs1, .int fsIdle], rfl, ?_, ?_⟩
    · intro b hb
      rcases List.mem_cons.mp hb with hb | hb
      · subst hb; decide
      · rcases List.mem_cons.mp hb with hb | hb
        · subst hb; decide
        · exact (join_bytes _ b hb).2
    · simp only [lineM, List.length_append, List.length_cons, List.length_nil] at *; omega
  | other body => exact ⟨body, rfl, h.1, h.2.1⟩

theorem formatVersion_line {v : String} (hv : v ∈ ["0.85C", "0.9", "0.91", "1.10"]) (rest : List Nat) :
    formatVersion ((bytes "#GemCSV" ++ bytes v) ++ [10] ++ rest) = some v := by
  have hb : (∀ b ∈ bytes "#GemCSV" ++ bytes v, b ≠ 10 ∧ b ≠ 32) ∧
      String.ofList (((bytes "#GemCSV" ++ bytes v).drop 7).map Char.ofNat) = v ∧ bytes "#GemCSV" ++ bytes v ≠ [] := by
    simp only [List.mem_cons, List.not_mem_nil, or_false] at hv
    rcases hv with rfl | rfl | rfl | rfl <;> decide +kernel
  unfold formatVersion
  rw [textLines_line (fun b hb' => (hb.1 b hb').1)]
  unfold peekLine
  rw [List.drop_zero, List.find?_cons]
  have hnb : notBlank (bytes "#GemCSV" ++ bytes v ++ [10]) = true := by
    rw [notBlank_iff]
    obtain ⟨x, l, hx⟩ := List.exists_cons_of_ne_nil hb.2.2
    have hmem : x ∈ bytes "#GemCSV" ++ bytes v := by rw [hx]; simp
    exact ⟨x, List.mem_append_left _ hmem, hb.1 x hmem⟩
  rw [hnb]
  simp only [Option.map_some, chomp_line, hb.2.1]

/-- **C101.** A file of a compact format that was cut off (even in the middle of a line) before its first fix is damaged in the sense of these theorems. -/
theorem C101_cut_off (d : RawDisk) (e : Entry) (es : List Event) (tail : List Nat) (hc : d.content e = textOf es ++ tail)
    (v : String) (hv : v ∈ ["0.85C", "0.9", "0.91", "1.10"]) (hver : HasVersion v es) (hvalid : ∀ x ∈ es, x.line.Valid)
    (hfix : ∀ x ∈ es, x.isFix = false) (htail : (∀ b ∈ tail, b ≠ 10) ∧ tail.length ≤ 255 ∧ tail.head? ≠ some 71)
    (hlen : (d.content e).length ≤ 65520000) (hgain : d.adc e = 0 ∨ d.adc e = 1) : Damaged d.env e := by
  have hlines : ∀ p ∈ es.map (fun x => x.line.text), IsLine p ∧ p.head? ≠ some 71 := by
    intro p hp
    obtain ⟨x, hx, rfl⟩ := List.mem_map.mp hp
    refine ⟨logLine_isLine (hvalid x hx), ?_⟩
    have hf := hfix x hx
    have hva := hvalid x hx
    rcases x with ⟨T, line⟩
    cases line with
    | sample ms step => simp [LogLine.text, lineD]
    | letters a b =>
      have := hva.1.1
      simp only [LogLine.text, List.head?_cons, ne_eq, Option.some.injEq]
      omega
    | fix => simp [Event.isFix] at hf
    | status => simp [LogLine.text, lineM]
    | other body =>
      cases body with
      | nil => simp [LogLine.text]
      | cons b body =>
        have := (hva.2.2 b (by simp)).2.1
        simpa [LogLine.text] using this
  refine ⟨C101_no_fix d e (es.map (fun x => x.line.text) ++ if tail = [] then [] else [tail]) ?_ ?_ hlen, ?_, hgain⟩
  · refine ⟨?_, ?_, ?_, ?_, ?_⟩
    · rw [hc, List.flatten_append]
      unfold textOf
      by_cases ht : tail = []
      · rw [if_pos ht, ht]; rfl
      · rw [if_neg ht]; simp
    · intro p hp
      rcases List.mem_append.mp hp with hp | hp
      · obtain ⟨body, rfl, _⟩ := (hlines p hp).1
        simp
      · by_cases ht : tail = []
        · rw [if_pos ht] at hp; simp at hp
        · rw [if_neg ht, List.mem_singleton] at hp; rw [hp]; exact ht
    · intro p hp
      rcases List.mem_append.mp hp with hp | hp
      · obtain ⟨body, rfl, _, hl⟩ := (hlines p hp).1
        simp only [List.length_append, List.length_singleton]; omega
      · by_cases ht : tail = []
        · rw [if_pos ht] at hp; simp at hp
        · rw [if_neg ht, List.mem_singleton] at hp; rw [hp]; exact htail.2.1
    · intro p hp b hb
      rcases List.mem_append.mp hp with hp | hp
      · obtain ⟨body, rfl, hn, _⟩ := (hlines p hp).1
        rw [List.dropLast_concat] at hb
        exact hn b hb
      · by_cases ht : tail = []
        · rw [if_pos ht] at hp; simp at hp
        · rw [if_neg ht, List.mem_singleton] at hp
          subst hp
          exact htail.1 b (List.dropLast_subset _ hb)
    · intro p hp
      left
      have hp' : p ∈ es.map (fun x => x.line.text) := by
        by_cases ht : tail = []
        · rw [if_pos ht, List.append_nil] at hp; exact List.dropLast_subset _ hp
        · rw [if_neg ht, List.dropLast_concat] at hp; exact hp
      obtain ⟨body, rfl, _⟩ := (hlines p hp').1
      simp
  · intro p hp
    rcases List.mem_append.mp hp with hp | hp
    · exact (hlines p hp).2
    · by_cases ht : tail = []
      · rw [if_pos ht] at hp; simp at hp
      · rw [if_neg ht, List.mem_singleton] at hp; rw [hp]; exact htail.2.2
  · intro u hu
    obtain ⟨x, rest, rfl, hx⟩ := hver
    have h1 : formatVersion (d.content e) = some v := by
      rw [hc, show textOf (x :: rest) ++ tail = (bytes "#GemCSV" ++ bytes v) ++ [10] ++ (textOf rest ++ tail) by
        simp [textOf, hx, LogLine.text]]
      exact formatVersion_line hv _
    have h2 : formatVersion (d.content e) = some u := hu
    rw [h1, Option.some.injEq] at h2
    rw [← h2]
    exact hv

/-- The counts of the samples are whole numbers. -/
def WholeCounts (es : List Event) : Prop := ∀ T ∈ sampleTimes es, ∃ k : Int, T = k

theorem placed_unique {start : Rat} {L P Q : FileData} (hP : Placed start L P) (hQ : Placed start L Q) : P = Q := by
  cases hP with
  | asRead h hne =>
    cases hQ with
    | asRead => rfl
    | moved h' =>
      obtain ⟨p, hp, hlt⟩ := h'
      exact absurd (h p hp) (by linarith)
  | moved h =>
    cases hQ with
    | asRead h' _ =>
      obtain ⟨p, hp, hlt⟩ := h
      exact absurd (h' p hp) (by linarith)
    | moved => rfl

theorem outcome_unique {ops : FileOps Entry} {start : Rat} {e : Entry} {P Q : FileData}
    (hP : Outcome ops true "0.9" start e (.ok P)) (hQ : Outcome ops true "0.9" start e (.ok Q)) : P = Q := by
  have hv : ∀ v, PassedVersion "0.9" v → v = "0.9" := by
    intro v h
    rcases h with ⟨h, _⟩ | ⟨h, _⟩ <;> exact h
  cases hP with
  | used v hv1 L _ h hp _ _ _ _ _ =>
    cases hQ with
    | used v' hv2 L' _ h' hp' _ _ _ _ _ =>
      rw [hv v hv1] at h
      rw [hv v' hv2, h, Except.ok.injEq] at h'
      subst h'
      exact placed_unique hp hp'

theorem sound_neverZero (d : RawDisk) (e : Entry) {f : ClockedFile} (hb : 0 < f.rate) (hb1 : f.rate ≤ 1)
    (hfit : Reproduces d.fit) (hfit1 : ReproducesLines d.fit) (hc : SoundFile f.offset f.rate f.events)
    (hbeg : ∀ x ∈ ((f.events.filter fun e => !e.isOther).map Event.T).head?, ∀ y ∈ (sampleTimes f.events).head?, x ≤ y + 4096)
    (ht : d.content e = textOf f.events) (hsn : ∃ sn, d.readSN e = .ok sn) (hw : WholeCounts f.events) : NeverZero d.env e := by
  intro start P hP p hp h0
  obtain ⟨k, row, h1, _⟩ := readOne_soundFile d e start hb hb1 hfit hfit1 hc hbeg ht hsn
  have h2 : (f.shifted k).used = P := by
    have ho := readOne_outcome d.env.ops true "0.9" e start
    rw [h1] at ho
    exact outcome_unique ho hP
  have ht : (f.shifted k).used.data.map Prod.fst = _ := usedData_times (f.shifted k).offset (f.shifted k).rate (f.shifted k).events
  rw [h2, show (f.shifted k).events = f.events.map (Event.shift k) from rfl, shift_sampleTimes, List.map_map] at ht
  have hm : p.1 ∈ P.data.map Prod.fst := List.mem_map_of_mem hp
  rw [ht] at hm
  obtain ⟨T, hT, hpT⟩ := List.mem_map.mp hm
  obtain ⟨j, rfl⟩ := hw T hT
  simp only [Function.comp_apply] at hpT
  rw [h0] at hpT
  have h3 : (100 : Rat) * j + 819200 * k + 893 = 0 := by linarith
  have h4 : 100 * j + 819200 * k + 893 = 0 := by exact_mod_cast h3
  omega

end Gemlog
