import Verif.Props.Network

/-!
# C61: the GPS summary of a network
-/

namespace Gemlog

/-! ## Specification -/

/-- `sn` is the part of a file name before the first `gps` (the whole name if there is none). -/
def BeforeGps (name sn : List Nat) : Prop :=
  (∃ rest, name = sn ++ bytes "gps" ++ rest ∧ ∀ a b, name = a ++ bytes "gps" ++ b → sn.length ≤ a.length) ∨
  ((¬ ∃ a b, name = a ++ bytes "gps" ++ b) ∧ sn = name)

/-- A file of a folder is a GPS log by its name: `*gps*txt`, not hidden. -/
def LooksLikeLog (name : List Nat) : Prop :=
  (∃ a b, name = a ++ bytes "gps" ++ b ++ bytes "txt") ∧ ∀ r, name ≠ bytes "." ++ r

/-- The names of the files looked at. -/
def LookedAt (inp : GpsInput) (name : List Nat) : Prop :=
  (∃ files f, GpsItem.dir files ∈ inp.items ∧ f ∈ files ∧ f.name = name ∧ LooksLikeLog name) ∨
  (∃ items f, inp = .list items ∧ GpsItem.file f ∈ items ∧ f.name = name)

/-- The row describes the fixes `g` of instrument `sn`: means, standard errors, first and last time, number. -/
structure Describes (r : GpsSummary) (sn : List Nat) (g : List GpsRow) : Prop where
  sn : r.sn = sn
  lat : r.lat = Stats.mean (g.map GpsRow.lat)
  lon : r.lon = Stats.mean (g.map GpsRow.lon)
  latSE : Real.sqrt (r.latSE2 : Rat) = Stats.std (g.map GpsRow.lat) / Real.sqrt g.length
  lonSE : Real.sqrt (r.lonSE2 : Rat) = Stats.std (g.map GpsRow.lon) / Real.sqrt g.length
  first : r.starttime ∈ g.map GpsRow.t ∧ ∀ p ∈ g, r.starttime ≤ p.t
  last : r.endtime ∈ g.map GpsRow.t ∧ ∀ p ∈ g, p.t ≤ r.endtime
  num : r.num = g.length

/-! ## Names -/

theorem gps_prefix_iff (l : List Nat) : (bytes "gps").isPrefixOf l = true ↔ ∃ b, l = bytes "gps" ++ b := by
  rw [List.isPrefixOf_iff_prefix]
  constructor
  · rintro ⟨b, rfl⟩; exact ⟨b, rfl⟩
  · rintro ⟨b, rfl⟩; exact ⟨b, rfl⟩

theorem cutGps_some : ∀ (name : List Nat) (rest : List Nat), (cutGps name).2 = some rest →
    name = (cutGps name).1 ++ bytes "gps" ++ rest ∧ ∀ a b, name = a ++ bytes "gps" ++ b → (cutGps name).1.length ≤ a.length
  | [], _, h => by simp [cutGps] at h
  | c :: l, rest, h => by
    rw [cutGps] at h ⊢
    by_cases hc : (bytes "gps").isPrefixOf (c :: l) = true
    · rw [if_pos hc] at h ⊢
      obtain ⟨b, hb⟩ := (gps_prefix_iff _).mp hc
      simp only [Option.some.injEq] at h
      rw [hb] at h ⊢
      refine ⟨?_, by simp⟩
      rw [← h]
      rfl
    · rw [if_neg hc] at h ⊢
      obtain ⟨h1, h2⟩ := cutGps_some l rest h
      refine ⟨by simpa using h1, ?_⟩
      intro a b hab
      cases a with
      | nil => exact absurd ((gps_prefix_iff _).mpr ⟨b, hab⟩) hc
      | cons d a =>
        simp only [List.cons_append, List.cons.injEq] at hab
        have := h2 a b hab.2
        simpa using this

theorem cutGps_none : ∀ (name : List Nat), (cutGps name).2 = none →
    (cutGps name).1 = name ∧ ¬ ∃ a b, name = a ++ bytes "gps" ++ b
  | [], _ => by
    refine ⟨rfl, ?_⟩
    rintro ⟨a, b, h⟩
    have : bytes "gps" = [] := by
      have := (List.append_eq_nil_iff.mp h.symm).1
      exact (List.append_eq_nil_iff.mp this).2
    revert this
    decide +kernel
  | c :: l, h => by
    rw [cutGps] at h ⊢
    by_cases hc : (bytes "gps").isPrefixOf (c :: l) = true
    · rw [if_pos hc] at h; simp at h
    · rw [if_neg hc] at h ⊢
      obtain ⟨h1, h2⟩ := cutGps_none l h
      refine ⟨by simp [h1], ?_⟩
      rintro ⟨a, b, hab⟩
      cases a with
      | nil => exact absurd ((gps_prefix_iff _).mpr ⟨b, hab⟩) hc
      | cons d a =>
        simp only [List.cons_append, List.cons.injEq] at hab
        exact h2 ⟨a, b, hab.2⟩

theorem beforeGps_iff (name sn : List Nat) : BeforeGps name sn ↔ snOfName name = sn := by
  unfold snOfName
  cases h : (cutGps name).2 with
  | none =>
    obtain ⟨h1, h2⟩ := cutGps_none name h
    rw [h1]
    constructor
    · rintro (⟨r, h3, _⟩ | ⟨_, h3⟩)
      · exact absurd ⟨sn, r, h3⟩ h2
      · exact h3.symm
    · rintro rfl
      exact .inr ⟨h2, rfl⟩
  | some rest =>
    obtain ⟨h1, h2⟩ := cutGps_some name rest h
    constructor
    · rintro (⟨r, h3, h4⟩ | ⟨h3, _⟩)
      · have e1 := h4 _ _ h1
        have e2 := h2 _ _ h3
        have p1 : sn <+: name := ⟨bytes "gps" ++ r, by rw [h3, List.append_assoc]⟩
        have p2 : (cutGps name).1 <+: name := ⟨bytes "gps" ++ rest, by rw [← List.append_assoc]; exact h1.symm⟩
        exact (List.prefix_of_prefix_length_le p2 p1 e2).eq_of_length (by omega)
      · exact absurd ⟨_, _, h1⟩ h3
    · rintro rfl
      exact .inl ⟨rest, h1, h2⟩

theorem isGpsName_iff (name : List Nat) : isGpsName name = true ↔ LooksLikeLog name := by
  unfold isGpsName LooksLikeLog
  have hdot : bytes "." = [46] := by decide +kernel
  have hhead : decide (name.head? ≠ some 46) = true ↔ ∀ r, name ≠ bytes "." ++ r := by
    rw [hdot]
    simp only [decide_eq_true_eq]
    cases name with
    | nil => simp
    | cons c l => simp
  rw [Bool.and_eq_true, hhead, and_comm]
  refine and_congr ?_ Iff.rfl
  cases h : (cutGps name).2 with
  | none =>
    obtain ⟨_, h2⟩ := cutGps_none name h
    simp only [Bool.false_eq_true, false_iff]
    rintro ⟨a, b, e⟩
    exact h2 ⟨a, b ++ bytes "txt", by rw [e, List.append_assoc]⟩
  | some rest =>
    obtain ⟨h1, h2⟩ := cutGps_some name rest h
    simp only [List.isSuffixOf_iff_suffix]
    constructor
    · rintro ⟨b, rfl⟩
      exact ⟨(cutGps name).1, b, by rw [List.append_assoc _ b]; exact h1⟩
    · rintro ⟨a, b, e⟩
      have hle := h2 a (b ++ bytes "txt") (by rw [e, List.append_assoc])
      have s1 : rest <:+ name := ⟨_, h1.symm⟩
      have s2 : bytes "txt" <:+ name := ⟨_, e.symm⟩
      refine List.suffix_of_suffix_length_le s2 s1 ?_
      have l1 := congrArg List.length h1
      have l2 := congrArg List.length e
      simp only [List.length_append] at l1 l2
      omega

theorem mem_gpsNames (inp : GpsInput) (name : List Nat) : name ∈ gpsNames inp ↔ LookedAt inp name := by
  unfold LookedAt
  cases inp with
  | pattern items =>
    simp only [gpsNames, GpsInput.items, List.mem_flatMap, reduceCtorEq, false_and, exists_false, or_false]
    constructor
    · rintro ⟨it, h1, h2⟩
      cases it with
      | dir files =>
        simp only [List.mem_filter, List.mem_map] at h2
        obtain ⟨⟨f, hf, rfl⟩, h3⟩ := h2
        exact ⟨files, f, h1, hf, rfl, (isGpsName_iff _).mp h3⟩
      | file f => simp at h2
    · rintro ⟨files, f, h1, h2, rfl, h3⟩
      refine ⟨.dir files, h1, ?_⟩
      simp only [List.mem_filter, List.mem_map]
      exact ⟨⟨f, h2, rfl⟩, (isGpsName_iff _).mpr h3⟩
  | list items =>
    simp only [gpsNames, GpsInput.items, List.mem_flatMap, GpsInput.list.injEq]
    constructor
    · rintro ⟨it, h1, h2⟩
      cases it with
      | dir files =>
        simp only [List.mem_filter, List.mem_map] at h2
        obtain ⟨⟨f, hf, rfl⟩, h3⟩ := h2
        exact .inl ⟨files, f, h1, hf, rfl, (isGpsName_iff _).mp h3⟩
      | file f =>
        simp only [List.mem_singleton] at h2
        exact .inr ⟨items, f, rfl, h1, h2.symm⟩
    · rintro (⟨files, f, h1, h2, rfl, h3⟩ | ⟨_, f, rfl, h1, rfl⟩)
      · refine ⟨.dir files, h1, ?_⟩
        simp only [List.mem_filter, List.mem_map]
        exact ⟨⟨f, h2, rfl⟩, (isGpsName_iff _).mpr h3⟩
      · exact ⟨.file f, h1, by simp⟩

/-! ## Rows -/

theorem minRat_spec (v : List Rat) (hv : v ≠ []) : minRat v ∈ v ∧ ∀ x ∈ v, minRat v ≤ x := by
  cases v with
  | nil => exact absurd rfl hv
  | cons a l =>
    show l.foldl min a ∈ a :: l ∧ ∀ x ∈ a :: l, l.foldl min a ≤ x
    have key : ∀ (l : List Rat) (a : Rat), (l.foldl min a = a ∨ l.foldl min a ∈ l) ∧ l.foldl min a ≤ a ∧ ∀ x ∈ l, l.foldl min a ≤ x := by
      intro l
      induction l with
      | nil => intro a; simp
      | cons b l ih =>
        intro a
        obtain ⟨h1, h2, h3⟩ := ih (min a b)
        rw [List.foldl_cons]
        refine ⟨?_, le_trans h2 (min_le_left _ _), ?_⟩
        · rcases h1 with h | h
          · rcases min_choice a b with hm | hm
            · left; rw [h, hm]
            · right; rw [h, hm]; simp
          · right; simp [h]
        · intro x hx
          rcases List.mem_cons.mp hx with rfl | hx
          · exact le_trans h2 (min_le_right _ _)
          · exact h3 x hx
    obtain ⟨h1, h2, h3⟩ := key l a
    refine ⟨?_, ?_⟩
    · rcases h1 with h | h
      · rw [h]; simp
      · simp [h]
    · intro x hx
      rcases List.mem_cons.mp hx with rfl | hx
      · exact h2
      · exact h3 x hx

theorem maxRat_spec (v : List Rat) (hv : v ≠ []) : maxRat v ∈ v ∧ ∀ x ∈ v, x ≤ maxRat v := by
  cases v with
  | nil => exact absurd rfl hv
  | cons a l =>
    show l.foldl max a ∈ a :: l ∧ ∀ x ∈ a :: l, x ≤ l.foldl max a
    have key : ∀ (l : List Rat) (a : Rat), (l.foldl max a = a ∨ l.foldl max a ∈ l) ∧ a ≤ l.foldl max a ∧ ∀ x ∈ l, x ≤ l.foldl max a := by
      intro l
      induction l with
      | nil => intro a; simp
      | cons b l ih =>
        intro a
        obtain ⟨h1, h2, h3⟩ := ih (max a b)
        rw [List.foldl_cons]
        refine ⟨?_, le_trans (le_max_left _ _) h2, ?_⟩
        · rcases h1 with h | h
          · rcases max_choice a b with hm | hm
            · left; rw [h, hm]
            · right; rw [h, hm]; simp
          · right; simp [h]
        · intro x hx
          rcases List.mem_cons.mp hx with rfl | hx
          · exact le_trans (le_max_right _ _) h2
          · exact h3 x hx
    obtain ⟨h1, h2, h3⟩ := key l a
    refine ⟨?_, ?_⟩
    · rcases h1 with h | h
      · rw [h]; simp
      · simp [h]
    · intro x hx
      rcases List.mem_cons.mp hx with rfl | hx
      · exact h2
      · exact h3 x hx

theorem summaryRow_describes (sn : List Nat) (g : List GpsRow) (hg : g ≠ []) : Describes (summaryRow sn g) sn g := by
  have hse : ∀ v : List Rat, Real.sqrt ((varRat v / g.length : Rat) : Real) = Stats.std v / Real.sqrt g.length := by
    intro v
    push_cast
    rw [Real.sqrt_div' _ (by positivity)]
    rfl
  have ht : g.map GpsRow.t ≠ [] := by simpa using hg
  refine ⟨rfl, rfl, rfl, hse _, hse _, ⟨(minRat_spec _ ht).1, ?_⟩, ⟨(maxRat_spec _ ht).1, ?_⟩, rfl⟩
  · intro p hp
    exact (minRat_spec _ ht).2 p.t (List.mem_map.mpr ⟨p, hp, rfl⟩)
  · intro p hp
    exact (maxRat_spec _ ht).2 p.t (List.mem_map.mpr ⟨p, hp, rfl⟩)

/-! ## C61 -/

/-- The serial number passes the lists of serial numbers to include and to exclude. -/
def PassesLists (incl excl : Option (List (List Nat))) (sn : List Nat) : Prop :=
  (∀ l, incl = some l → sn ∈ l) ∧ ∀ l, excl = some l → sn ∉ l

/-- **C61 (missing: fixes outside the period do influence which ones are taken for outliers, see `C61_violated_period`).** For
every input, period and lists: the summary has its serial numbers in strictly increasing order, and has a row for `sn` exactly
if some log found is named after `sn`, `sn` passes the lists, and after removing outliers (`C48`) from the rows of its newest
logs (`C49`) some fix lies in the period (limits included). That row holds the means, standard errors, first and last time and
number of those fixes. -/
theorem C61_summary_partial (inp : GpsInput) (t1 t2 : Rat) (incl excl : Option (List (List Nat))) :
    let rows := summarizeGps inp t1 t2 (incl.map .list) (excl.map .list)
    let used := fun sn => (removeOutliers (readGps inp.items sn)).filter fun p => decide (t1 ≤ p.t ∧ p.t ≤ t2)
    (rows.map GpsSummary.sn).Pairwise (· < ·) ∧
    (∀ r ∈ rows, Describes r r.sn (used r.sn)) ∧
    ∀ sn, (∃ r ∈ rows, r.sn = sn) ↔
      (∃ name, LookedAt inp name ∧ BeforeGps name sn) ∧ PassesLists incl excl sn ∧ used sn ≠ [] := by
  intro rows used
  have hused : ∀ sn, used sn = usedRows inp t1 t2 sn := by
    intro sn
    show List.filter _ _ = List.filter _ _
    congr 1
    funext p
    simp [Bool.decide_and]
  have hone : ∀ sn r, summarizeOne inp t1 t2 sn = some r ↔ used sn ≠ [] ∧ r = summaryRow sn (used sn) := by
    intro sn r
    rw [hused]
    unfold summarizeOne
    by_cases h : 0 < (usedRows inp t1 t2 sn).length
    · rw [if_pos h]
      simp only [Option.some.injEq]
      rw [List.length_pos_iff] at h
      constructor
      · rintro rfl; exact ⟨h, rfl⟩
      · rintro ⟨_, rfl⟩; rfl
    · rw [if_neg h]
      rw [List.length_pos_iff] at h
      simp only [reduceCtorEq, false_iff]
      intro h'
      exact h h'.1
  have hmem : ∀ r, r ∈ rows ↔ ∃ sn ∈ summaryList inp (incl.map .list) (excl.map .list), used sn ≠ [] ∧ r = summaryRow sn (used sn) := by
    intro r
    show r ∈ List.filterMap _ _ ↔ _
    rw [List.mem_filterMap]
    simp only [hone]
  refine ⟨?_, ?_, ?_⟩
  · have hs : (summaryList inp (incl.map .list) (excl.map .list)).Pairwise (· < ·) := uniqueStr_sorted _
    have hsub : (rows.map GpsSummary.sn).Sublist (summaryList inp (incl.map .list) (excl.map .list)) := by
      show (List.map GpsSummary.sn (List.filterMap _ _)).Sublist _
      generalize summaryList inp (incl.map .list) (excl.map .list) = l
      induction l with
      | nil => exact .slnil
      | cons a l ih =>
        rw [List.filterMap_cons]
        cases ha : summarizeOne inp t1 t2 a with
        | none => exact ih.cons a
        | some r =>
          obtain ⟨_, e⟩ := (hone a r).mp ha
          have : r.sn = a := by rw [e]; rfl
          simp only [List.map_cons, this]
          exact ih.cons_cons a
    exact hs.sublist hsub
  · intro r hr
    obtain ⟨sn, _, h2, rfl⟩ := (hmem r).mp hr
    exact summaryRow_describes sn _ h2
  · intro sn
    have hlist : sn ∈ summaryList inp (incl.map .list) (excl.map .list) ↔
        (∃ name, LookedAt inp name ∧ BeforeGps name sn) ∧ PassesLists incl excl sn := by
      unfold summaryList
      rw [uniqueStr_mem, List.mem_filter, List.mem_map]
      refine and_congr ?_ ?_
      · simp only [mem_gpsNames, beforeGps_iff]
      · unfold snWanted PassesLists
        cases incl <;> cases excl <;> simp [SNFilter.has]
    rw [← and_assoc, ← hlist]
    constructor
    · rintro ⟨r, hr, rfl⟩
      obtain ⟨sn, h1, h2, rfl⟩ := (hmem r).mp hr
      exact ⟨h1, h2⟩
    · rintro ⟨h1, h2⟩
      exact ⟨summaryRow sn (used sn), (hmem _).mpr ⟨sn, h1, h2, rfl⟩, rfl⟩

/-- Two instruments, one excluded by the period; the file of the third does not look like a log. -/
example : summarizeGps (.pattern [.dir [⟨bytes "078gps_000.txt", [⟨43, -116, 5⟩]⟩, ⟨bytes "077gps_000.txt", [⟨40, -110, 20⟩, ⟨42, -112, 30⟩]⟩,
    ⟨bytes "079gps_000.csv", [⟨43, -116, 25⟩]⟩]]) 10 40 none none = [⟨bytes "077", 41, -111, 1 / 2, 1 / 2, 20, 30, 2⟩] := by
  decide +kernel

/-- **C61, period (missing: as above).** If no fix of an instrument is an outlier among all its fixes, only the fixes in the
period count. -/
theorem C61_period_partial (inp : GpsInput) (t1 t2 : Rat) (sn : List Nat)
    (hin : outlierPass (readGps inp.items sn) = readGps inp.items sn) :
    usedRows inp t1 t2 sn = (readGps inp.items sn).filter fun p => decide (t1 ≤ p.t ∧ p.t ≤ t2) := by
  unfold usedRows removeOutliers
  have : removeOutliersGo (readGps inp.items sn).length (readGps inp.items sn) = readGps inp.items sn := by
    generalize readGps inp.items sn = x at *
    cases h : x.length with
    | zero => rfl
    | succ n => rw [removeOutliersGo, hin, if_neg (by omega)]
  rw [this]
  congr 1
  funext p
  simp [Bool.decide_and]

example : let x : List GpsRow := [⟨43, -116, 5⟩, ⟨44, -116, 15⟩, ⟨43, -117, 25⟩]; outlierPass x = x := by decide +kernel

/-- **C61 is false when most fixes were taken elsewhere.** Outliers are removed before the period is applied. Here 29 fixes at
home precede the period and one fix lies in it; asked for the period, the summary leaves the instrument out, although without
the earlier fixes it would be listed. -/
theorem C61_violated_period : ∃ home field : List GpsRow, (∀ p ∈ home, p.t < 10) ∧ (∀ p ∈ field, 10 ≤ p.t ∧ p.t ≤ 20) ∧
    summarizeGps (.pattern [.dir [⟨bytes "077gps_000.txt", home ++ field⟩]]) 10 20 none none = [] ∧
    (summarizeGps (.pattern [.dir [⟨bytes "077gps_000.txt", field⟩]]) 10 20 none none).length = 1 := by
  refine ⟨List.replicate 29 ⟨43, -116, 0⟩, [⟨44, -116, 15⟩], ?_, ?_, ?_, ?_⟩ <;> decide +kernel

/-- **C61 is false for a pattern that matches files**: `summarize_gps('gps/*')` finds no instruments. -/
theorem C61_violated_pattern (files : List GpsFile) (t1 t2 : Rat) (incl excl : Option SNFilter) :
    summarizeGps (.pattern (files.map .file)) t1 t2 incl excl = [] := by
  have : gpsNames (.pattern (files.map .file)) = [] := by
    unfold gpsNames
    dsimp only
    rw [List.flatMap_map]
    induction files with
    | nil => rfl
    | cons a l ih => rw [List.flatMap_cons]; exact ih
  unfold summarizeGps summaryList
  rw [this]
  rfl

/-- The same logs given as a list are found. -/
example : (summarizeGps (.list [.file ⟨bytes "077gps_000.txt", [⟨43, -116, 5⟩]⟩]) 0 10 none none).length = 1 := by decide +kernel

/-! ## Serial numbers on the command line -/

/-- Words joined by commas. -/
def joinCommas : List (List Nat) → List Nat
  | [] => []
  | [w] => w
  | w :: ws => w ++ 44 :: joinCommas ws

theorem isInfix_iff (a : List Nat) : ∀ s : List Nat, isInfix a s = true ↔ a <:+: s
  | [] => by simp [isInfix]
  | c :: l => by
    rw [isInfix, Bool.or_eq_true, List.isPrefixOf_iff_prefix, isInfix_iff a l, List.infix_cons_iff]

theorem infix_word {a w : List Nat} {r : List Nat} (ha : ∀ c ∈ a, c ≠ 44) (h3 : a.length = 3) (hw : w.length = 3)
    (h : a <:+: w ++ 44 :: r) : a = w ∨ a <:+: r := by
  obtain ⟨w1, w2, w3, rfl⟩ : ∃ w1 w2 w3, w = [w1, w2, w3] := by
    match w, hw with
    | [w1, w2, w3], _ => exact ⟨w1, w2, w3, rfl⟩
  obtain ⟨a1, a2, a3, rfl⟩ : ∃ w1 w2 w3, a = [w1, w2, w3] := by
    match a, h3 with
    | [w1, w2, w3], _ => exact ⟨w1, w2, w3, rfl⟩
  have h1 := ha a1 (by simp)
  have h2 := ha a2 (by simp)
  have h3' := ha a3 (by simp)
  simp only [List.cons_append, List.nil_append] at h
  rw [List.infix_cons_iff, List.infix_cons_iff, List.infix_cons_iff, List.infix_cons_iff] at h
  rcases h with h | h | h | h | h
  · left
    simpa [List.cons_prefix_cons] using h
  · exfalso
    simp only [List.cons_prefix_cons] at h
    omega
  · exfalso
    simp only [List.cons_prefix_cons] at h
    omega
  · exfalso
    simp only [List.cons_prefix_cons] at h
    omega
  · exact .inr h

/-- **C61, command line (missing: other lengths, see `C61_violated_substring`).** The lists of serial numbers on the command line
are passed on as text and searched for each serial number. For serial numbers of three characters separated by commas this
finds exactly the listed ones. -/
theorem C61_command_line_partial (sn : List Nat) (ws : List (List Nat)) (h3 : sn.length = 3) (hc : ∀ c ∈ sn, c ≠ 44)
    (hw : ∀ w ∈ ws, w.length = 3) : (SNFilter.text (joinCommas ws)).has sn = (SNFilter.list ws).has sn := by
  have key : sn <:+: joinCommas ws ↔ sn ∈ ws := by
    induction ws with
    | nil =>
      simp only [joinCommas, List.infix_nil, List.not_mem_nil, iff_false]
      intro h
      rw [h] at h3
      simp at h3
    | cons w ws ih =>
      have ih := ih fun x hx => hw x (by simp [hx])
      have hw3 := hw w (by simp)
      cases ws with
      | nil =>
        simp only [joinCommas, List.mem_singleton]
        constructor
        · intro h; exact h.eq_of_length (by omega)
        · rintro rfl; exact List.infix_refl _
      | cons v vs =>
        rw [joinCommas, List.mem_cons, ← ih]
        · constructor
          · exact infix_word hc h3 hw3
          · rintro (rfl | h)
            · exact (List.prefix_append _ _).isInfix
            · exact h.trans ⟨w ++ [44], [], by simp⟩
        · simp
  unfold SNFilter.has
  rw [Bool.eq_iff_iff, isInfix_iff, key]
  simp

example : (SNFilter.text (joinCommas [bytes "077", bytes "088"])).has (bytes "088") = true ∧
    joinCommas [bytes "077", bytes "088"] = bytes "077,088" := by decide +kernel

/-- **C61 is false for text in general.** Excluding `1077` on the command line excludes `077`. -/
theorem C61_violated_substring : (SNFilter.text (bytes "1077")).has (bytes "077") = true ∧
    (SNFilter.list [bytes "1077"]).has (bytes "077") = false := by
  decide +kernel

/-! ## Codes -/

/-- **C61, codes.** Each row of the summary gets the codes and elevation of the first row of the station table with the same
serial number (as text), and blank codes and the default -9999 if there is none. -/
theorem C61_codes (table : List StationRow) (rows : List GpsSummary) :
    (withCodes table rows).map Prod.fst = rows ∧
    ∀ r net sta loc el, (r, net, sta, loc, el) ∈ withCodes table rows → r ∈ rows ∧
      ((∃ pre s post, table = pre ++ s :: post ∧ s.sn = r.sn ∧ (∀ x ∈ pre, x.sn ≠ r.sn) ∧
          net = s.network ∧ sta = s.station ∧ loc = s.location ∧ el = s.elevation) ∨
        ((∀ x ∈ table, x.sn ≠ r.sn) ∧ net = [] ∧ sta = [] ∧ loc = [] ∧ el = .default)) := by
  refine ⟨?_, ?_⟩
  · unfold withCodes
    rw [List.map_map]
    exact List.map_id'' (fun _ => rfl) rows
  · intro r net sta loc el h
    unfold withCodes at h
    obtain ⟨r', hr, e⟩ := List.mem_map.mp h
    simp only [Prod.mk.injEq] at e
    obtain ⟨rfl, e⟩ := e
    refine ⟨hr, ?_⟩
    unfold codesOf at e
    cases hf : table.find? fun x => decide (x.sn = r'.sn) with
    | none =>
      rw [hf] at e
      simp only [Prod.mk.injEq] at e
      refine .inr ⟨?_, e.1.symm, e.2.1.symm, e.2.2.1.symm, e.2.2.2.symm⟩
      intro x hx
      have := List.find?_eq_none.mp hf x hx
      simpa using this
    | some s =>
      rw [hf] at e
      simp only [Prod.mk.injEq] at e
      obtain ⟨h1, pre, post, h2, h3⟩ := List.find?_eq_some_iff_append.mp hf
      refine .inl ⟨pre, s, post, h2, by simpa using h1, ?_, e.1.symm, e.2.1.symm, e.2.2.1.symm, e.2.2.2.symm⟩
      intro x hx
      have := h3 x hx
      simpa using this

example : (withCodes [⟨bytes "078", bytes "NM", bytes "A", [], .cell (bytes "5")⟩, ⟨bytes "077", bytes "NM", bytes "B", [], .cell (bytes "6")⟩]
    [⟨bytes "077", 0, 0, 0, 0, 0, 0, 1⟩]).map Prod.snd = [(bytes "NM", bytes "B", [], .cell (bytes "6"))] := by decide +kernel

end Gemlog
