import Verif.Model.Network
import Verif.Props.Names
import Verif.Props.Select
import Verif.Props.Cli
import Verif.Props.Outliers

/-!
# C49: the newest GPS summary is used
-/

namespace Gemlog

/-- The name of the GPS log number `n` of an instrument: `SNgps_nnn.txt`, at least three digits. -/
def gpsLogName (sn : List Nat) (n : Nat) : List Nat := sn ++ bytes "gps_" ++ padNum 3 n ++ bytes ".txt"

/-! ## Sorting -/

theorem insertGps_perm (f : GpsFile) : ∀ l : List GpsFile, (insertGps f l).Perm (f :: l)
  | [] => .refl _
  | g :: l => by
    rw [insertGps]
    split
    · exact .refl _
    · exact ((insertGps_perm f l).cons g).trans (.swap f g l)

theorem sortGps_perm : ∀ l : List GpsFile, (sortGps l).Perm l
  | [] => .refl _
  | f :: l => (insertGps_perm f _).trans ((sortGps_perm l).cons f)

theorem insertGps_sorted (f : GpsFile) : ∀ l : List GpsFile, l.Pairwise (fun a b => nameLe a.name b.name = true) →
    (insertGps f l).Pairwise (fun a b => nameLe a.name b.name = true)
  | [], _ => by simp [insertGps]
  | g :: l, h => by
    rw [List.pairwise_cons] at h
    rw [insertGps]
    split
    · rename_i c
      refine List.pairwise_cons.mpr ⟨?_, List.pairwise_cons.mpr h⟩
      intro b hb
      rcases List.mem_cons.mp hb with rfl | hb
      · exact c
      · exact nameLe_trans _ _ _ c (h.1 b hb)
    · rename_i c
      refine List.pairwise_cons.mpr ⟨?_, insertGps_sorted f l h.2⟩
      intro b hb
      rcases List.mem_cons.mp ((insertGps_perm f l).mem_iff.mp hb) with rfl | hb
      · exact nameLe_total _ _ (by simpa using c)
      · exact h.1 b hb

theorem sortGps_sorted : ∀ l : List GpsFile, (sortGps l).Pairwise (fun a b => nameLe a.name b.name = true)
  | [] => .nil
  | f :: l => insertGps_sorted f _ (sortGps_sorted l)

theorem nameLe_refl : ∀ a : List Nat, nameLe a a = true
  | [] => by simp [nameLe]
  | c :: l => by rw [nameLe]; simp [nameLe_refl l]

theorem nameLe_cons (c : Nat) (l m : List Nat) : nameLe (c :: l) (c :: m) = nameLe l m := by
  rw [nameLe]; simp

theorem nameLe_append (p l m : List Nat) : nameLe (p ++ l) (p ++ m) = nameLe l m := by
  induction p with
  | nil => rfl
  | cons c p ih => rw [List.cons_append, List.cons_append, nameLe_cons, ih]

/-- If one of the files that begin with the serial number comes last by name, its rows are read. -/
theorem gpsRowsOf_last (files : List GpsFile) (sn : List Nat) (g : GpsFile) (hg : g ∈ files) (hp : sn <+: g.name)
    (hmax : ∀ f ∈ files, sn <+: f.name → nameLe f.name g.name = true) (huniq : ∀ f ∈ files, f.name = g.name → f = g) :
    gpsRowsOf sn (.dir files) = g.rows := by
  unfold gpsRowsOf gpsCandidates
  dsimp only
  have hmem : ∀ f, f ∈ sortGps (files.filter fun f => sn.isPrefixOf f.name) ↔ f ∈ files ∧ sn <+: f.name := by
    intro f
    rw [(sortGps_perm _).mem_iff, List.mem_filter, List.isPrefixOf_iff_prefix]
  have hsort := sortGps_sorted (files.filter fun f => sn.isPrefixOf f.name)
  generalize sortGps (files.filter fun f => sn.isPrefixOf f.name) = l at *
  have hgl := (hmem g).mpr ⟨hg, hp⟩
  rcases List.eq_nil_or_concat l with rfl | ⟨i, z, rfl⟩
  · simp at hgl
  · rw [List.concat_eq_append] at *
    rw [List.getLast?_concat]
    have hz := (hmem z).mp (by simp)
    have h1 := hmax z hz.1 hz.2
    have h2 : nameLe g.name z.name = true := by
      rcases List.mem_append.mp hgl with h | h
      · exact (List.pairwise_append.mp hsort).2.2 g h z (by simp)
      · rw [List.mem_singleton.mp h]; exact nameLe_refl _
    rw [huniq z hz.1 (nameLe_antisymm _ _ h1 h2)]

/-! ## Numbers with three digits -/

theorem digitsVal_cons (a : Nat) (l : List Nat) : digitsVal (a :: l) = (a - 48) * 10 ^ l.length + digitsVal l := by
  have : digitsVal (a :: l) = digitsVal ([a] ++ l) := rfl
  rw [this, digitsVal_append]
  simp [digitsVal]

theorem digitsVal_lt : ∀ l : List Nat, (∀ d ∈ l, 48 ≤ d ∧ d ≤ 57) → digitsVal l < 10 ^ l.length
  | [], _ => by simp [digitsVal]
  | a :: l, h => by
    have h1 := digitsVal_lt l fun d hd => h d (by simp [hd])
    have h2 := h a (by simp)
    rw [digitsVal_cons, List.length_cons, Nat.pow_succ]
    have : (a - 48) * 10 ^ l.length ≤ 9 * 10 ^ l.length := Nat.mul_le_mul_right _ (by omega)
    omega

/-- Numbers with the same number of digits compare like their texts. -/
theorem digits_nameLe : ∀ (x y s : List Nat), x.length = y.length → (∀ d ∈ x, 48 ≤ d ∧ d ≤ 57) → (∀ d ∈ y, 48 ≤ d ∧ d ≤ 57) →
    digitsVal x ≤ digitsVal y → nameLe (x ++ s) (y ++ s) = true
  | [], [], s, _, _, _, _ => nameLe_refl s
  | [], _ :: _, _, h, _, _, _ => by simp at h
  | _ :: _, [], _, h, _, _, _ => by simp at h
  | a :: x, b :: y, s, hl, hx, hy, hv => by
    have hl' : x.length = y.length := by simpa using hl
    have h1 := digitsVal_lt y fun d hd => hy d (by simp [hd])
    have ha := hx a (by simp)
    have hb := hy b (by simp)
    rw [digitsVal_cons, digitsVal_cons, hl'] at hv
    rw [List.cons_append, List.cons_append, nameLe]
    simp only [Bool.or_eq_true, Bool.and_eq_true, decide_eq_true_eq]
    rcases Nat.lt_trichotomy a b with h | h | h
    · exact .inl h
    · subst h
      exact .inr ⟨rfl, digits_nameLe x y s hl' (fun d hd => hx d (by simp [hd])) (fun d hd => hy d (by simp [hd])) (by omega)⟩
    · exfalso
      have : (b - 48 + 1) * 10 ^ y.length ≤ (a - 48) * 10 ^ y.length := Nat.mul_le_mul_right _ (by omega)
      rw [Nat.add_mul] at this
      omega

theorem gpsLogName_le {sn : List Nat} {a b : Nat} (hab : a ≤ b) (hb : b < 1000) :
    nameLe (gpsLogName sn a) (gpsLogName sn b) = true := by
  unfold gpsLogName
  rw [List.append_assoc, List.append_assoc (sn ++ bytes "gps_"), nameLe_append]
  obtain ⟨a1, a2, _, a4⟩ := C35_index_digits a
  obtain ⟨b1, b2, _, b4⟩ := C35_index_digits b
  exact digits_nameLe _ _ _ (by rw [a4 (by omega), b4 hb]) a2 b2 (by rw [a1, b1]; exact hab)

theorem natStr_four {n : Nat} (h1 : 1000 ≤ n) (h2 : n < 10000) :
    natStr n = [48 + n / 10 / 10 / 10, 48 + n / 10 / 10 % 10, 48 + n / 10 % 10, 48 + n % 10] := by
  obtain ⟨f, rfl⟩ : ∃ f, n = f + 3 := ⟨n - 3, by omega⟩
  unfold natStr
  simp only [natStrAux]
  rw [if_neg (by omega), if_neg (by omega), if_neg (by omega), if_pos (by omega)]

theorem gpsLogName_thousand (sn : List Nat) {n : Nat} (h1 : 1000 ≤ n) (h2 : n < 9990) : nameLe (gpsLogName sn n) (gpsLogName sn 999) = true := by
  unfold gpsLogName padNum zeroPad
  rw [List.append_assoc, List.append_assoc (sn ++ bytes "gps_"), nameLe_append, natStr_four h1 (by omega), show natStr 999 = [57, 57, 57] by decide +kernel]
  simp only [List.length_cons, List.length_nil, Nat.reduceAdd, Nat.reduceSub, List.replicate_zero, List.nil_append, List.cons_append, nameLe, Bool.or_eq_true,
    Bool.and_eq_true, decide_eq_true_eq]
  omega

theorem gpsLogName_inj {sn : List Nat} {a b : Nat} (h : gpsLogName sn a = gpsLogName sn b) : a = b := by
  unfold gpsLogName at h
  exact padNum_injective (List.append_cancel_left (List.append_cancel_right h))

theorem gpsLogName_sn {sn sn' : List Nat} {n : Nat} (h3 : sn.length = 3) (h3' : sn'.length = 3)
    (h : sn <+: gpsLogName sn' n) : sn = sn' := by
  unfold gpsLogName at h
  rw [List.append_assoc, List.append_assoc] at h
  exact (List.prefix_of_prefix_length_le h (List.prefix_append _ _) (by omega)).eq_of_length (by omega)

theorem gpsLogName_prefix (sn : List Nat) (n : Nat) : sn <+: gpsLogName sn n := by
  unfold gpsLogName
  rw [List.append_assoc, List.append_assoc]
  exact List.prefix_append _ _

/-! ## C49 -/

/-- A folder holds logs of the instrument, with numbers up to 999 and nothing else that begins with the serial number, and
`rows` is the content of the one with the highest number; or it holds none, and `rows` is empty. -/
def NewestIn (sn : List Nat) (files : List GpsFile) (rows : List GpsRow) : Prop :=
  (∀ f ∈ files, sn <+: f.name → ∃ n, n ≤ 999 ∧ f.name = gpsLogName sn n) ∧
  ((rows = [] ∧ ∀ f ∈ files, ¬ sn <+: f.name) ∨
    ∃ k, ⟨gpsLogName sn k, rows⟩ ∈ files ∧ ∀ n, gpsLogName sn n ∈ files.map GpsFile.name → n ≤ k)

theorem gpsRowsOf_newest {sn : List Nat} {files : List GpsFile} {rows : List GpsRow} (hnd : (files.map GpsFile.name).Nodup)
    (h : NewestIn sn files rows) : gpsRowsOf sn (.dir files) = rows := by
  obtain ⟨h1, ⟨rfl, h2⟩ | ⟨k, hk, hmax⟩⟩ := h
  · unfold gpsRowsOf gpsCandidates
    dsimp only
    have : (files.filter fun f => sn.isPrefixOf f.name) = [] := by
      rw [List.filter_eq_nil_iff]
      intro f hf
      rw [List.isPrefixOf_iff_prefix]
      exact h2 f hf
    rw [this]
    rfl
  · apply gpsRowsOf_last files sn ⟨gpsLogName sn k, rows⟩ hk (gpsLogName_prefix sn k)
    · intro f hf hp
      obtain ⟨n, hn, e⟩ := h1 f hf hp
      obtain ⟨m, hm, e'⟩ := h1 _ hk (gpsLogName_prefix sn k)
      have : m = k := (gpsLogName_inj e').symm
      subst this
      show nameLe f.name (gpsLogName sn m) = true
      rw [e]
      exact gpsLogName_le (hmax n (List.mem_map.mpr ⟨f, hf, e⟩)) (by omega)
    · intro f hf e
      exact List.inj_on_of_nodup_map hnd hf hk e

/-- **C49 (missing: index 1000 and up, other files that begin with the serial number, single files as input; see the
`C49_violated` theorems).** For folders (in any number and listing order) that hold logs numbered up to 999 and nothing else that
begins with the serial number, exactly the rows of the log with the highest number in each folder are read. -/
theorem C49_newest_partial (sn : List Nat) (folders : List (List GpsFile)) (newest : List (List GpsRow))
    (hnd : ∀ files ∈ folders, (files.map GpsFile.name).Nodup) (h : List.Forall₂ (NewestIn sn) folders newest) :
    readGps (folders.map .dir) sn = newest.flatten := by
  unfold readGps
  induction h with
  | nil => rfl
  | cons h1 _ ih =>
    rw [List.map_cons, List.flatMap_cons, List.flatten_cons, gpsRowsOf_newest (hnd _ (by simp)) h1,
      ih fun files hf => hnd files (by simp [hf])]

/-- Two folders, the second with a file of another instrument; the newest logs have numbers 10 and 1. -/
example : readGps ([[⟨bytes "077gps_009.txt", [⟨1, 1, 1⟩]⟩, ⟨bytes "077gps_010.txt", [⟨2, 2, 2⟩]⟩, ⟨bytes "077gps_002.txt", []⟩],
    [⟨bytes "078gps_005.txt", [⟨4, 4, 4⟩]⟩, ⟨bytes "077gps_001.txt", [⟨3, 3, 3⟩]⟩]].map .dir) (bytes "077") =
    [[⟨2, 2, 2⟩], [⟨3, 3, 3⟩]].flatten := by
  apply C49_newest_partial
  · decide +kernel
  · refine .cons ⟨?_, .inr ⟨10, by decide +kernel, ?_⟩⟩ (.cons ⟨?_, .inr ⟨1, by decide +kernel, ?_⟩⟩ .nil)
    · intro f hf _
      simp only [List.mem_cons, List.not_mem_nil, or_false] at hf
      rcases hf with rfl | rfl | rfl
      · exact ⟨9, by omega, by decide +kernel⟩
      · exact ⟨10, by omega, by decide +kernel⟩
      · exact ⟨2, by omega, by decide +kernel⟩
    · intro n hn
      simp only [List.map_cons, List.map_nil, List.mem_cons, List.not_mem_nil, or_false] at hn
      have e9 : bytes "077gps_009.txt" = gpsLogName (bytes "077") 9 := by decide +kernel
      have e10 : bytes "077gps_010.txt" = gpsLogName (bytes "077") 10 := by decide +kernel
      have e2 : bytes "077gps_002.txt" = gpsLogName (bytes "077") 2 := by decide +kernel
      rw [e9, e10, e2] at hn
      rcases hn with h | h | h <;> have := gpsLogName_inj h <;> omega
    · intro f hf hp
      simp only [List.mem_cons, List.not_mem_nil, or_false] at hf
      rcases hf with rfl | rfl
      · exfalso; revert hp; decide +kernel
      · exact ⟨1, by omega, by decide +kernel⟩
    · intro n hn
      simp only [List.map_cons, List.map_nil, List.mem_cons, List.not_mem_nil, or_false] at hn
      have e1 : bytes "077gps_001.txt" = gpsLogName (bytes "077") 1 := by decide +kernel
      rw [e1] at hn
      rcases hn with h | h
      · exfalso
        have := gpsLogName_prefix (bytes "077") n
        rw [h] at this
        revert this
        decide +kernel
      · have := gpsLogName_inj h; omega

/-! ## Histories of conversions -/

/-- The GPS folder after conversions, each given by its serial number and its fixes. -/
def gpsFolderAfter (h : List (List Nat × List GpsRow)) : List GpsFile := h.foldl addLog []

/-- How often an instrument was converted. -/
def conversions (sn : List Nat) (h : List (List Nat × List GpsRow)) : Nat := h.countP fun e => decide (e.1 = sn)

theorem folder_spec (h : List (List Nat × List GpsRow)) (h3 : ∀ e ∈ h, e.1.length = 3) :
    (∀ sn n, sn.length = 3 → (gpsLogName sn n ∈ (gpsFolderAfter h).map GpsFile.name ↔ n < conversions sn h)) ∧
    (∀ f ∈ gpsFolderAfter h, ∃ sn n, sn.length = 3 ∧ f.name = gpsLogName sn n) ∧
    ((gpsFolderAfter h).map GpsFile.name).Nodup ∧
    (∀ a e b, h = a ++ e :: b → ⟨gpsLogName e.1 (conversions e.1 a), e.2⟩ ∈ gpsFolderAfter h) := by
  induction h using List.reverseRecOn with
  | nil => simp [gpsFolderAfter, conversions]
  | append_singleton h e ih =>
    obtain ⟨i1, i2, i3, i4⟩ := ih fun x hx => h3 x (by simp [hx])
    have he3 := h3 e (by simp)
    have hstep : gpsFolderAfter (h ++ [e]) = addLog (gpsFolderAfter h) e := by
      unfold gpsFolderAfter; rw [List.foldl_append]; rfl
    have hb : bytes "gps" ++ bytes "/" = bytes "gps/" := by decide +kernel
    have hb' : bytes "gps" ++ bytes "_" = bytes "gps_" := by decide +kernel
    have hname : ∀ k, bytes "gps" ++ bytes "/" ++ e.1 ++ bytes "gps" ++ bytes "_" ++ padNum 3 k ++ bytes ".txt" =
        bytes "gps/" ++ gpsLogName e.1 k := by
      intro k
      unfold gpsLogName
      rw [hb, ← hb']
      simp only [List.append_assoc]
    obtain ⟨k, hk1, hk2, hk3⟩ := C35_fresh_smallest ((gpsFolderAfter h).map fun f => bytes "gps/" ++ f.name) (bytes "gps") e.1
      (bytes "gps")
    rw [hname] at hk1 hk2
    have hin : ∀ m, bytes "gps/" ++ gpsLogName e.1 m ∈ ((gpsFolderAfter h).map fun f => bytes "gps/" ++ f.name) ↔
        m < conversions e.1 h := by
      intro m
      rw [← i1 e.1 m he3]
      simp only [List.mem_map, List.append_cancel_left_eq]
    have hkc : k = conversions e.1 h := by
      rw [hin] at hk2
      rcases Nat.lt_or_ge (conversions e.1 h) k with hlt | hge
      · have := hk3 _ hlt
        rw [hname, hin] at this
        omega
      · omega
    have hadd : addLog (gpsFolderAfter h) e = gpsFolderAfter h ++ [⟨gpsLogName e.1 k, e.2⟩] := by
      unfold addLog
      rw [hk1]
      rfl
    rw [hstep, hadd]
    have hcnt : ∀ sn, conversions sn (h ++ [e]) = conversions sn h + if e.1 = sn then 1 else 0 := by
      intro sn
      unfold conversions
      rw [List.countP_append, List.countP_cons, List.countP_nil]
      simp
    refine ⟨?_, ?_, ?_, ?_⟩
    · intro sn n hsn
      rw [List.map_append, List.mem_append, i1 sn n hsn, hcnt]
      simp only [List.map_cons, List.map_nil, List.mem_singleton]
      constructor
      · rintro (h1 | h1)
        · omega
        · have : sn = e.1 := gpsLogName_sn hsn he3 (h1 ▸ gpsLogName_prefix sn n)
          subst this
          rw [gpsLogName_inj h1, if_pos rfl]
          omega
      · intro h1
        by_cases hlt : n < conversions sn h
        · exact .inl hlt
        · right
          split_ifs at h1 with hc
          · subst hc
            rw [hkc, show n = conversions e.1 h by omega]
          · omega
    · intro f hf
      rcases List.mem_append.mp hf with h1 | h1
      · exact i2 f h1
      · rw [List.mem_singleton.mp h1]
        exact ⟨e.1, k, he3, rfl⟩
    · rw [List.map_append, List.nodup_append]
      refine ⟨i3, by simp, ?_⟩
      intro x hx y hy
      simp only [List.map_cons, List.map_nil, List.mem_singleton] at hy
      subst hy
      rintro rfl
      rw [i1 e.1 k he3] at hx
      omega
    · intro a x b hab
      rcases List.eq_nil_or_concat b with rfl | ⟨b', z, rfl⟩
      · have := List.append_inj' hab rfl
        obtain ⟨rfl, h2⟩ := this
        simp only [List.cons.injEq, and_true] at h2
        subst h2
        rw [hkc]
        simp
      · rw [List.concat_eq_append, ← List.cons_append, ← List.append_assoc] at hab
        have := List.append_inj' hab rfl
        exact List.mem_append_left _ (i4 a x b' this.1)

/-- **C49, histories (missing: more than 1000 conversions of an instrument).** Convert instruments in any order, any number of
times, always into the same GPS folder, which was empty at first. Reading the log of an instrument that was converted at most
1000 times gives the fixes of its latest conversion. -/
theorem C49_history_partial (a b : List (List Nat × List GpsRow)) (sn : List Nat) (rows : List GpsRow)
    (h3 : ∀ e ∈ a ++ (sn, rows) :: b, e.1.length = 3) (hlast : ∀ e ∈ b, e.1 ≠ sn) (hk : conversions sn a < 1000) :
    readGps [.dir (gpsFolderAfter (a ++ (sn, rows) :: b))] sn = rows := by
  obtain ⟨i1, i2, i3, i4⟩ := folder_spec _ h3
  have hsn : sn.length = 3 := h3 (sn, rows) (by simp)
  have hcnt : conversions sn (a ++ (sn, rows) :: b) = conversions sn a + 1 := by
    unfold conversions
    rw [List.countP_append, List.countP_cons]
    have : (b.countP fun e => decide (e.1 = sn)) = 0 := by
      rw [List.countP_eq_zero]
      intro e he
      simpa using hlast e he
    rw [this]
    simp
  have hf : ∀ f ∈ gpsFolderAfter (a ++ (sn, rows) :: b), sn <+: f.name →
      ∃ n, n ≤ conversions sn a ∧ f.name = gpsLogName sn n := by
    intro f hf hp
    obtain ⟨sn', n, h3', e⟩ := i2 f hf
    have : sn = sn' := gpsLogName_sn hsn h3' (e ▸ hp)
    subst this
    have := (i1 sn n hsn).mp (List.mem_map.mpr ⟨f, hf, e⟩)
    exact ⟨n, by omega, e⟩
  have := gpsRowsOf_newest (sn := sn) (rows := rows) i3 ⟨fun f hf' hp => by
      obtain ⟨n, hn, e⟩ := hf f hf' hp
      exact ⟨n, by omega, e⟩, .inr ⟨conversions sn a, i4 a (sn, rows) b rfl, fun n hn => by
      have := (i1 sn n hsn).mp hn
      omega⟩⟩
  show gpsRowsOf sn _ ++ [] = rows
  rw [this, List.append_nil]

example : readGps [.dir (gpsFolderAfter [(bytes "077", [⟨1, 1, 1⟩]), (bytes "078", []), (bytes "077", [⟨2, 2, 2⟩]),
    (bytes "078", [⟨3, 3, 3⟩])])] (bytes "077") = [⟨2, 2, 2⟩] :=
  C49_history_partial [(bytes "077", [⟨1, 1, 1⟩]), (bytes "078", [])] [(bytes "078", [⟨3, 3, 3⟩])] (bytes "077") [⟨2, 2, 2⟩]
    (by decide +kernel) (by decide +kernel) (by decide +kernel)

/-- **C49 is false from the 1001st conversion on.** Convert instruments in any order into the same GPS folder; after 1001 to 9990 conversions of an instrument the
fixes of its 1000th are read: `SNgps_1000.txt` comes before `SNgps_999.txt`. -/
theorem C49_violated_thousand (a b : List (List Nat × List GpsRow)) (sn : List Nat) (rows : List GpsRow)
    (h3 : ∀ e ∈ a ++ (sn, rows) :: b, e.1.length = 3) (ha : conversions sn a = 999) (hb : 0 < conversions sn b) (hb' : conversions sn b ≤ 8990) :
    readGps [.dir (gpsFolderAfter (a ++ (sn, rows) :: b))] sn = rows := by
  obtain ⟨i1, i2, i3, i4⟩ := folder_spec _ h3
  have hsn : sn.length = 3 := h3 (sn, rows) (by simp)
  have hc : conversions sn (a ++ (sn, rows) :: b) = 1000 + conversions sn b := by
    have : conversions sn (a ++ (sn, rows) :: b) = conversions sn a + (conversions sn b + 1) := by
      unfold conversions
      rw [List.countP_append, List.countP_cons]
      simp
    omega
  have hmem := i4 a (sn, rows) b rfl
  rw [ha] at hmem
  have := gpsRowsOf_last _ sn _ hmem (gpsLogName_prefix sn 999) (by
    intro f hf hp
    obtain ⟨sn', n, h3', e⟩ := i2 f hf
    have : sn = sn' := gpsLogName_sn hsn h3' (e ▸ hp)
    subst this
    have hn := (i1 sn n hsn).mp (List.mem_map.mpr ⟨f, hf, e⟩)
    rw [hc] at hn
    show nameLe f.name (gpsLogName sn 999) = true
    rw [e]
    rcases Nat.lt_or_ge n 1000 with h | h
    · exact gpsLogName_le (by omega) (by omega)
    · exact gpsLogName_thousand sn h (by omega)) (fun f hf e => List.inj_on_of_nodup_map i3 hf hmem e)
  unfold readGps
  rw [List.flatMap_cons, List.flatMap_nil, this, List.append_nil]

/-- 1001 conversions of instrument 077, each with one fix, at the latitude of its number. -/
example : readGps [.dir (gpsFolderAfter (List.replicate 999 (bytes "077", [⟨0, 0, 0⟩]) ++ (bytes "077", [⟨1, 1, 1⟩]) :: [(bytes "077", [⟨2, 2, 2⟩])]))] (bytes "077") =
    [⟨1, 1, 1⟩] := by
  apply C49_violated_thousand
  · intro e he
    rcases List.mem_append.mp he with h | h
    · rw [List.eq_of_mem_replicate h]; decide +kernel
    · simp only [List.mem_cons, List.not_mem_nil, or_false] at h
      rcases h with rfl | rfl <;> decide +kernel
  · decide +kernel
  · decide +kernel
  · decide +kernel

/-- **C49 is false with other files in the folder.** Any file whose name begins with the serial number is taken for a log. A file of any kind whose name comes after those of
the logs, such as a note, hides all of them. -/
theorem C49_violated_stray (sn : List Nat) (files : List GpsFile) (hnd : (files.map GpsFile.name).Nodup) (g : GpsFile) (hg : g ∈ files)
    (rest : List Nat) (hname : g.name = sn ++ rest) (hlate : ∀ n, nameLe (bytes "gps_" ++ padNum 3 n ++ bytes ".txt") rest = true)
    (hlogs : ∀ f ∈ files, f = g ∨ ∃ sn' n, sn'.length = sn.length ∧ f.name = gpsLogName sn' n) :
    readGps [.dir files] sn = g.rows := by
  have := gpsRowsOf_last files sn g hg ⟨rest, hname.symm⟩ (by
    intro f hf hp
    rcases hlogs f hf with rfl | ⟨sn', n, hl, e⟩
    · exact nameLe_refl _
    · have h1 : sn = sn' := by
        obtain ⟨t, ht⟩ := hp
        rw [e] at ht
        unfold gpsLogName at ht
        rw [List.append_assoc, List.append_assoc] at ht
        exact (List.append_inj ht hl.symm).1
      subst h1
      rw [e, hname]
      unfold gpsLogName
      rw [List.append_assoc, List.append_assoc, nameLe_append, ← List.append_assoc]
      exact hlate n) (fun f hf e => List.inj_on_of_nodup_map hnd hf hg e)
  unfold readGps
  rw [List.flatMap_cons, List.flatMap_nil, this, List.append_nil]

/-- A note beside the log of instrument 077. -/
example : readGps [.dir [⟨gpsLogName (bytes "077") 0, [⟨43, -116, 0⟩]⟩, ⟨bytes "077notes.txt", []⟩]] (bytes "077") = [] := by
  refine C49_violated_stray (bytes "077") _ (by decide +kernel) ⟨bytes "077notes.txt", []⟩ (by simp) (bytes "notes.txt") (by decide +kernel) ?_ ?_
  · intro n
    rw [show bytes "gps_" = [103, 112, 115, 95] by decide +kernel, show bytes "notes.txt" = [110, 111, 116, 101, 115, 46, 116, 120, 116] by decide +kernel]
    simp [nameLe]
  · intro f hf
    simp only [List.mem_cons, List.not_mem_nil, or_false] at hf
    rcases hf with rfl | rfl
    · exact .inr ⟨bytes "077", 0, rfl, rfl⟩
    · exact .inl rfl

/-- **C49 is false for a list of files**, such as `gps/*` on the command line of `gem_make_inventory`: all logs of the instrument
are read, so that fixes of repeated conversions count several times. -/
theorem C49_violated_files (sn : List Nat) (h3 : sn.length = 3) (logs : List (Nat × List GpsRow)) :
    readGps (logs.map fun l => .file ⟨gpsLogName sn l.1, l.2⟩) sn = logs.flatMap Prod.snd := by
  unfold readGps
  rw [List.flatMap_map]
  congr 1
  funext l
  unfold gpsRowsOf gpsCandidates
  have : (gpsLogName sn l.1).take 3 = sn := by
    unfold gpsLogName
    rw [List.append_assoc, List.append_assoc, List.take_append_of_le_length (by omega), List.take_of_length_le (by omega)]
  simp [this]

example : readGps [.file ⟨bytes "077gps_000.txt", [⟨43, -116, 0⟩]⟩, .file ⟨bytes "077gps_001.txt", [⟨43, -116, 0⟩]⟩] (bytes "077") =
    [⟨43, -116, 0⟩, ⟨43, -116, 0⟩] := by
  decide +kernel

end Gemlog
