import Verif.Spec.RawDir
import Mathlib.Tactic.Linarith

/-!
# C39, C40: which files are read, and which exceptions are raised when there are none
-/

namespace Gemlog

/-! ## Names -/

theorem len3 {x : List Nat} (h : x.length = 3) : ∃ a b c, x = [a, b, c] := by
  match x, h with
  | [a, b, c], _ => exact ⟨a, b, c, rfl⟩

theorem isRawName_iff (s : List Nat) : isRawName s = true ↔ ∃ n ext, NamedRaw s n ext := by
  constructor
  · intro h
    unfold isRawName at h
    simp only [Bool.and_eq_true, decide_eq_true_eq] at h
    obtain ⟨⟨⟨h1, h2⟩, h3⟩, h4⟩ := h
    match s, h1 with
    | [f1, f2, f3, f4, a, b, c, d, p, x, y, z], _ =>
      simp only [List.take_succ_cons, List.take_zero, List.drop_succ_cons, List.drop_zero, List.all_cons, List.all_nil,
        Bool.and_true, Bool.and_eq_true, isDigit_iff] at h2 h3 h4
      obtain ⟨ha, hb, hc, hd⟩ := h3
      refine ⟨1000 * (a - 48) + 100 * (b - 48) + 10 * (c - 48) + (d - 48), [x, y, z], a - 48, b - 48, c - 48, d - 48,
        ?_, by omega, by omega, by omega, by omega, rfl, rfl⟩
      rw [show 48 + (a - 48) = a by omega, show 48 + (b - 48) = b by omega, show 48 + (c - 48) = c by omega,
        show 48 + (d - 48) = d by omega, ← h2, ← h4]
      rfl
  · rintro ⟨n, ext, a, b, c, d, rfl, ha, hb, hc, hd, _, h3⟩
    obtain ⟨x, y, z, rfl⟩ := len3 h3
    unfold isRawName
    simp only [Bool.and_eq_true, decide_eq_true_eq]
    refine ⟨⟨⟨rfl, rfl⟩, ?_⟩, rfl⟩
    show ([48 + a, 48 + b, 48 + c, 48 + d] : List Nat).all isDigit = true
    simp only [List.all_cons, List.all_nil, Bool.and_true, Bool.and_eq_true, isDigit_iff]
    omega

theorem NamedRaw.parts {s : List Nat} {n : Nat} {ext : List Nat} (h : NamedRaw s n ext) :
    fileNum s = n ∧ fileExt s = ext := by
  obtain ⟨a, b, c, d, rfl, ha, hb, hc, hd, hn, h3⟩ := h
  obtain ⟨x, y, z, rfl⟩ := len3 h3
  constructor
  · show ((digitsVal [48 + a, 48 + b, 48 + c, 48 + d] : Nat) : Int) = n
    simp only [digitsVal, List.foldl_cons, List.foldl_nil]
    omega
  · rfl

/-! ## Sorting -/

theorem nameLe_total : ∀ a b : List Nat, nameLe a b = false → nameLe b a = true
  | [], _, h => by simp [nameLe] at h
  | _ :: _, [], _ => rfl
  | a :: l, b :: m, h => by
    unfold nameLe at h ⊢
    simp only [Bool.or_eq_false_iff, Bool.and_eq_false_iff, decide_eq_false_iff_not, Bool.or_eq_true, Bool.and_eq_true,
      decide_eq_true_eq] at h ⊢
    rcases h with ⟨h1, h2 | h2⟩
    · left; omega
    · by_cases e : b < a
      · exact .inl e
      · exact .inr ⟨by omega, nameLe_total l m h2⟩

theorem nameLe_trans : ∀ a b c : List Nat, nameLe a b = true → nameLe b c = true → nameLe a c = true
  | [], _, _, _, _ => by simp [nameLe]
  | _ :: _, [], _, h, _ => by simp [nameLe] at h
  | _ :: _, _ :: _, [], _, h => by simp [nameLe] at h
  | a :: l, b :: m, c :: n, h1, h2 => by
    unfold nameLe at h1 h2 ⊢
    simp only [Bool.or_eq_true, Bool.and_eq_true, decide_eq_true_eq] at h1 h2 ⊢
    rcases h1 with h1 | ⟨h1, h1'⟩ <;> rcases h2 with h2 | ⟨h2, h2'⟩
    · left; omega
    · left; omega
    · left; omega
    · exact .inr ⟨by omega, nameLe_trans l m n h1' h2'⟩

theorem nameLe_antisymm : ∀ a b : List Nat, nameLe a b = true → nameLe b a = true → a = b
  | [], [], _, _ => rfl
  | [], _ :: _, _, h => by simp [nameLe] at h
  | _ :: _, [], h, _ => by simp [nameLe] at h
  | a :: l, b :: m, h1, h2 => by
    unfold nameLe at h1 h2
    simp only [Bool.or_eq_true, Bool.and_eq_true, decide_eq_true_eq] at h1 h2
    rcases h1 with h1 | ⟨h1, h1'⟩ <;> rcases h2 with h2 | ⟨h2, h2'⟩
    · omega
    · omega
    · omega
    · rw [h1, nameLe_antisymm l m h1' h2']

theorem insertEntry_perm (e : Entry) : ∀ l : List Entry, (insertEntry e l).Perm (e :: l)
  | [] => .refl _
  | f :: l => by
    unfold insertEntry
    split_ifs
    · exact .refl _
    · exact ((insertEntry_perm e l).cons f).trans (List.Perm.swap e f l)

theorem sortEntries_perm : ∀ l : List Entry, (sortEntries l).Perm l
  | [] => .refl _
  | e :: l => (insertEntry_perm e _).trans ((sortEntries_perm l).cons e)

theorem insertEntry_sorted (e : Entry) : ∀ l : List Entry, l.Pairwise (fun a b => nameLe a.name b.name = true) →
    (insertEntry e l).Pairwise (fun a b => nameLe a.name b.name = true)
  | [], _ => by simp [insertEntry]
  | f :: l, h => by
    rw [List.pairwise_cons] at h
    unfold insertEntry
    split_ifs with c
    · refine List.pairwise_cons.mpr ⟨?_, List.pairwise_cons.mpr h⟩
      intro b hb
      rcases List.mem_cons.mp hb with rfl | hb
      · exact c
      · exact nameLe_trans _ _ _ c (h.1 b hb)
    · refine List.pairwise_cons.mpr ⟨?_, insertEntry_sorted e l h.2⟩
      intro b hb
      rcases List.mem_cons.mp ((insertEntry_perm e l).mem_iff.mp hb) with rfl | hb
      · exact nameLe_total _ _ (by simpa using c)
      · exact h.1 b hb

theorem sortEntries_sorted : ∀ l : List Entry, (sortEntries l).Pairwise (fun a b => nameLe a.name b.name = true)
  | [] => .nil
  | e :: l => insertEntry_sorted e _ (sortEntries_sorted l)

/-- Names in order have numbers in order. -/
theorem nameLe_num {a b : List Nat} {m n : Nat} {x y : List Nat} (ha : NamedRaw a m x) (hb : NamedRaw b n y)
    (h : nameLe a b = true) : m < n ∨ (m = n ∧ nameLe x y = true) := by
  obtain ⟨a1, a2, a3, a4, rfl, _, _, _, _, rfl, h3⟩ := ha
  obtain ⟨b1, b2, b3, b4, rfl, _, _, _, _, rfl, h4⟩ := hb
  have b1' : bytes "FILE" = [70, 73, 76, 69] := by decide +kernel
  have b2' : bytes "." = [46] := by decide +kernel
  simp only [b1', b2', List.append_assoc, List.cons_append, List.nil_append] at h
  have e : ∀ (c : Nat) (l m : List Nat), nameLe (c :: l) (c :: m) = nameLe l m := by
    intro c l m
    rw [nameLe]
    simp
  rw [e, e, e, e] at h
  simp only [nameLe, Bool.or_eq_true, Bool.and_eq_true, decide_eq_true_eq] at h
  rcases h with h | ⟨h1, h | ⟨h2, h | ⟨h3, h | ⟨h4, h | ⟨_, h⟩⟩⟩⟩⟩
  · left; omega
  · left; omega
  · left; omega
  · left; omega
  · omega
  · right; exact ⟨by omega, h⟩

/-! ## C40 -/

theorem mem_findFiles (dir : List Entry) (SN : List Nat) (nums : List Int) (e : Entry) :
    e ∈ findFiles dir SN nums ↔ e ∈ dir ∧ isRawName e.name = true ∧ fileNum e.name ∈ nums ∧ slotSN e = SN ∧ e.size > 10 := by
  unfold findFiles
  simp only [List.mem_filter, (sortEntries_perm _).mem_iff, Bool.and_eq_true, decide_eq_true_eq]
  tauto

/-- **C40.** Exactly the right files are read: those of the directory that are called `FILEdddd.xxx` with a requested
number, are larger than 10 bytes, and whose extension is the serial number, or that are called `FILEdddd.TXT` and have
the serial number inside. Missing: serial numbers of more than three characters in `.TXT` files, which are cut off
(`C40_violated`), and the serial numbers `TXT` and `nan`. -/
theorem C40_selection_exact_partial (dir : List Entry) (SN : List Nat) (nums : List Int)
    (h1 : SN ≠ bytes "TXT") (h2 : SN ≠ bytes "nan") (hlen : ∀ e ∈ dir, ∀ s, e.sn = .str s → s.length ≤ 3) (e : Entry) :
    e ∈ findFiles dir SN nums ↔ e ∈ dir ∧ ∃ n ext, NamedRaw e.name n ext ∧ (n : Int) ∈ nums ∧ 10 < e.size ∧
      (ext = SN ∨ (ext = bytes "TXT" ∧ e.sn = .str SN)) := by
  rw [mem_findFiles]
  constructor
  · rintro ⟨hd, hr, hn, hs, hz⟩
    obtain ⟨n, ext, hN⟩ := (isRawName_iff _).mp hr
    obtain ⟨p1, p2⟩ := hN.parts
    refine ⟨hd, n, ext, hN, p1 ▸ hn, hz, ?_⟩
    unfold slotSN at hs
    rw [p2] at hs
    by_cases hT : ext = bytes "TXT"
    · rw [if_pos hT] at hs
      right
      refine ⟨hT, ?_⟩
      cases hsn : e.sn with
      | raises => rw [hsn] at hs; exact absurd (hs.symm.trans hT) h1
      | nan => rw [hsn] at hs; exact absurd hs.symm h2
      | str s =>
        rw [hsn] at hs
        simp only at hs
        rw [List.take_of_length_le (hlen e hd s hsn)] at hs
        rw [hs]
    · rw [if_neg hT] at hs
      exact .inl hs
  · rintro ⟨hd, n, ext, hN, hn, hz, hs⟩
    obtain ⟨p1, p2⟩ := hN.parts
    refine ⟨hd, (isRawName_iff _).mpr ⟨n, ext, hN⟩, p1 ▸ hn, ?_, hz⟩
    unfold slotSN
    rw [p2]
    rcases hs with rfl | ⟨hT, hs⟩
    · rw [if_neg h1]
    · rw [if_pos hT, hs]
      simp only
      exact List.take_of_length_le (hlen e hd SN hs)

/-- **C40, order.** The files are read in order of their numbers and none twice (no two files of a directory have the
same name). -/
theorem C40_ordered (dir : List Entry) (SN : List Nat) (nums : List Int) (hd : (dir.map Entry.name).Nodup) :
    (findFiles dir SN nums).Pairwise fun e f => ∀ m x n y, NamedRaw e.name m x → NamedRaw f.name n y →
      m ≤ n ∧ e.name ≠ f.name := by
  have hs : (findFiles dir SN nums).Sublist (sortEntries (dir.filter fun e => isRawName e.name)) := by
    unfold findFiles
    exact List.filter_sublist.trans List.filter_sublist
  have hn : ((sortEntries (dir.filter fun e => isRawName e.name)).map Entry.name).Nodup := by
    rw [List.Perm.nodup_iff ((sortEntries_perm _).map Entry.name)]
    exact hd.sublist (List.filter_sublist.map _)
  have hp : (sortEntries (dir.filter fun e => isRawName e.name)).Pairwise
      (fun a b => nameLe a.name b.name = true ∧ a.name ≠ b.name) :=
    List.pairwise_and_iff.mpr ⟨sortEntries_sorted _, List.pairwise_map.mp hn⟩
  refine (hp.sublist hs).imp ?_
  rintro e f ⟨h1, h2⟩ m x n y hm hn
  refine ⟨?_, h2⟩
  rcases nameLe_num hm hn h1 with h | ⟨h, _⟩ <;> omega

/-- A directory with seven files: two of the instrument, one too small, one of another instrument, one with another
number, one `.TXT` file of the instrument, one note. -/
def demoDir : List Entry :=
  [⟨bytes "FILE0003.012", 500, .str (bytes "012")⟩, ⟨bytes "FILE0001.012", 400, .raises⟩, ⟨bytes "FILE0002.012", 10, .nan⟩,
   ⟨bytes "FILE0001.013", 400, .str (bytes "013")⟩, ⟨bytes "FILE0009.012", 400, .str (bytes "012")⟩,
   ⟨bytes "FILE0002.TXT", 900, .str (bytes "012")⟩, ⟨bytes "notes.txt", 900, .raises⟩]

example : (findFiles demoDir (bytes "012") [0, 1, 2, 3, 4]).map Entry.name =
    [bytes "FILE0001.012", bytes "FILE0002.TXT", bytes "FILE0003.012"] ∧
    (demoDir.map Entry.name).Nodup ∧ (∀ e ∈ demoDir, ∀ s, e.sn = .str s → s.length ≤ 3) := by
  refine ⟨by decide +kernel, by decide +kernel, ?_⟩
  intro e he s hs
  simp only [demoDir, List.mem_cons, List.not_mem_nil, or_false] at he
  rcases he with rfl | rfl | rfl | rfl | rfl | rfl | rfl <;> simp at hs <;> subst hs <;> decide

/-- **C40, violated.** A `.TXT` file with the serial number `0123` inside is read as data of instrument `012`. This holds for
every longer number that starts with those of the instrument. -/
theorem C40_violated (SN more : List Nat) (h3 : SN.length = 3) (name : List Nat) (n : Nat)
    (hname : NamedRaw name n (bytes "TXT")) (size : Nat) (hsize : 10 < size) :
    (⟨name, size, .str (SN ++ more)⟩ : Entry) ∈ findFiles [⟨name, size, .str (SN ++ more)⟩] SN [n] := by
  rw [mem_findFiles]
  obtain ⟨p1, p2⟩ := hname.parts
  refine ⟨by simp, (isRawName_iff _).mpr ⟨n, _, hname⟩, by simp [p1], ?_, hsize⟩
  unfold slotSN
  simp only
  rw [if_pos p2, List.take_left' h3]

example : NamedRaw (bytes "FILE0042.TXT") 42 (bytes "TXT") ∧ (bytes "012").length = 3 :=
  ⟨⟨0, 0, 4, 2, by decide +kernel⟩, by decide +kernel⟩

/-! ## C39 -/

theorem insertNum_perm (n : Int) : ∀ l : List Int, (insertNum n l).Perm (n :: l)
  | [] => .refl _
  | m :: l => by
    unfold insertNum
    split_ifs
    · exact .refl _
    · exact ((insertNum_perm n l).cons m).trans (List.Perm.swap n m l)

theorem sortNums_perm : ∀ l : List Int, (sortNums l).Perm l
  | [] => .refl _
  | n :: l => (insertNum_perm n _).trans ((sortNums_perm l).cons n)

theorem insertNum_sorted (n : Int) : ∀ l : List Int, l.Pairwise (· ≤ ·) → (insertNum n l).Pairwise (· ≤ ·)
  | [], _ => by simp [insertNum]
  | m :: l, h => by
    rw [List.pairwise_cons] at h
    unfold insertNum
    split_ifs with c
    · refine List.pairwise_cons.mpr ⟨?_, List.pairwise_cons.mpr h⟩
      intro b hb
      rcases List.mem_cons.mp hb with rfl | hb
      · exact c
      · have := h.1 b hb; omega
    · refine List.pairwise_cons.mpr ⟨?_, insertNum_sorted n l h.2⟩
      intro b hb
      rcases List.mem_cons.mp ((insertNum_perm n l).mem_iff.mp hb) with rfl | hb
      · omega
      · exact h.1 b hb

theorem sortNums_sorted : ∀ l : List Int, (sortNums l).Pairwise (· ≤ ·)
  | [] => .nil
  | n :: l => insertNum_sorted n _ (sortNums_sorted l)

theorem mem_candidates (dir : List Entry) (SN : List Nat) (e : Entry) : e ∈ candidates dir SN ↔
    e ∈ dir ∧ ∃ n ext, NamedRaw e.name n ext ∧ (ext = SN ∨ ext = bytes "TXT") := by
  unfold candidates
  simp only [List.mem_append, List.mem_filter, Bool.and_eq_true, decide_eq_true_eq]
  constructor
  · rintro (⟨h1, h2, h3⟩ | ⟨h1, h2, h3⟩)
    · obtain ⟨n, ext, hN⟩ := (isRawName_iff _).mp h2
      exact ⟨h1, n, ext, hN, .inl (hN.parts.2 ▸ h3)⟩
    · obtain ⟨n, ext, hN⟩ := (isRawName_iff _).mp h2
      exact ⟨h1, n, ext, hN, .inr (hN.parts.2 ▸ h3)⟩
  · rintro ⟨h1, n, ext, hN, h | h⟩
    · exact .inl ⟨h1, (isRawName_iff _).mpr ⟨n, ext, hN⟩, hN.parts.2.trans h⟩
    · exact .inr ⟨h1, (isRawName_iff _).mpr ⟨n, ext, hN⟩, hN.parts.2.trans h⟩

/-- A file of the directory that `convert` takes for serial number `SN`, with its number: named for it or `.TXT`, with the
serial number inside, and requested (no request, or one that starts with NaN, means all). -/
def Wanted (dir : List Entry) (SN : List Nat) (nums : List (Option Int)) (n : Nat) : Prop :=
  ∃ e ∈ dir, ∃ ext, NamedRaw e.name n ext ∧ (ext = SN ∨ ext = bytes "TXT") ∧ e.sn = .str SN ∧
    (nums = [] ∨ nums.head? = some none ∨ some (n : Int) ∈ nums)

/-- Some file that could be of this instrument does not even have a readable serial number. -/
def UnreadableCandidate (dir : List Entry) (SN : List Nat) : Prop :=
  ∃ e ∈ dir, ∃ n ext, NamedRaw e.name n ext ∧ (ext = SN ∨ ext = bytes "TXT") ∧ e.sn = .raises

/-- **C39, convert.** For every directory and arguments exactly one of these holds: no directory or no raw file at all:
MissingRawFiles; otherwise a serial number that is not number-like or does not have three characters: the invalid
serial number exception; otherwise no wanted file: CorruptRawFile if some candidate is unreadable, else
MissingRawFiles; otherwise the numbers of exactly the wanted files, in increasing order. -/
theorem C39_convert_validation (isDir : Bool) (dir : List Entry) (SN : List Nat) (nums : List (Option Int)) :
    (isDir = false ∨ (∀ e ∈ dir, ∀ n ext, ¬NamedRaw e.name n ext) → convertNums isDir dir SN nums = .error .missingRaw) ∧
    (isDir = true → (∃ e ∈ dir, ∃ n ext, NamedRaw e.name n ext) →
      ((pyInt SN = none ∨ SN.length ≠ 3) → convertNums isDir dir SN nums = .error .other) ∧
      (∀ v, pyInt SN = some v → SN.length = 3 →
        ((∀ n, ¬Wanted dir SN nums n) → UnreadableCandidate dir SN → convertNums isDir dir SN nums = .error .corrupt) ∧
        ((∀ n, ¬Wanted dir SN nums n) → ¬UnreadableCandidate dir SN → convertNums isDir dir SN nums = .error .missingRaw) ∧
        ((∃ n, Wanted dir SN nums n) → ∃ ns, convertNums isDir dir SN nums = .ok ns ∧ ns.Pairwise (· ≤ ·) ∧
          ∀ k : Int, k ∈ ns ↔ ∃ n : Nat, k = n ∧ Wanted dir SN nums n))) := by
  have hraw : (dir.filter fun e => isRawName e.name).length = 0 ↔ ∀ e ∈ dir, ∀ n ext, ¬NamedRaw e.name n ext := by
    rw [List.length_eq_zero_iff, List.filter_eq_nil_iff]
    constructor
    · intro h e he n ext hN
      exact h e he ((isRawName_iff _).mpr ⟨n, ext, hN⟩)
    · intro h e he hr
      obtain ⟨n, ext, hN⟩ := (isRawName_iff _).mp hr
      exact h e he n ext hN
  constructor
  · intro h
    unfold convertNums
    by_cases hd : isDir = false
    · rw [if_pos hd]
    · rw [if_neg hd, if_pos (hraw.mpr (h.resolve_left hd))]
  intro hd hex
  have hne : ¬(dir.filter fun e => isRawName e.name).length = 0 := by
    rw [hraw]
    obtain ⟨e, he, n, ext, hN⟩ := hex
    intro h
    exact h e he n ext hN
  constructor
  · intro h
    unfold convertNums
    rw [if_neg (by simp [hd]), if_neg hne]
    by_cases c1 : (pyInt SN).isNone = true
    · rw [if_pos c1]
    · rw [if_neg c1, if_pos]
      rcases h with h | h
      · rw [h] at c1; exact absurd rfl c1
      · exact h
  intro v hv h3
  -- the list of numbers found
  obtain ⟨found, hfound⟩ : ∃ found : List Int, found =
      (if nums.length = 0 ∨ nums.head? = some none then
        ((candidates dir SN).filter fun e => decide (e.sn = .str SN)).map (fun e => fileNum e.name)
      else (((candidates dir SN).filter fun e => decide (e.sn = .str SN)).map (fun e => fileNum e.name)).filter
        fun n => decide (some n ∈ nums)) := ⟨_, rfl⟩
  have hres : convertNums isDir dir SN nums = if found.length = 0 then
      .error (if (candidates dir SN).any (fun e => decide (e.sn = .raises)) then .corrupt else .missingRaw)
      else .ok (sortNums found) := by
    rw [hfound]
    unfold convertNums
    rw [if_neg (by simp [hd]), if_neg hne, if_neg (by simp [hv]), if_neg (by simpa using h3)]
  have hmem : ∀ k : Int, k ∈ found ↔ ∃ n : Nat, k = n ∧ Wanted dir SN nums n := by
    intro k
    have hall : k ∈ ((candidates dir SN).filter fun e => decide (e.sn = .str SN)).map (fun e => fileNum e.name) ↔
        ∃ e ∈ dir, ∃ (n : Nat) (ext : List Nat), NamedRaw e.name n ext ∧ (ext = SN ∨ ext = bytes "TXT") ∧ e.sn = .str SN ∧ k = n := by
      rw [List.mem_map]
      constructor
      · rintro ⟨e, he, rfl⟩
        rw [List.mem_filter, mem_candidates, decide_eq_true_eq] at he
        obtain ⟨⟨he, n, ext, hN, hx⟩, hs⟩ := he
        exact ⟨e, he, n, ext, hN, hx, hs, hN.parts.1⟩
      · rintro ⟨e, he, n, ext, hN, hx, hs, rfl⟩
        refine ⟨e, ?_, hN.parts.1⟩
        rw [List.mem_filter, mem_candidates, decide_eq_true_eq]
        exact ⟨⟨he, n, ext, hN, hx⟩, hs⟩
    rw [hfound]
    split_ifs with c
    · rw [hall]
      constructor
      · rintro ⟨e, he, n, ext, hN, hx, hs, rfl⟩
        refine ⟨n, rfl, e, he, ext, hN, hx, hs, ?_⟩
        rcases c with c | c
        · exact .inl (List.length_eq_zero_iff.mp c)
        · exact .inr (.inl c)
      · rintro ⟨n, rfl, e, he, ext, hN, hx, hs, _⟩
        exact ⟨e, he, n, ext, hN, hx, hs, rfl⟩
    · rw [List.mem_filter, hall, decide_eq_true_eq]
      constructor
      · rintro ⟨⟨e, he, n, ext, hN, hx, hs, rfl⟩, hk⟩
        exact ⟨n, rfl, e, he, ext, hN, hx, hs, .inr (.inr hk)⟩
      · rintro ⟨n, rfl, e, he, ext, hN, hx, hs, hk⟩
        refine ⟨⟨e, he, n, ext, hN, hx, hs, rfl⟩, ?_⟩
        rcases hk with hk | hk | hk
        · exact absurd (.inl (by rw [hk]; rfl)) c
        · exact absurd (.inr hk) c
        · exact hk
  have hcor : (candidates dir SN).any (fun e => decide (e.sn = .raises)) = true ↔ UnreadableCandidate dir SN := by
    rw [List.any_eq_true]
    constructor
    · rintro ⟨e, he, hs⟩
      rw [mem_candidates] at he
      obtain ⟨he, n, ext, hN, hx⟩ := he
      exact ⟨e, he, n, ext, hN, hx, by simpa using hs⟩
    · rintro ⟨e, he, n, ext, hN, hx, hs⟩
      exact ⟨e, (mem_candidates _ _ _).mpr ⟨he, n, ext, hN, hx⟩, by simpa using hs⟩
  have hnil : (∀ n, ¬Wanted dir SN nums n) → found.length = 0 := by
    intro h
    rw [List.length_eq_zero_iff, List.eq_nil_iff_forall_not_mem]
    intro k hk
    obtain ⟨n, _, hw⟩ := (hmem k).mp hk
    exact h n hw
  refine ⟨?_, ?_, ?_⟩
  · intro h hu
    rw [hres, if_pos (hnil h), if_pos (hcor.mpr hu)]
  · intro h hu
    rw [hres, if_pos (hnil h), if_neg (by rw [hcor]; exact hu)]
  · rintro ⟨n, hw⟩
    refine ⟨sortNums found, ?_, sortNums_sorted _, ?_⟩
    · rw [hres, if_neg]
      intro h
      rw [List.length_eq_zero_iff] at h
      have := (hmem n).mpr ⟨n, rfl, hw⟩
      rw [h] at this
      exact absurd this (by simp)
    · intro k
      rw [(sortNums_perm _).mem_iff, hmem]

/-- **C39, serial numbers.** Every text of three digits is a valid serial number; a text with a character other than digits,
signs, underscores and white space is not. -/
theorem C39_serial_numbers (SN : List Nat) :
    (SN.length = 3 → (∀ c ∈ SN, 48 ≤ c ∧ c ≤ 57) → ∃ v, pyInt SN = some v ∧ 0 ≤ v ∧ v ≤ 999) ∧
    ((∃ c ∈ SN, ¬(48 ≤ c ∧ c ≤ 57) ∧ c ≠ 43 ∧ c ≠ 45 ∧ c ≠ 95 ∧ c ≠ 32 ∧ ¬(9 ≤ c ∧ c ≤ 13)) → pyInt SN = none) := by
  constructor
  · intro h3 hd
    obtain ⟨a, b, c, rfl⟩ := len3 h3
    have ha := hd a (by simp)
    have hb := hd b (by simp)
    have hc := hd c (by simp)
    have hD : ∀ x ∈ [a, b, c], isDigit x = true := fun x hx => isDigit_iff.mpr (hd x hx)
    have hst : strip [a, b, c] = [a, b, c] := by
      have := strip_of (s := [a, b, c]) (a := a) (z := c) (l := [b, c]) rfl rfl (digit_notSpace (hD a (by simp)))
        (digit_notSpace (hD c (by simp))) [] (by simp)
      simpa using this
    refine ⟨(digitsVal [a, b, c] : Int), ?_, by omega, ?_⟩
    · unfold pyInt
      rw [hst, scanSign_of_ge ha.1]
      simp only
      rw [if_pos (groupedDigits_of _ (by simp) hD), filter_digits hD]
      simp
    · simp only [digitsVal, List.foldl_cons, List.foldl_nil]
      omega
  · rintro ⟨c, hc, h1, h2, h3, h4, h5, h6⟩
    have hdrop : ∀ l : List Nat, c ∈ l → c ∈ l.dropWhile isSpace := by
      intro l
      induction l with
      | nil => intro h; simp at h
      | cons b l ih =>
        intro h
        by_cases hb : isSpace b = true
        · rw [List.dropWhile_cons_of_pos hb]
          rcases List.mem_cons.mp h with rfl | h
          · simp only [isSpace, Bool.or_eq_true, Bool.and_eq_true, decide_eq_true_eq] at hb
            omega
          · exact ih h
        · rw [List.dropWhile_cons_of_neg hb]
          exact h
    have hstrip : c ∈ strip SN := by
      unfold strip
      rw [List.mem_reverse]
      apply hdrop
      rw [List.mem_reverse]
      exact hdrop _ hc
    have hsign : c ∈ (scanSign (strip SN)).2 := by
      cases hs : strip SN with
      | nil => rw [hs] at hstrip; simp at hstrip
      | cons b l =>
        rw [hs] at hstrip
        unfold scanSign
        split
        · rename_i h; rw [List.cons.injEq] at h; obtain ⟨rfl, rfl⟩ := h
          exact (List.mem_cons.mp hstrip).resolve_left h3
        · rename_i h; rw [List.cons.injEq] at h; obtain ⟨rfl, rfl⟩ := h
          exact (List.mem_cons.mp hstrip).resolve_left h2
        · exact hstrip
    have hgrp : ∀ l : List Nat, groupedDigits l = true → ∀ x ∈ l, isDigit x = true ∨ x = 95 := by
      intro l
      induction l using groupedDigits.induct with
      | case1 => intro h; simp [groupedDigits] at h
      | case2 b => intro h x hx; left; rw [List.mem_singleton.mp hx]; simpa [groupedDigits] using h
      | case3 b l ih =>
        intro h x hx
        rw [groupedDigits, Bool.and_eq_true] at h
        rcases List.mem_cons.mp hx with rfl | hx
        · exact .inl h.1
        · rcases List.mem_cons.mp hx with rfl | hx
          · exact .inr rfl
          · exact ih h.2 x hx
      | case4 b c l hne ih =>
        intro h x hx
        rw [groupedDigits, Bool.and_eq_true] at h
        · rcases List.mem_cons.mp hx with rfl | hx
          · exact .inl h.1
          · exact ih h.2 x hx
        · exact hne
    unfold pyInt
    simp only
    rw [if_neg]
    intro h
    rcases hgrp _ h c hsign with h | h
    · exact h1 (isDigit_iff.mp h)
    · exact h4 h

example : convertNums true demoDir (bytes "012") [none] = .ok [2, 3, 9] ∧
    convertNums true demoDir (bytes "077") [] = .error .missingRaw ∧
    convertNums true demoDir (bytes "012") [some 1] = .error .corrupt ∧
    convertNums true demoDir (bytes "12") [] = .error .other ∧
    convertNums true demoDir (bytes "0x1") [] = .error .other ∧
    convertNums false demoDir (bytes "012") [] = .error .missingRaw ∧
    convertNums true [⟨bytes "notes.txt", 900, .raises⟩] (bytes "012") [] = .error .missingRaw := by
  decide +kernel

end Gemlog
