import Verif.Props.SelectMore
import Verif.Model.ReadGem

/-!
# C125: what else is in the raw folder, and when, has no effect
-/

namespace Gemlog

/-- A raw file with number `n` that counts for an instrument: called `FILEdddd.SN`, or `FILEdddd.TXT` with this serial number inside (of which the
first three characters count). -/
def OwnFile (SN : List Nat) (n : Int) (e : Entry) : Prop :=
  ∃ m ext, NamedRaw e.name m ext ∧ n = m ∧ (ext = SN ∨ (ext = bytes "TXT" ∧ ∃ s, e.sn = .str s ∧ s.take 3 = SN))

/-- Two contents of a folder with the same files of an instrument for the given file numbers. No folder has two files of the same
name. -/
def SameOwn (SN : List Nat) (nums : Int → Prop) (dir dir' : List Entry) : Prop :=
  (dir.map Entry.name).Nodup ∧ (dir'.map Entry.name).Nodup ∧ ∀ n e, nums n → OwnFile SN n e → (e ∈ dir ↔ e ∈ dir')

/-- core.py:131-335 `convert`, when the raw folder changes during the conversion: `dir` at the beginning, `dirAt block` when the files
with the numbers of the block are looked for. -/
def convertDuring (env : Env) (dir : List Entry) (dirAt : List Int → List Entry) (SN : List Nat) (nums : List (Option Int))
    (blockdays : Rat) (L : Int) (t1 : Option Int) (t2 : Int) (fuel : Nat) : Run CState :=
  match convertNums true dir SN nums with
  | .error x => .raised x []
  | .ok ns => convertLoops ⟨ns, blockdays, L, t2, fun block => (readGem env (dirAt block) SN block true).map GemData.stream⟩ t1 fuel

theorem pyInt_SN {SN : List Nat} (h : (pyInt SN).isSome) : SN ≠ bytes "nan" ∧ SN ≠ bytes "TXT" := by
  constructor <;> rintro rfl <;> revert h <;> decide +kernel

theorem mem_findFiles_own {dir : List Entry} {SN : List Nat} {nums : List Int} (h1 : SN ≠ bytes "nan") (h2 : SN ≠ bytes "TXT") (e : Entry) :
    e ∈ findFiles dir SN nums ↔ e ∈ dir ∧ 10 < e.size ∧ ∃ n, n ∈ nums ∧ OwnFile SN n e := by
  rw [C40_selection]
  constructor
  · rintro ⟨hd, n, ext, hN, hn, hz, h⟩
    refine ⟨hd, hz, n, hn, n, ext, hN, rfl, ?_⟩
    rcases h with h | ⟨hT, h | h | h⟩
    · exact .inl h.2
    · exact .inr ⟨hT, h⟩
    · exact absurd h.2 h1
    · exact absurd h.2 h2
  · rintro ⟨hd, hz, n, hn, m, ext, hN, rfl, h⟩
    refine ⟨hd, m, ext, hN, hn, hz, ?_⟩
    rcases h with h | ⟨hT, h⟩
    · exact .inl ⟨h ▸ h2, h⟩
    · exact .inr ⟨hT, .inl h⟩

theorem findFiles_sorted (dir : List Entry) (SN : List Nat) (nums : List Int) (hd : (dir.map Entry.name).Nodup) :
    (findFiles dir SN nums).Pairwise (fun a b => nameLe a.name b.name = true ∧ a.name ≠ b.name) := by
  have hs : (findFiles dir SN nums).Sublist (sortEntries (dir.filter fun e => isRawName e.name)) := by
    unfold findFiles
    exact List.filter_sublist.trans List.filter_sublist
  have hn : ((sortEntries (dir.filter fun e => isRawName e.name)).map Entry.name).Nodup := by
    rw [List.Perm.nodup_iff ((sortEntries_perm _).map Entry.name)]
    exact hd.sublist (List.filter_sublist.map _)
  exact (List.pairwise_and_iff.mpr ⟨sortEntries_sorted _, List.pairwise_map.mp hn⟩).sublist hs

theorem findFiles_same {SN : List Nat} {nums : List Int} {dir dir' : List Entry} (h1 : SN ≠ bytes "nan") (h2 : SN ≠ bytes "TXT")
    (h : SameOwn SN (· ∈ nums) dir dir') : findFiles dir SN nums = findFiles dir' SN nums := by
  obtain ⟨hd, hd', hm⟩ := h
  have s := findFiles_sorted dir SN nums hd
  have s' := findFiles_sorted dir' SN nums hd'
  have n : (findFiles dir SN nums).Nodup := s.imp (by rintro a b ⟨_, h⟩ rfl; exact h rfl)
  have n' : (findFiles dir' SN nums).Nodup := s'.imp (by rintro a b ⟨_, h⟩ rfl; exact h rfl)
  have hp : (findFiles dir SN nums).Perm (findFiles dir' SN nums) := by
    rw [List.perm_ext_iff_of_nodup n n']
    intro e
    rw [mem_findFiles_own h1 h2, mem_findFiles_own h1 h2]
    constructor
    · rintro ⟨a, b, k, c, d⟩
      exact ⟨(hm k e c d).mp a, b, k, c, d⟩
    · rintro ⟨a, b, k, c, d⟩
      exact ⟨(hm k e c d).mpr a, b, k, c, d⟩
  exact hp.eq_of_pairwise (le := fun a b => nameLe a.name b.name = true ∧ a.name ≠ b.name)
    (fun a b _ _ x y => absurd (nameLe_antisymm _ _ x.1 y.1) x.2) s s'

theorem sortNums_eq_of_perm {l l' : List Int} (h : l.Perm l') : sortNums l = sortNums l' :=
  (((sortNums_perm l).trans h).trans (sortNums_perm l').symm).eq_of_pairwise (le := (· ≤ ·)) (fun _ _ _ _ x y => le_antisymm x y)
    (sortNums_sorted l) (sortNums_sorted l')

theorem mine_perm {SN : List Nat} {dir dir' : List Entry} (h2 : SN ≠ bytes "TXT") (h3 : SN.length = 3) (h : SameOwn SN (fun _ => True) dir dir') :
    ((candidates dir SN).filter fun e => decide (e.sn = .str SN)).Perm ((candidates dir' SN).filter fun e => decide (e.sn = .str SN)) := by
  obtain ⟨hd, hd', hm⟩ := h
  have nod : ∀ d : List Entry, (d.map Entry.name).Nodup → ((candidates d SN).filter fun e => decide (e.sn = .str SN)).Nodup := by
    intro d hd
    apply List.Nodup.filter
    have hn : d.Nodup := List.Nodup.of_map _ hd
    unfold candidates
    rw [List.nodup_append]
    refine ⟨hn.filter _, hn.filter _, ?_⟩
    intro a ha b hb hab
    subst hab
    simp only [List.mem_filter, Bool.and_eq_true, decide_eq_true_eq] at ha hb
    exact h2 (ha.2.2.symm.trans hb.2.2)
  rw [List.perm_ext_iff_of_nodup (nod dir hd) (nod dir' hd')]
  intro e
  have key : ∀ d : List Entry, e ∈ ((candidates d SN).filter fun e => decide (e.sn = .str SN)) ↔
      e ∈ d ∧ (isRawName e.name = true ∧ (fileExt e.name = SN ∨ fileExt e.name = bytes "TXT") ∧ e.sn = .str SN) := by
    intro d
    unfold candidates
    simp only [List.mem_filter, List.mem_append, Bool.and_eq_true, decide_eq_true_eq]
    tauto
  rw [key, key]
  apply and_congr_left
  rintro ⟨hr, hx, hs⟩
  obtain ⟨m, ext, hN⟩ := (isRawName_iff _).mp hr
  apply hm m e trivial
  refine ⟨m, ext, hN, rfl, ?_⟩
  rw [hN.parts.2] at hx
  rcases hx with hx | hx
  · exact .inl hx
  · exact .inr ⟨hx, SN, hs, List.take_of_length_le (by omega)⟩

/-- **C125, the numbers.** The files that `convert` sets out to convert are the same for folders with the same files of the instrument. -/
theorem convertNums_same {SN : List Nat} {nums : List (Option Int)} {dir dir' : List Entry} {ns : List Int}
    (h : SameOwn SN (fun _ => True) dir dir') (hok : convertNums true dir SN nums = .ok ns) : convertNums true dir' SN nums = .ok ns := by
  unfold convertNums at hok
  simp only [Bool.true_eq_false, if_false] at hok
  by_cases c1 : (dir.filter fun e => isRawName e.name).length = 0
  · rw [if_pos c1] at hok; cases hok
  by_cases c2 : (pyInt SN).isNone = true
  · rw [if_neg c1, if_pos c2] at hok; cases hok
  by_cases c3 : SN.length ≠ 3
  · rw [if_neg c1, if_neg c2, if_pos c3] at hok; cases hok
  rw [if_neg c1, if_neg c2, if_neg c3] at hok
  have hint : (pyInt SN).isSome := by
    cases hp : pyInt SN with
    | none => rw [hp] at c2; simp at c2
    | some n => rfl
  have hp := mine_perm (pyInt_SN hint).2 (by simpa using c3) h
  generalize hM : ((candidates dir SN).filter fun e => decide (e.sn = .str SN)) = M at hp hok
  generalize hM' : ((candidates dir' SN).filter fun e => decide (e.sn = .str SN)) = M' at hp
  have hp2 := hp.map fun e => fileNum e.name
  have hfound : (if nums.length = 0 ∨ nums.head? = some none then M.map fun e => fileNum e.name
        else (M.map fun e => fileNum e.name).filter fun n => decide (some n ∈ nums)).Perm
      (if nums.length = 0 ∨ nums.head? = some none then M'.map fun e => fileNum e.name
        else (M'.map fun e => fileNum e.name).filter fun n => decide (some n ∈ nums)) := by
    split_ifs
    · exact hp2
    · exact hp2.filter _
  have hnil : M = [] → (if nums.length = 0 ∨ nums.head? = some none then M.map fun e => fileNum e.name
        else (M.map fun e => fileNum e.name).filter fun n => decide (some n ∈ nums)) = [] := by
    rintro rfl
    simp
  generalize (if nums.length = 0 ∨ nums.head? = some none then M.map fun e => fileNum e.name
        else (M.map fun e => fileNum e.name).filter fun n => decide (some n ∈ nums)) = F at hok hfound hnil
  by_cases c5 : F.length = 0
  · rw [if_pos c5] at hok; cases hok
  rw [if_neg c5, Except.ok.injEq] at hok
  have hne : (dir'.filter fun e => isRawName e.name).length ≠ 0 := by
    intro h0
    have hMne : M ≠ [] := fun h => c5 (by rw [hnil h]; rfl)
    obtain ⟨e, he⟩ := List.exists_mem_of_ne_nil _ hMne
    have he' := hp.mem_iff.mp he
    rw [← hM'] at he'
    unfold candidates at he'
    simp only [List.mem_filter, List.mem_append, Bool.and_eq_true, decide_eq_true_eq] at he'
    rw [List.length_eq_zero_iff, List.filter_eq_nil_iff] at h0
    rcases he'.1 with h1 | h1
    · exact h0 e h1.1 h1.2.1
    · exact h0 e h1.1 h1.2.1
  unfold convertNums
  simp only [Bool.true_eq_false, if_false]
  rw [if_neg hne, if_neg c2, if_neg c3, hM', if_neg (by rw [← hfound.length_eq]; exact c5), ← sortNums_eq_of_perm hfound, hok]

/-- **C125, reading.** `read_gem` gives the same result for two contents of the folder with the same files of the instrument for the numbers asked for. -/
theorem C125_read_gem (env : Env) (SN : List Nat) (h1 : SN ≠ bytes "nan") (h2 : SN ≠ bytes "TXT") (nums : List Int) (rg : Bool) (dir dir' : List Entry)
    (h : SameOwn SN (· ∈ nums) dir dir') : readGem env dir SN nums rg = readGem env dir' SN nums rg := by
  unfold readGem
  rw [findFiles_same h1 h2 h]

/-- **C125.** Let the folder have, at the beginning of the conversion, the same files of the instrument as `dir`, and whenever files are looked for, the same
files of the instrument with the numbers looked for; in all other respects it may differ from `dir`, and change at any time. If there are files to convert in `dir`, then the conversion
does and writes the same as that of `dir`. If there are none, both fail before anything is written. -/
theorem C125_other_files (env : Env) (SN : List Nat) (nums : List (Option Int)) (dir dir0 : List Entry) (dirAt : List Int → List Entry)
    (h0 : SameOwn SN (fun _ => True) dir dir0) (hat : ∀ block, SameOwn SN (· ∈ block) dir (dirAt block))
    (blockdays : Rat) (L : Int) (t1 : Option Int) (t2 : Int) (fuel : Nat) :
    ((∃ ns, convertNums true dir SN nums = .ok ns) →
      convertDuring env dir0 dirAt SN nums blockdays L t1 t2 fuel = convertDir env true dir SN nums blockdays L t1 t2 fuel) ∧
    ((¬∃ ns, convertNums true dir SN nums = .ok ns) →
      (∃ x, convertDuring env dir0 dirAt SN nums blockdays L t1 t2 fuel = .raised x []) ∧
      ∃ x, convertDir env true dir SN nums blockdays L t1 t2 fuel = .raised x []) := by
  constructor
  · rintro ⟨ns, hns⟩
    have hns0 := convertNums_same h0 hns
    have hint : (pyInt SN).isSome := by
      unfold convertNums at hns
      simp only [Bool.true_eq_false, if_false] at hns
      cases hp : pyInt SN with
      | none => rw [hp] at hns; simp at hns; split_ifs at hns
      | some n => rfl
    obtain ⟨g1, g2⟩ := pyInt_SN hint
    unfold convertDuring convertDir
    rw [hns, hns0]
    dsimp only
    unfold jobOf
    congr 2
    funext block
    rw [C125_read_gem env SN g1 g2 block true _ _ (hat block)]
  · intro hno
    constructor
    · unfold convertDuring
      cases hc : convertNums true dir0 SN nums with
      | error x => exact ⟨x, rfl⟩
      | ok ns => exact absurd ⟨ns, convertNums_same ⟨h0.2.1, h0.1, fun n e a b => (h0.2.2 n e a b).symm⟩ hc⟩ hno
    · unfold convertDir
      cases hc : convertNums true dir SN nums with
      | error x => exact ⟨x, rfl⟩
      | ok ns => exact absurd ⟨ns, hc⟩ hno

/-- Two files of the instrument 059. -/
def ownFolder : List Entry := [⟨bytes "FILE0000.059", 100, .str (bytes "059")⟩, ⟨bytes "FILE0001.TXT", 100, .str (bytes "059")⟩]

/-- The same, in another order, with files of another instrument, notes, and an unreadable file. -/
def fullFolder : List Entry := [⟨bytes "FILE0001.TXT", 100, .str (bytes "059")⟩, ⟨bytes "FILE0000.061", 100, .str (bytes "061")⟩,
  ⟨bytes "notes.txt", 5, .raises⟩, ⟨bytes "FILE0007.TXT", 50, .raises⟩, ⟨bytes "FILE0000.059", 100, .str (bytes "059")⟩]

/-- Later a third file of the instrument arrives. -/
def laterFolder : List Entry := ⟨bytes "FILE0002.059", 100, .str (bytes "059")⟩ :: fullFolder

theorem ownFile_check {e : Entry} {n : Int} (h : OwnFile (bytes "059") n e) : slotSN e = bytes "059" ∧ fileNum e.name = n := by
  obtain ⟨m, ext, hN, rfl, h⟩ := h
  refine ⟨?_, hN.parts.1⟩
  unfold slotSN
  rw [hN.parts.2]
  rcases h with rfl | ⟨rfl, s, hs, h3⟩
  · rw [if_neg (by decide +kernel)]
  · rw [if_pos rfl, hs]
    exact h3

theorem folders_same : SameOwn (bytes "059") (fun _ => True) ownFolder fullFolder ∧
    ∀ block : List Int, (∀ n ∈ block, n < 2) → SameOwn (bytes "059") (· ∈ block) ownFolder laterFolder := by
  have key : ∀ l : List Entry, (∀ e ∈ l, slotSN e = bytes "059" → fileNum e.name < 2 → e ∈ ownFolder) → (∀ e ∈ ownFolder, e ∈ l) → ∀ n e, n < 2 →
      OwnFile (bytes "059") n e → (e ∈ ownFolder ↔ e ∈ l) := by
    intro l h1 h2 n e hn ho
    obtain ⟨a, b⟩ := ownFile_check ho
    exact ⟨h2 e, fun h => h1 e h a (b ▸ hn)⟩
  refine ⟨⟨by decide +kernel, by decide +kernel, ?_⟩, ?_⟩
  · intro n e _ ho
    obtain ⟨a, _⟩ := ownFile_check ho
    have h1 : ∀ e ∈ fullFolder, slotSN e = bytes "059" → e ∈ ownFolder := by decide +kernel
    have h2 : ∀ e ∈ ownFolder, e ∈ fullFolder := by decide +kernel
    exact ⟨h2 e, fun h => h1 e h a⟩
  · intro block hb
    exact ⟨by decide +kernel, by decide +kernel, fun n e hn ho => key _ (by decide +kernel) (by decide +kernel) n e (hb n hn) ho⟩

/-- There are files to convert. -/
example : ∃ ns, convertNums true ownFolder (bytes "059") [] = .ok ns := by
  refine ⟨[0, 1], ?_⟩
  decide +kernel

example (env : Env) (L : Int) (t2 : Int) (fuel : Nat) :
    convertDuring env fullFolder (fun block => if ∀ n ∈ block, n < 2 then laterFolder else ownFolder) (bytes "059") [] 1 L none t2 fuel =
      convertDir env true ownFolder (bytes "059") [] 1 L none t2 fuel :=
  (C125_other_files env (bytes "059") [] ownFolder fullFolder _ folders_same.1 (by
    intro block
    split_ifs with h
    · exact folders_same.2 block h
    · exact ⟨by decide +kernel, by decide +kernel, fun _ _ _ _ => Iff.rfl⟩) 1 L none t2 fuel).1 ⟨[0, 1], by decide +kernel⟩

end Gemlog
