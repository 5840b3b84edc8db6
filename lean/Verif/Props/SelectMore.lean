import Verif.Props.Select

/-!
# C40: the files read, whatever the serial numbers
-/

namespace Gemlog

/-- **C40, whatever the serial number.** Exactly these files of the directory are read: called `FILEdddd.xxx` with a requested number, larger than 10 bytes, and with the serial number as
extension, or called `FILEdddd.TXT` with a serial number inside that begins with, and if it has at most three characters is, the given one. Besides, `.TXT` files with an empty serial number are
read for the serial number `nan`, and those without one for `TXT`. -/
theorem C40_selection (dir : List Entry) (SN : List Nat) (nums : List Int) (e : Entry) :
    e ∈ findFiles dir SN nums ↔ e ∈ dir ∧ ∃ n ext, NamedRaw e.name n ext ∧ (n : Int) ∈ nums ∧ 10 < e.size ∧
      ((ext ≠ bytes "TXT" ∧ ext = SN) ∨
        (ext = bytes "TXT" ∧ ((∃ s, e.sn = .str s ∧ s.take 3 = SN) ∨ (e.sn = .nan ∧ SN = bytes "nan") ∨ (e.sn = .raises ∧ SN = bytes "TXT")))) := by
  rw [mem_findFiles]
  have key : ∀ n ext, NamedRaw e.name n ext → (slotSN e = SN ↔ ((ext ≠ bytes "TXT" ∧ ext = SN) ∨
      (ext = bytes "TXT" ∧ ((∃ s, e.sn = .str s ∧ s.take 3 = SN) ∨ (e.sn = .nan ∧ SN = bytes "nan") ∨ (e.sn = .raises ∧ SN = bytes "TXT"))))) := by
    intro n ext hN
    unfold slotSN
    rw [hN.parts.2]
    by_cases hT : ext = bytes "TXT"
    · rw [if_pos hT]
      cases hsn : e.sn with
      | raises => simp [hT, eq_comm]
      | nan => simp [hT, eq_comm]
      | str s => simp [hT]
    · rw [if_neg hT]
      simp [hT]
  constructor
  · rintro ⟨hd, hr, hn, hs, hz⟩
    obtain ⟨n, ext, hN⟩ := (isRawName_iff _).mp hr
    exact ⟨hd, n, ext, hN, hN.parts.1 ▸ hn, hz, (key n ext hN).mp hs⟩
  · rintro ⟨hd, n, ext, hN, hn, hz, hs⟩
    exact ⟨hd, (isRawName_iff _).mpr ⟨n, ext, hN⟩, hN.parts.1 ▸ hn, (key n ext hN).mpr hs, hz⟩

theorem namedRaw_ext {name : List Nat} {n : Nat} {ext : List Nat} (h : NamedRaw name n ext) : ext.length = 3 := by
  obtain ⟨_, _, _, _, _, _, _, _, _, _, h3⟩ := h
  exact h3

/-- **C40 is violated for longer serial numbers.** For a serial number of more than three characters no file is ever read, whatever is in the directory. -/
theorem C40_violated_long (dir : List Entry) (SN : List Nat) (nums : List Int) (h : 3 < SN.length) : findFiles dir SN nums = [] := by
  apply List.eq_nil_iff_forall_not_mem.mpr
  intro e he
  obtain ⟨-, n, ext, hN, -, -, hs⟩ := (C40_selection dir SN nums e).mp he
  rcases hs with ⟨-, rfl⟩ | ⟨-, ⟨s, -, rfl⟩ | ⟨-, rfl⟩ | ⟨-, rfl⟩⟩
  · have := namedRaw_ext hN
    omega
  · rw [List.length_take] at h
    omega
  · revert h; decide
  · revert h; decide

example : (findFiles [⟨bytes "FILE0002.TXT", 900, .str (bytes "1012")⟩, ⟨bytes "FILE0003.TXT", 900, .raises⟩] (bytes "101") [2, 3]).map Entry.name =
    [bytes "FILE0002.TXT"] ∧ 3 < (bytes "1012").length := by decide +kernel

end Gemlog
