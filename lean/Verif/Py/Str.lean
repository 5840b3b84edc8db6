import Verif.Py.Scan

/-!
# Decimal printing

`natStr` models Python `str(n)` / C `%d` for non-negative integers, as a list of ASCII codes.
-/

namespace Gemlog

/-- Worker for `natStr`; the first argument is fuel (never exhausted for `natStr`). -/
def natStrAux : Nat → Nat → List Nat → List Nat
  | 0, _, acc => acc
  | f + 1, n, acc =>
    if n < 10 then (48 + n) :: acc else natStrAux f (n / 10) ((48 + n % 10) :: acc)

/-- Decimal representation of a natural number. -/
def natStr (n : Nat) : List Nat := natStrAux (n + 1) n []

/-- Decimal representation of an integer. -/
def intStr (z : Int) : List Nat := if z < 0 then 45 :: natStr z.natAbs else natStr z.natAbs

/-- Left-pad with '0' to width `w` (Python `f'{n:0w}'` for `n ≥ 0`). -/
def zeroPad (w : Nat) (l : List Nat) : List Nat := List.replicate (w - l.length) 48 ++ l

theorem digitsVal_append (a b : List Nat) :
    digitsVal (a ++ b) = digitsVal a * 10 ^ b.length + digitsVal b := by
  have h : ∀ (b : List Nat) (x : Nat), b.foldl (fun a b => 10 * a + (b - 48)) x
      = x * 10 ^ b.length + b.foldl (fun a b => 10 * a + (b - 48)) 0 := by
    intro b
    induction b with
    | nil => intro x; simp
    | cons c b ih =>
      intro x
      simp only [List.foldl_cons, List.length_cons]
      rw [ih, ih (10 * 0 + (c - 48))]
      rw [pow_succ]; ring
  unfold digitsVal
  rw [List.foldl_append, h]

theorem natStrAux_spec : ∀ (f n : Nat) (acc : List Nat), n < f →
    ∃ ds, natStrAux f n acc = ds ++ acc ∧ ds ≠ [] ∧ (∀ d ∈ ds, isDigit d = true) ∧
      digitsVal ds = n := by
  intro f
  induction f with
  | zero => intro n acc h; omega
  | succ f ih =>
    intro n acc h
    simp only [natStrAux]
    split_ifs with h10
    · refine ⟨[48 + n], by simp, by simp, ?_, by simp [digitsVal]⟩
      intro d hd; simp at hd; subst hd; simp [isDigit]; omega
    · obtain ⟨ds, h1, h2, h3, h4⟩ := ih (n / 10) ((48 + n % 10) :: acc) (by omega)
      refine ⟨ds ++ [48 + n % 10], by rw [h1]; simp, by simp, ?_, ?_⟩
      · intro d hd
        rcases List.mem_append.mp hd with hd | hd
        · exact h3 d hd
        · simp at hd; subst hd; simp [isDigit]; omega
      · rw [digitsVal_append, h4]; simp [digitsVal]; omega

theorem natStr_spec (n : Nat) : natStr n ≠ [] ∧ (∀ d ∈ natStr n, isDigit d = true) ∧
    digitsVal (natStr n) = n := by
  obtain ⟨ds, h1, h2, h3, h4⟩ := natStrAux_spec (n + 1) n [] (by omega)
  have : natStr n = ds := by unfold natStr; rw [h1]; simp
  rw [this]; exact ⟨h2, h3, h4⟩

theorem natStr_ne_nil (n : Nat) : natStr n ≠ [] := (natStr_spec n).1
theorem natStr_digits (n : Nat) : ∀ d ∈ natStr n, isDigit d = true := (natStr_spec n).2.1
theorem digitsVal_natStr (n : Nat) : digitsVal (natStr n) = n := (natStr_spec n).2.2

theorem natStr_injective {a b : Nat} (h : natStr a = natStr b) : a = b := by
  rw [← digitsVal_natStr a, h, digitsVal_natStr]

example : natStr 2040 = bytes "2040" := by decide +kernel
example : intStr (-17) = bytes "-17" := by decide +kernel
example : zeroPad 3 (natStr 7) = bytes "007" := by decide +kernel

/-! ## Scanning printed numbers -/

theorem takeWhile_digits {ds rest : List Nat} (h : ∀ d ∈ ds, isDigit d = true)
    (hr : ∀ b ∈ rest.head?, isDigit b = false) :
    (ds ++ rest).takeWhile isDigit = ds ∧ (ds ++ rest).dropWhile isDigit = rest := by
  induction ds with
  | nil =>
    cases rest with
    | nil => simp
    | cons b r => simp [hr b (by simp)]
  | cons d ds ih =>
    have hd := h d (by simp)
    have := ih (fun x hx => h x (by simp [hx]))
    simp [hd, this]

theorem isDigit_iff {b : Nat} : isDigit b = true ↔ 48 ≤ b ∧ b ≤ 57 := by simp [isDigit]

theorem scanSign_of_ge {b : Nat} {l : List Nat} (h : 48 ≤ b) :
    scanSign (b :: l) = (false, b :: l) := by
  unfold scanSign
  split
  · rename_i h2; simp at h2; omega
  · rename_i h2; simp at h2; omega
  · rfl

theorem dropSpace_of {b : Nat} {l : List Nat} (h : isSpace b = false) :
    (b :: l).dropWhile isSpace = b :: l := by simp [h]

theorem scanInt_intStr (z : Int) (rest : List Nat) (hr : ∀ b ∈ rest.head?, isDigit b = false) :
    scanInt (intStr z ++ rest) = some (z, rest) := by
  obtain ⟨hne, hd, hv⟩ := natStr_spec z.natAbs
  have ht := takeWhile_digits hd hr
  obtain ⟨b, l, hbl⟩ := List.exists_cons_of_ne_nil hne
  have hb : 48 ≤ b ∧ b ≤ 57 := isDigit_iff.mp (hd b (by rw [hbl]; simp))
  unfold scanInt intStr
  split_ifs with hz
  · have h1 : (45 :: natStr z.natAbs ++ rest).dropWhile isSpace = 45 :: (natStr z.natAbs ++ rest) := by
      rw [List.cons_append]; apply dropSpace_of; rfl
    rw [h1]
    simp only [scanSign, ht, hne, if_false, if_true, hv]
    congr 2; omega
  · have h1 : (natStr z.natAbs ++ rest).dropWhile isSpace = natStr z.natAbs ++ rest := by
      rw [hbl, List.cons_append]; apply dropSpace_of
      simp [isSpace]; omega
    rw [h1]
    have h2 : scanSign (natStr z.natAbs ++ rest) = (false, natStr z.natAbs ++ rest) := by
      rw [hbl, List.cons_append]; exact scanSign_of_ge hb.1
    rw [h2]
    simp only [ht, hne, if_false, hv]
    rw [if_neg (by decide)]
    congr 2; omega

end Gemlog
