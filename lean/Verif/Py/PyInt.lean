import Verif.Py.Str

/-!
# Python `int(str)` and `str.split(',')`
-/

namespace Gemlog

/-- Python `str.split(',')`; `cur` is the piece being collected. -/
def splitCommaGo (cur : List Nat) : List Nat → List (List Nat)
  | [] => [cur]
  | b :: l => if b = 44 then cur :: splitCommaGo [] l else splitCommaGo (cur ++ [b]) l

/-- Python `line.split(',')`. -/
def splitComma (s : List Nat) : List (List Nat) := splitCommaGo [] s

/-- Python `str.strip()` for ASCII white space. -/
def strip (s : List Nat) : List Nat :=
  ((s.dropWhile isSpace).reverse.dropWhile isSpace).reverse

/-- Digits, any two neighbours possibly separated by one underscore: the form `int` accepts. -/
def groupedDigits : List Nat → Bool
  | [] => false
  | [b] => isDigit b
  | b :: 95 :: l => isDigit b && groupedDigits l
  | b :: c :: l => isDigit b && groupedDigits (c :: l)

/-- Python `int(s)`: `none` is ValueError. Simplification: non-ASCII digits and the ASCII separators 28 to 31 as white
space (which Python accepts) are a ValueError here; no limit on the number of digits. -/
def pyInt (s : List Nat) : Option Int :=
  let (neg, ds) := scanSign (strip s)
  if groupedDigits ds then
    let v := digitsVal (ds.filter fun b => b ≠ 95)
    some (if neg then -(v : Int) else v)
  else none

theorem groupedDigits_of : ∀ ds : List Nat, ds ≠ [] → (∀ b ∈ ds, isDigit b = true) → groupedDigits ds = true
  | [], h, _ => absurd rfl h
  | [b], _, h => h b (by simp)
  | b :: c :: l, _, h => by
    have hc : isDigit c = true := h c (by simp)
    have hc2 : c ≠ 95 := by rintro rfl; simp [isDigit] at hc
    have := groupedDigits_of (c :: l) (by simp) (fun x hx => h x (by simp [hx]))
    rw [groupedDigits]
    · rw [h b (by simp), this]; rfl
    · simpa using hc2

theorem filter_digits {ds : List Nat} (h : ∀ b ∈ ds, isDigit b = true) : ds.filter (fun b => decide (b ≠ 95)) = ds := by
  rw [List.filter_eq_self]
  intro b hb
  have := h b hb
  simp only [decide_eq_true_eq]
  rintro rfl
  simp [isDigit] at this

theorem strip_of {s : List Nat} {a z : Nat} {l : List Nat} (h1 : s = a :: l) (h2 : s.getLast? = some z)
    (ha : isSpace a = false) (hz : isSpace z = false) (ws : List Nat)
    (hws : ∀ b ∈ ws, isSpace b = true) : strip (s ++ ws) = s := by
  unfold strip
  have e1 : (s ++ ws).dropWhile isSpace = s ++ ws := by
    rw [h1, List.cons_append]; exact dropSpace_of ha
  rw [e1, List.reverse_append]
  have e2 : ∀ w : List Nat, (∀ b ∈ w, isSpace b = true) →
      (w ++ s.reverse).dropWhile isSpace = s.reverse := by
    intro w
    induction w with
    | nil =>
      intro _
      have : s.reverse.head? = some z := by rw [List.head?_reverse]; exact h2
      cases hr : s.reverse with
      | nil => rw [hr] at this; simp at this
      | cons c r =>
        rw [hr] at this; simp at this; subst this
        simp [hz]
    | cons b w ih =>
      intro h
      rw [List.cons_append, List.dropWhile_cons_of_pos (h b (by simp))]
      exact ih (fun x hx => h x (by simp [hx]))
  rw [e2 _ (by simpa using hws)]
  simp

theorem digit_notSpace {b : Nat} (h : isDigit b = true) : isSpace b = false := by
  rw [isDigit_iff] at h; simp [isSpace]; omega

theorem pyInt_intStr (z : Int) (ws : List Nat) (hws : ∀ b ∈ ws, isSpace b = true) :
    pyInt (intStr z ++ ws) = some z := by
  obtain ⟨hne, hd, hv⟩ := natStr_spec z.natAbs
  obtain ⟨b, l, hbl⟩ := List.exists_cons_of_ne_nil hne
  have hb : 48 ≤ b ∧ b ≤ 57 := isDigit_iff.mp (hd b (by rw [hbl]; simp))
  obtain ⟨e, he⟩ : ∃ e, (natStr z.natAbs).getLast? = some e := by
    cases h : (natStr z.natAbs).getLast? with
    | none => exact absurd (List.getLast?_eq_none_iff.mp h) hne
    | some e => exact ⟨e, rfl⟩
  have hes : isSpace e = false := digit_notSpace (hd e (List.mem_of_getLast? he))
  unfold pyInt intStr
  split_ifs with hz
  · rw [strip_of (a := 45) (z := e) (l := natStr z.natAbs) rfl
      (by rw [List.getLast?_cons, he]; rfl) rfl hes ws hws]
    simp only [scanSign]
    rw [if_pos (groupedDigits_of _ hne hd), filter_digits hd]
    simp only [hv, if_true]
    congr 1; omega
  · rw [strip_of (a := b) (z := e) (l := l) hbl he (by simp [isSpace]; omega) hes ws hws]
    have h2 : scanSign (natStr z.natAbs) = (false, natStr z.natAbs) := by
      rw [hbl]; exact scanSign_of_ge hb.1
    rw [h2]
    simp only
    rw [if_pos (groupedDigits_of _ hne hd), filter_digits hd, hv, if_neg (by decide)]
    congr 1; omega

theorem splitCommaGo_plain : ∀ (s cur : List Nat), (∀ b ∈ s, b ≠ 44) →
    splitCommaGo cur s = [cur ++ s] := by
  intro s
  induction s with
  | nil => intro cur _; simp [splitCommaGo]
  | cons b s ih =>
    intro cur h
    rw [splitCommaGo, if_neg (h b (by simp)), ih _ (fun x hx => h x (by simp [hx]))]; simp

theorem splitCommaGo_comma : ∀ (s cur rest : List Nat), (∀ b ∈ s, b ≠ 44) →
    splitCommaGo cur (s ++ 44 :: rest) = (cur ++ s) :: splitCommaGo [] rest := by
  intro s
  induction s with
  | nil => intro cur rest _; simp [splitCommaGo]
  | cons b s ih =>
    intro cur rest h
    rw [List.cons_append, splitCommaGo, if_neg (h b (by simp)),
      ih _ _ (fun x hx => h x (by simp [hx]))]; simp

theorem natStr_noComma (n : Nat) : ∀ b ∈ natStr n, b ≠ 44 := by
  intro b hb
  have := isDigit_iff.mp (natStr_digits n b hb); omega

theorem intStr_noComma (z : Int) : ∀ b ∈ intStr z, b ≠ 44 := by
  intro b hb
  unfold intStr at hb
  split_ifs at hb
  · rcases List.mem_cons.mp hb with h | h
    · omega
    · exact natStr_noComma _ b h
  · exact natStr_noComma _ b hb

end Gemlog
