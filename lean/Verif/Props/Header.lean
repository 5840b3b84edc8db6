import Mathlib.Data.List.TakeWhile
import Verif.Model.Header
import Verif.Lemmas.GemCat
import Verif.Props.Whole
import Verif.Props.Cli

/-!
# C76: serial number and configuration are those printed in the header
-/

namespace Gemlog

/-! ## Specification -/

/-- Lines of a text, each followed by a newline. -/
def linesText (ls : List (List Nat)) : List Nat := (ls.map fun l => l ++ [10]).flatten

/-- A comment line. -/
def CommentLine (l : List Nat) : Prop := l.head? = some 35 ∧ ∀ b ∈ l, b ≠ 10

/-- The line that gives the configuration. -/
def configLine (c : Config) : List Nat :=
  bytes "C," ++ intStr c.gpsMode ++ bytes "," ++ intStr c.gpsCycle ++ bytes "," ++ intStr c.gpsQuota ++ bytes "," ++
    intStr c.adcRange ++ bytes "," ++ intStr c.ledShutoff ++ bytes "," ++ intStr c.serialOutput

/-- A text that can be a serial number: no comma, number sign, newline or carriage return, and not a word for missing values. -/
def SerialNumber (sn : List Nat) : Prop :=
  (∀ b ∈ sn, b ≠ 44 ∧ b ≠ 35 ∧ b ≠ 10 ∧ b ≠ 13) ∧ sn ∉ naValues

/-- The file begins with at least three comment lines, the serial number, possibly more comment lines, and the configuration, which is
among the first eleven lines; lines may end with a carriage return and a newline. -/
def FileHeader (sn : List Nat) (c : Config) (pre : List (List Nat)) (mid : List (List Nat)) (cr content : List Nat) : Prop :=
  (∃ rest, content = linesText (pre ++ [bytes "S," ++ sn ++ cr] ++ mid ++ [configLine c ++ cr]) ++ rest) ∧
    (∀ l ∈ pre, CommentLine l) ∧ (∀ l ∈ mid, CommentLine l) ∧ 3 ≤ pre.length ∧ pre.length + mid.length ≤ 9 ∧
    (cr = [] ∨ cr = [13])

/-! ## Lemmas -/

theorem textLines_linesText : ∀ (ls : List (List Nat)) (rest : List Nat), (∀ l ∈ ls, ∀ b ∈ l, b ≠ 10) →
    textLines (linesText ls ++ rest) = (ls.map fun l => l ++ [10]) ++ textLines rest := by
  intro ls rest
  induction ls with
  | nil => intro _; rfl
  | cons l ls ih =>
    intro h
    have e : linesText (l :: ls) ++ rest = l ++ [10] ++ (linesText ls ++ rest) := by simp [linesText]
    rw [e, textLines_line (h l (by simp)), ih (fun x hx => h x (by simp [hx]))]
    simp

theorem csvText_line (l : List Nat) : csvText (l ++ [10]) = if l.getLast? = some 13 then l.dropLast else l := by
  unfold csvText chomp; simp

theorem csvText_cr {l cr : List Nat} (hl : ∀ b ∈ l, b ≠ 13) (hcr : cr = [] ∨ cr = [13]) : csvText (l ++ cr ++ [10]) = l := by
  rw [csvText_line]
  rcases hcr with rfl | rfl
  · rw [List.append_nil, if_neg]
    intro h
    exact hl 13 (List.mem_of_getLast? h) rfl
  · simp

theorem csvText_comment {l : List Nat} (h : l.head? = some 35) : ∃ t, csvText (l ++ [10]) = 35 :: t := by
  rw [csvText_line]
  cases l with
  | nil => simp at h
  | cons a t =>
    simp only [List.head?_cons, Option.some.injEq] at h
    subst h
    split
    · cases t with
      | nil => rename_i h; simp at h
      | cons b t => exact ⟨(b :: t).dropLast, rfl⟩
    · exact ⟨t, rfl⟩

theorem splitCommaGo_head : ∀ (s cur : List Nat), ∃ r rs, splitCommaGo cur s = (cur ++ r) :: rs := by
  intro s
  induction s with
  | nil => intro cur; exact ⟨[], [], by simp [splitCommaGo]⟩
  | cons b s ih =>
    intro cur
    unfold splitCommaGo
    split
    · exact ⟨[], splitCommaGo [] s, by simp⟩
    · obtain ⟨r, rs, h⟩ := ih (cur ++ [b])
      exact ⟨b :: r, rs, by rw [h]; simp⟩

theorem configOf_head {a : Nat} (ha : a ≠ 44 ∧ a ≠ 67) (t : List Nat) : configOf (splitComma (a :: t)) = none := by
  have hs : splitComma (a :: t) = splitCommaGo [a] t := by
    unfold splitComma; rw [splitCommaGo, if_neg ha.1]; rfl
  obtain ⟨r, rs, h⟩ := splitCommaGo_head t [a]
  rw [hs, h]
  unfold configOf
  split
  · rename_i c x1 x2 x3 x4 x5 x6 he
    rw [if_neg]
    intro hc
    have : ([a] ++ r) = bytes "C" := by
      have := (List.cons.injEq .. ▸ he : _ ∧ _).1
      rw [← hc]; exact this
    have h67 : a = 67 := by
      have e := congrArg List.head? this
      simpa [bytes] using e
    exact ha.2 h67
  · rfl

theorem splitComma_comma (s rest : List Nat) (h : ∀ b ∈ s, b ≠ 44) : splitComma (s ++ 44 :: rest) = s :: splitComma rest := by
  unfold splitComma; rw [splitCommaGo_comma s [] rest h]; simp

theorem splitComma_plain (s : List Nat) (h : ∀ b ∈ s, b ≠ 44) : splitComma s = [s] := by
  unfold splitComma; rw [splitCommaGo_plain s [] h]; simp

theorem configOf_line (c : Config) : configOf (splitComma (configLine c)) = some c := by
  have e : configLine c = bytes "C" ++ 44 :: (intStr c.gpsMode ++ 44 :: (intStr c.gpsCycle ++ 44 :: (intStr c.gpsQuota ++ 44 ::
      (intStr c.adcRange ++ 44 :: (intStr c.ledShutoff ++ 44 :: intStr c.serialOutput))))) := by
    simp [configLine, bytes]
  rw [e, splitComma_comma _ _ (by decide), splitComma_comma _ _ (intStr_noComma _), splitComma_comma _ _ (intStr_noComma _),
    splitComma_comma _ _ (intStr_noComma _), splitComma_comma _ _ (intStr_noComma _), splitComma_comma _ _ (intStr_noComma _),
    splitComma_plain _ (intStr_noComma _)]
  have hp : ∀ z : Int, pyInt (intStr z) = some z := fun z => by simpa using pyInt_intStr z [] (by simp)
  simp only [configOf, hp, if_true]

theorem intStr_bytes (z : Int) : ∀ b ∈ intStr z, b = 45 ∨ 48 ≤ b ∧ b ≤ 57 := by
  intro b hb
  unfold intStr at hb
  split at hb
  · rcases List.mem_cons.1 hb with rfl | hb
    · exact Or.inl rfl
    · exact Or.inr (isDigit_iff.mp (natStr_digits _ b hb))
  · exact Or.inr (isDigit_iff.mp (natStr_digits _ b hb))

theorem configLine_bytes (c : Config) : ∀ b ∈ configLine c, b ≠ 10 ∧ b ≠ 13 := by
  intro b hb
  have key : ∀ z : Int, b ∈ intStr z → b ≠ 10 ∧ b ≠ 13 := by
    intro z hz
    rcases intStr_bytes z b hz with h | h <;> omega
  have key2 : ∀ s, b ∈ bytes s → s ∈ ["C,", ","] → b ≠ 10 ∧ b ≠ 13 := by
    intro s hs hmem
    simp only [List.mem_cons, List.not_mem_nil, or_false] at hmem
    rcases hmem with rfl | rfl <;> simp [bytes] at hs <;> omega
  unfold configLine at hb
  simp only [List.mem_append] at hb
  rcases hb with (((((((((((h | h) | h) | h) | h) | h) | h) | h) | h) | h) | h) | h)
  all_goals first
    | exact key _ h
    | exact key2 _ h (by simp)

theorem findSome_range {β : Type} (f : Nat → Option β) (k n : Nat) (hk : k < n) (x : β) (hx : f k = some x)
    (h : ∀ i, i < k → f i = none) : (List.range n).findSome? f = some x := by
  induction n with
  | zero => omega
  | succ n ih =>
    rw [List.range_succ, List.findSome?_append]
    by_cases hkn : k < n
    · rw [ih hkn]; rfl
    · have : k = n := by omega
      subst this
      have hn : (List.range k).findSome? f = none := by
        rw [List.findSome?_eq_none_iff]
        intro i hi
        exact h i (List.mem_range.1 hi)
      rw [hn]; simp [hx]

/-- A row that is not blank is read (helper). -/
theorem configRow_at (content : List Nat) (j : Nat) (l : List Nat) (h : (textLines content)[j + 1]? = some l)
    (hl : csvBlank (csvText l) = false) : configRow content j = some (splitComma (csvText l)) := by
  unfold configRow
  have hlt : j + 1 < (textLines content).length := by
    by_contra hc
    rw [List.getElem?_eq_none (by omega)] at h
    simp at h
  rw [List.drop_eq_getElem_cons hlt, List.map_cons, List.find?_cons_of_pos]
  · rw [List.getElem?_eq_getElem hlt] at h
    simp only [Option.some.injEq] at h
    rw [h]; rfl
  · rw [List.getElem?_eq_getElem hlt] at h
    simp only [Option.some.injEq] at h
    rw [h, hl]; rfl

theorem csvBlank_head {a : Nat} {t : List Nat} (ha : a ≠ 32 ∧ a ≠ 9) : csvBlank (a :: t) = false := by
  simp [csvBlank, ha]

/-! ## Properties -/

/-- **C76.** A file with a header of the usual form is read with the serial number and the configuration printed there, whatever
follows. -/
theorem C76_header (odd : List (List (List Nat)) → SNRead) (sn : List Nat) (c : Config) (pre mid : List (List Nat))
    (cr content : List Nat) (hsn : SerialNumber sn) (h : FileHeader sn c pre mid cr content) :
    readSNOf odd content = .str sn ∧ readConfig content = c := by
  obtain ⟨⟨rest, hc⟩, hpre, hmid, h3, h9, hcr⟩ := h
  have hcrb : ∀ b ∈ cr, b ≠ 10 := by rcases hcr with rfl | rfl <;> simp
  have hnl : ∀ l ∈ pre ++ [bytes "S," ++ sn ++ cr] ++ mid ++ [configLine c ++ cr], ∀ b ∈ l, b ≠ 10 := by
    intro l hl b hb
    simp only [List.mem_append, List.mem_singleton] at hl
    rcases hl with ((hl | rfl) | hl) | rfl
    · exact (hpre l hl).2 b hb
    · simp only [List.mem_append] at hb
      rcases hb with (hb | hb) | hb
      · simp [bytes] at hb; omega
      · exact (hsn.1 b hb).2.2.1
      · exact hcrb b hb
    · exact (hmid l hl).2 b hb
    · rcases List.mem_append.1 hb with hb | hb
      · exact (configLine_bytes c b hb).1
      · exact hcrb b hb
  have hlines := textLines_linesText _ rest hnl
  rw [← hc] at hlines
  have hS : csvText (bytes "S," ++ sn ++ cr ++ [10]) = bytes "S" ++ 44 :: sn := by
    rw [csvText_cr _ hcr]
    · simp [bytes]
    · intro b hb
      rcases List.mem_append.1 hb with hb | hb
      · simp [bytes] at hb; omega
      · exact (hsn.1 b hb).2.2.2
  have hC : csvText (configLine c ++ cr ++ [10]) = configLine c := csvText_cr (fun b hb => (configLine_bytes c b hb).2) hcr
  constructor
  · have hdrop : (textLines content).drop 3 = ((pre.drop 3).map fun l => l ++ [10]) ++
        (bytes "S," ++ sn ++ cr ++ [10]) :: ((mid ++ [configLine c ++ cr]).map (fun l => l ++ [10]) ++ textLines rest) := by
      rw [hlines, List.append_assoc, List.append_assoc, List.map_append, List.append_assoc, List.drop_append_of_le_length
        (by simpa using h3), ← List.map_drop]
      simp
    have hskip : ((((pre.drop 3).map fun l => l ++ [10]).map fun l => cutComment (csvText l)).filter fun s => !csvBlank s) = [] := by
      rw [List.filter_eq_nil_iff]
      intro s hs
      obtain ⟨l', hl', rfl⟩ := List.mem_map.1 hs
      obtain ⟨l, hl, rfl⟩ := List.mem_map.1 hl'
      obtain ⟨t, ht⟩ := csvText_comment (hpre l (List.mem_of_mem_drop hl)).1
      rw [ht]; simp [cutComment, csvBlank]
    have hcut : cutComment (bytes "S" ++ 44 :: sn) = bytes "S" ++ 44 :: sn := by
      unfold cutComment
      rw [List.takeWhile_eq_self_iff]
      intro b hb
      simp only [List.mem_append, List.mem_cons] at hb
      rcases hb with hb | rfl | hb
      · simp [bytes] at hb; subst hb; decide
      · decide
      · simpa using (hsn.1 b hb).2.1
    have hrows : ∃ more, snRows content = [bytes "S", sn] :: more := by
      unfold snRows
      rw [hdrop, List.map_append, List.filter_append, hskip, List.nil_append, List.map_cons, hS, hcut,
        List.filter_cons_of_pos (by simp [bytes, csvBlank]), List.map_cons, splitComma_comma _ _ (by decide),
        splitComma_plain _ (fun b hb => (hsn.1 b hb).1)]
      exact ⟨_, rfl⟩
    obtain ⟨more, hrows⟩ := hrows
    unfold readSNOf
    rw [hrows]
    simp only [if_true]
    rw [if_neg hsn.2]
  · have hget : ∀ i : Nat, (textLines content)[i]? =
        ((pre ++ [bytes "S," ++ sn ++ cr] ++ mid ++ [configLine c ++ cr]).map (fun l => l ++ [10]) ++ textLines rest)[i]? := by
      intro i; rw [hlines]
    have hlen : (pre ++ [bytes "S," ++ sn ++ cr] ++ mid).length = pre.length + mid.length + 1 := by simp; omega
    have hCat : (textLines content)[pre.length + mid.length + 1]? = some (configLine c ++ cr ++ [10]) := by
      rw [hget, List.getElem?_append_left (by simp; omega), List.getElem?_map, List.getElem?_append_right (by omega), hlen]
      simp
    have hbefore : ∀ i, i < pre.length + mid.length + 1 → ∃ l, (textLines content)[i]? = some (l ++ [10]) ∧
        (l.head? = some 35 ∨ l = bytes "S," ++ sn ++ cr) := by
      intro i hi
      rw [hget, List.getElem?_append_left (by simp; omega), List.getElem?_map, List.getElem?_append_left (by omega),
        List.getElem?_eq_getElem (by omega)]
      refine ⟨_, rfl, ?_⟩
      have hm := List.getElem_mem (l := pre ++ [bytes "S," ++ sn ++ cr] ++ mid) (n := i) (by omega)
      generalize (pre ++ [bytes "S," ++ sn ++ cr] ++ mid)[i] = l at hm
      simp only [List.mem_append, List.mem_singleton] at hm
      rcases hm with (hm | hm) | hm
      · exact Or.inl (hpre l hm).1
      · exact Or.inr (by rw [hm, List.append_assoc])
      · exact Or.inl (hmid l hm).1
    have hfind : ((List.range 10).findSome? fun j => (configRow content j).bind configOf) = some c := by
      apply findSome_range _ (pre.length + mid.length) 10 (by omega)
      · rw [configRow_at content _ _ hCat, hC]
        · exact configOf_line c
        · rw [hC]; simp [configLine, bytes, csvBlank]
      · intro i hi
        obtain ⟨l, hl, hcase⟩ := hbefore (i + 1) (by omega)
        have : ∃ a t, csvText (l ++ [10]) = a :: t ∧ (a ≠ 32 ∧ a ≠ 9) ∧ a ≠ 44 ∧ a ≠ 67 := by
          rcases hcase with h35 | rfl
          · obtain ⟨t, ht⟩ := csvText_comment h35
            exact ⟨35, t, ht, by decide, by decide⟩
          · exact ⟨83, 44 :: sn, by rw [hS]; rfl, by decide, by decide⟩
        obtain ⟨a, t, ht, h1, h2⟩ := this
        rw [configRow_at content i _ hl (by rw [ht]; exact csvBlank_head h1), ht]
        exact configOf_head h2 t
    unfold readConfig
    rw [hfind]; rfl

/-- **C76, soundness.** A configuration other than the default is always one that is printed in the file: some line after the first
consists of `C` and six integers, which are the values. -/
theorem C76_printed (content : List Nat) (h : readConfig content ≠ defaultConfig) :
    ∃ l ∈ (textLines content).drop 1, ∃ x1 x2 x3 x4 x5 x6 : List Nat,
      csvText l = bytes "C," ++ x1 ++ bytes "," ++ x2 ++ bytes "," ++ x3 ++ bytes "," ++ x4 ++ bytes "," ++ x5 ++ bytes "," ++ x6 ∧
      pyInt x1 = some (readConfig content).gpsMode ∧ pyInt x2 = some (readConfig content).gpsCycle ∧
      pyInt x3 = some (readConfig content).gpsQuota ∧ pyInt x4 = some (readConfig content).adcRange ∧
      pyInt x5 = some (readConfig content).ledShutoff ∧ pyInt x6 = some (readConfig content).serialOutput := by
  have hsome : ∃ c, ((List.range 10).findSome? fun j => (configRow content j).bind configOf) = some c := by
    cases hc : ((List.range 10).findSome? fun j => (configRow content j).bind configOf) with
    | none => exact absurd (by unfold readConfig; rw [hc]; rfl) h
    | some c => exact ⟨c, rfl⟩
  obtain ⟨c, hc⟩ := hsome
  have hr : readConfig content = c := by unfold readConfig; rw [hc]; rfl
  rw [hr]
  obtain ⟨j, -, hj⟩ := List.exists_of_findSome?_eq_some hc
  cases hrow : configRow content j with
  | none => rw [hrow] at hj; simp at hj
  | some row =>
    rw [hrow] at hj
    simp only [Option.bind_some] at hj
    unfold configRow at hrow
    rw [Option.map_eq_some_iff] at hrow
    obtain ⟨s, hs, hsrow⟩ := hrow
    have hmem := List.mem_of_find?_eq_some hs
    obtain ⟨l, hl, rfl⟩ := List.mem_map.1 hmem
    refine ⟨l, ?_, ?_⟩
    · rw [show j + 1 = 1 + j by omega, ← List.drop_drop] at hl
      exact List.mem_of_mem_drop hl
    · have hjoin := (C59_comma_lists (csvText l)).1
      rw [hsrow] at hjoin
      unfold configOf at hj
      split at hj
      · rename_i c0 x1 x2 x3 x4 x5 x6
        split at hj
        · rename_i hc0
          split at hj
          · rename_i a1 a2 a3 a4 a5 a6 e1 e2 e3 e4 e5 e6
            simp only [Option.some.injEq] at hj
            subst hj
            refine ⟨x1, x2, x3, x4, x5, x6, ?_, e1, e2, e3, e4, e5, e6⟩
            rw [← hjoin, hc0]
            simp [List.intercalate, bytes]
          · simp at hj
        · simp at hj
      · simp at hj

/-- **C76, default.** If no line of the file starts with `C,` and has exactly six commas, for example since the line is damaged, the
default configuration (high gain) is used; no problem is reported. -/
theorem C76_violated_damaged (content : List Nat)
    (h : ∀ l ∈ textLines content, (csvText l).take 2 ≠ bytes "C," ∨ (csvText l).count 44 ≠ 6) :
    readConfig content = ⟨1, 15, 20, 0, 0, 0⟩ := by
  by_contra hne
  obtain ⟨l, hl, x1, x2, x3, x4, x5, x6, e, h1, h2, h3, h4, h5, h6⟩ := C76_printed content hne
  have hnc : ∀ (x : List Nat) (z : Int), pyInt x = some z → x.count 44 = 0 := by
    intro x z hx
    rw [List.count_eq_zero]
    intro hm
    unfold pyInt at hx
    have hstrip : (44 : Nat) ∈ strip x := by
      have hdw : ∀ l : List Nat, 44 ∈ l → 44 ∈ l.dropWhile isSpace := by
        intro l
        induction l with
        | nil => simp
        | cons a l ih =>
          intro hm
          by_cases ha : isSpace a = true
          · rw [List.dropWhile_cons_of_pos ha]
            rcases List.mem_cons.1 hm with rfl | hm
            · simp [isSpace] at ha
            · exact ih hm
          · rw [List.dropWhile_cons_of_neg ha]; exact hm
      unfold strip
      rw [List.mem_reverse]
      apply hdw
      rw [List.mem_reverse]
      exact hdw _ hm
    have hgd : ∀ ds : List Nat, groupedDigits ds = true → (44 : Nat) ∉ ds := by
      intro ds
      induction ds using groupedDigits.induct with
      | case1 => simp
      | case2 b => intro hb hm; simp only [groupedDigits] at hb; simp at hm; subst hm; simp [isDigit] at hb
      | case3 b l ih =>
        intro hb hm
        simp only [groupedDigits, Bool.and_eq_true] at hb
        simp only [List.mem_cons] at hm
        rcases hm with rfl | hm | hm
        · simp [isDigit] at hb
        · omega
        · exact ih hb.2 hm
      | case4 b c l hc ih =>
        intro hb hm
        rw [groupedDigits] at hb
        · simp only [Bool.and_eq_true] at hb
          rcases List.mem_cons.1 hm with rfl | hm
          · simp [isDigit] at hb
          · exact ih hb.2 hm
        · exact hc
    revert hx
    generalize hy : strip x = y at hstrip
    cases hss : scanSign y with
    | mk neg ds =>
      simp only
      intro hx
      split at hx
      · rename_i hg
        have hds : (44 : Nat) ∈ ds := by
          unfold scanSign at hss
          split at hss
          all_goals
            simp only [Prod.mk.injEq] at hss
            rw [← hss.2]
            first
              | exact hstrip
              | (simp only [List.mem_cons] at hstrip; omega)
              | (rcases List.mem_cons.1 hstrip with h | h
                 · omega
                 · exact h)
        exact hgd ds hg hds
      · simp at hx
  rcases h l (List.mem_of_mem_drop hl) with h | h
  · apply h; rw [e]; simp [bytes]
  · apply h; rw [e]
    simp only [List.count_append, hnc _ _ h1, hnc _ _ h2, hnc _ _ h3, hnc _ _ h4, hnc _ _ h5, hnc _ _ h6]
    rfl

/-- **C76, late line.** A configuration line is ignored if eleven or more comment lines come before it: the default configuration
(high gain) is used, whatever the line says. -/
theorem C76_violated_late (pre : List (List Nat)) (c : Config) (rest : List Nat) (hpre : ∀ l ∈ pre, CommentLine l) (h : 11 ≤ pre.length) :
    readConfig (linesText (pre ++ [configLine c]) ++ rest) = ⟨1, 15, 20, 0, 0, 0⟩ := by
  have hnl : ∀ l ∈ pre ++ [configLine c], ∀ b ∈ l, b ≠ 10 := by
    intro l hl
    rcases List.mem_append.1 hl with hl | hl
    · exact (hpre l hl).2
    · simp only [List.mem_singleton] at hl; subst hl
      exact fun b hb => (configLine_bytes c b hb).1
  have hlines := textLines_linesText _ rest hnl
  have : ((List.range 10).findSome? fun j => (configRow (linesText (pre ++ [configLine c]) ++ rest) j).bind configOf) = none := by
    rw [List.findSome?_eq_none_iff]
    intro j hj
    have hj := List.mem_range.1 hj
    have hlt : j + 1 < pre.length := by omega
    have hl : (textLines (linesText (pre ++ [configLine c]) ++ rest))[j + 1]? = some (pre[j + 1] ++ [10]) := by
      rw [hlines, List.getElem?_append_left (by simp; omega), List.getElem?_map, List.getElem?_append_left hlt,
        List.getElem?_eq_getElem hlt]; rfl
    obtain ⟨t, ht⟩ := csvText_comment (hpre _ (List.getElem_mem hlt)).1
    rw [configRow_at _ j _ hl (by rw [ht]; exact csvBlank_head (by decide)), ht]
    exact configOf_head (by decide) t
  unfold readConfig
  rw [this]; rfl

/-- **C76, order.** If any other line of one or two fields, such as a sample, comes before the line with the serial number, the
serial number is not found, although it is in the file. -/
theorem C76_violated_order (odd : List (List (List Nat)) → SNRead) (pre : List (List Nat)) (x y rest : List Nat)
    (hpre : ∀ l ∈ pre, CommentLine l) (h3 : 3 ≤ pre.length)
    (hx : (∀ b ∈ x, b ≠ 44 ∧ b ≠ 35 ∧ b ≠ 10 ∧ b ≠ 13) ∧ x ≠ bytes "S")
    (hy : ∀ b ∈ y, b ≠ 44 ∧ b ≠ 35 ∧ b ≠ 10 ∧ b ≠ 13) :
    readSNOf odd (linesText (pre ++ [x ++ bytes "," ++ y]) ++ rest) = .raises := by
  have hb : ∀ b ∈ x ++ bytes "," ++ y, b ≠ 35 ∧ b ≠ 10 ∧ b ≠ 13 := by
    intro b hb
    rcases List.mem_append.1 hb with hb | hb
    · rcases List.mem_append.1 hb with hb | hb
      · exact (hx.1 b hb).2
      · simp [bytes] at hb; subst hb; decide
    · exact (hy b hb).2
  have hnl : ∀ l ∈ pre ++ [x ++ bytes "," ++ y], ∀ b ∈ l, b ≠ 10 := by
    intro l hl
    rcases List.mem_append.1 hl with hl | hl
    · exact (hpre l hl).2
    · simp only [List.mem_singleton] at hl; subst hl
      exact fun b h => (hb b h).2.1
  have hlines := textLines_linesText _ rest hnl
  have hdrop : (textLines (linesText (pre ++ [x ++ bytes "," ++ y]) ++ rest)).drop 3 = ((pre.drop 3).map fun l => l ++ [10]) ++
      (x ++ bytes "," ++ y ++ [10]) :: textLines rest := by
    rw [hlines, List.map_append, List.append_assoc, List.drop_append_of_le_length (by simpa using h3), ← List.map_drop]
    simp
  have hskip : ((((pre.drop 3).map fun l => l ++ [10]).map fun l => cutComment (csvText l)).filter fun s => !csvBlank s) = [] := by
    rw [List.filter_eq_nil_iff]
    intro s hs
    obtain ⟨l', hl', rfl⟩ := List.mem_map.1 hs
    obtain ⟨l, hl, rfl⟩ := List.mem_map.1 hl'
    obtain ⟨t, ht⟩ := csvText_comment (hpre l (List.mem_of_mem_drop hl)).1
    rw [ht]; simp [cutComment, csvBlank]
  have htext : csvText (x ++ bytes "," ++ y ++ [10]) = x ++ 44 :: y := by
    have := csvText_cr (l := x ++ bytes "," ++ y) (cr := []) (fun b h => (hb b h).2.2) (Or.inl rfl)
    rw [List.append_nil] at this
    rw [this]; simp [bytes]
  have hcut : cutComment (x ++ 44 :: y) = x ++ 44 :: y := by
    unfold cutComment
    rw [List.takeWhile_eq_self_iff]
    intro b h
    have := hb b (by simpa [bytes] using h)
    simpa using this.1
  have hrows : ∃ more, snRows (linesText (pre ++ [x ++ bytes "," ++ y]) ++ rest) = [x, y] :: more := by
    unfold snRows
    rw [hdrop, List.map_append, List.filter_append, hskip, List.nil_append, List.map_cons, htext, hcut,
      List.filter_cons_of_pos (by simp [csvBlank]), List.map_cons, splitComma_comma _ _ (fun b h => (hx.1 b h).1),
      splitComma_plain _ (fun b h => (hy b h).1)]
    exact ⟨_, rfl⟩
  obtain ⟨more, hrows⟩ := hrows
  unfold readSNOf
  rw [hrows]
  simp only
  rw [if_neg hx.2]

/-- **C76, blank lines.** Lines of blanks and tabs, inserted anywhere after the third line, do not change the serial number read. -/
theorem C76_blank_lines (odd : List (List (List Nat)) → SNRead) (before blank : List (List Nat)) (rest : List Nat)
    (hbefore : ∀ l ∈ before, ∀ b ∈ l, b ≠ 10) (h3 : 3 ≤ before.length)
    (hblank : ∀ l ∈ blank, ∃ s cr, l = s ++ cr ∧ (∀ b ∈ s, b = 32 ∨ b = 9) ∧ (cr = [] ∨ cr = [13])) :
    readSNOf odd (linesText (before ++ blank) ++ rest) = readSNOf odd (linesText before ++ rest) := by
  have hnl : ∀ l ∈ before ++ blank, ∀ b ∈ l, b ≠ 10 := by
    intro l hl b hb
    rcases List.mem_append.1 hl with hl | hl
    · exact hbefore l hl b hb
    · obtain ⟨s, cr, rfl, h1, h2⟩ := hblank l hl
      rcases List.mem_append.1 hb with hb | hb
      · rcases h1 b hb with rfl | rfl <;> decide
      · rcases h2 with rfl | rfl
        · cases hb
        · simp at hb; subst hb; decide
  have hskip : (((blank.map fun l => l ++ [10]).map fun l => cutComment (csvText l)).filter fun s => !csvBlank s) = [] := by
    rw [List.filter_eq_nil_iff]
    intro s hs
    obtain ⟨l', hl', rfl⟩ := List.mem_map.1 hs
    obtain ⟨l, hl, rfl⟩ := List.mem_map.1 hl'
    obtain ⟨s, cr, rfl, h1, h2⟩ := hblank l hl
    rw [csvText_cr (fun b hb => by rcases h1 b hb with rfl | rfl <;> decide) h2]
    have hb : csvBlank (cutComment s) = true := by
      unfold csvBlank cutComment
      rw [List.all_eq_true]
      intro b hb
      rcases h1 b ((List.takeWhile_sublist _).subset hb) with rfl | rfl <;> decide
    simp [hb]
  have hrows : snRows (linesText (before ++ blank) ++ rest) = snRows (linesText before ++ rest) := by
    unfold snRows
    rw [textLines_linesText _ _ hnl, textLines_linesText _ _ hbefore, List.map_append, List.append_assoc,
      List.drop_append_of_le_length (by simpa using h3), List.drop_append_of_le_length (by simpa using h3)]
    simp only [List.map_append, List.filter_append]
    rw [hskip, List.map_nil, List.nil_append]
  unfold readSNOf
  rw [hrows]

/-- A blank line and a line of tabs before the serial number. -/
example (odd : List (List (List Nat)) → SNRead) :
    readSNOf odd (linesText ([bytes "#1", bytes "#2", bytes "#3"] ++ [bytes " ", [9, 9, 13]]) ++ bytes "S,012\nC,2,15,20,0,1,0\n") = .str (bytes "012") := by
  rw [C76_blank_lines odd _ _ _ (by decide +kernel) (by decide) (by
    intro l hl
    simp only [List.mem_cons, List.not_mem_nil, or_false] at hl
    rcases hl with rfl | rfl
    · exact ⟨bytes " ", [], by simp, by decide +kernel, .inl rfl⟩
    · exact ⟨[9, 9], [13], rfl, by decide, .inr rfl⟩)]
  have : snRows (linesText [bytes "#1", bytes "#2", bytes "#3"] ++ bytes "S,012\nC,2,15,20,0,1,0\n") =
    [[bytes "S", bytes "012"], [bytes "C", bytes "2", bytes "15", bytes "20", bytes "0", bytes "1", bytes "0"]] := by decide +kernel
  unfold readSNOf
  rw [this]
  simp only [if_true]
  rw [if_neg (by decide +kernel)]

/-- The first lines of a recorded file are such a header. -/
def RecordedHeader (sn : List Nat) (c : Config) (es : List Event) : Prop :=
  ∃ pre mid rest cr, es.map Event.line = (pre ++ [bytes "S," ++ sn ++ cr] ++ mid ++ [configLine c ++ cr]).map LogLine.other ++ rest ∧
    (∀ l ∈ pre, CommentLine l) ∧ (∀ l ∈ mid, CommentLine l) ∧ 3 ≤ pre.length ∧ pre.length + mid.length ≤ 9 ∧
    (cr = [] ∨ cr = [13])

theorem recordedHeader_file {sn : List Nat} {c : Config} {es : List Event} (h : RecordedHeader sn c es) :
    ∃ pre mid cr, FileHeader sn c pre mid cr (textOf es) := by
  obtain ⟨pre, mid, rest, cr, he, h1, h2, h3, h4, h5⟩ := h
  refine ⟨pre, mid, cr, ⟨(rest.map LogLine.text).flatten, ?_⟩, h1, h2, h3, h4, h5⟩
  have : textOf es = ((es.map Event.line).map LogLine.text).flatten := by
    unfold textOf; rw [List.map_map]; rfl
  rw [this, he, List.map_append, List.flatten_append, List.map_map]
  rfl

open Classical in
/-- **C76, recordings.** A recording without defects (C65) whose files begin with a header is read in full from the contents of its
files alone: all samples in order at their true times, and scaled by the gain that is printed in the first file. -/
theorem C76_recording (odd : List (List (List Nat)) → SNRead) (d : RawDisk) (dir : List Entry) (SN : List Nat) (nums : List Int)
    (log : Entry → List Event) (a b : Rat) (first : Entry) (rest : List Entry) (hfind : findFiles dir SN nums = first :: rest)
    (htext : ∀ e ∈ first :: rest, d.content e = textOf (log e)) (hclean : CleanRecording a b ((first :: rest).map log))
    (v : String) (hv : v ∈ ["0.85C", "0.9", "0.91", "1.10"]) (hver : HasVersion v (log first))
    (hSN : SerialNumber SN) (conf : Entry → Config) (hhead : ∀ e ∈ first :: rest, RecordedHeader SN (conf e) (log e))
    (hgain : (conf first).adcRange = 0 ∨ (conf first).adcRange = 1)
    (n : Int) (hn : pyInt SN = some n) (specs : Specs) (hspecs : gemSpecs n = .ok specs)
    (hfit : Reproduces d.fit) (hfit1 : ReproducesLines d.fit)
    (R : List (Rat × Int)) (hR : R = trueRecord a b ((first :: rest).map log))
    (hruns : ∀ r ∈ runsOf (stamped R), r.headD 0 ≠ r.getLastD 0 → 1 / 100 ≤ r.getLastD 0 - r.headD 0) :
    ∃ g, readGem (d.withHeaders odd).env dir SN nums true = .ok g ∧ g.problems = [] ∧
      g.specs.bitweightPa = (if (conf first).adcRange = 0 then 1 else 2) * specs.bitweightPa ∧
      List.Forall₂ (TraceOf d.spline (R.map fun p => (p.1, some (p.2 : Rat))))
        ((runsOf (stamped R)).filter fun r => decide (Resampled d.spline (R.map fun p => (p.1, some (p.2 : Rat))) r)) g.stream := by
  have hread : ∀ e ∈ first :: rest, readSNOf odd (d.content e) = .str SN ∧ readConfig (d.content e) = conf e := by
    intro e he
    obtain ⟨pre, mid, cr, hf⟩ := recordedHeader_file (hhead e he)
    rw [htext e he]
    exact C76_header odd SN (conf e) pre mid cr _ hSN hf
  have hadc : (d.withHeaders odd).adc first = (conf first).adcRange := by
    show (readConfig (d.content first)).adcRange = _
    rw [(hread first (by simp)).2]
  obtain ⟨g, h1, h2, -, h4, -, -, h7⟩ := C65_read_back (d.withHeaders odd) dir SN nums log a b first rest hfind htext hclean v hv hver
    (fun e he => ⟨_, by show (readSNOf odd (d.content e)).result = _; rw [(hread e he).1]; rfl⟩) n hn specs hspecs
    (by rw [hadc]; exact hgain) hfit hfit1 R hR hruns
  rw [hadc] at h4
  exact ⟨g, h1, h2, h4, h7⟩

/-- **C76, no serial number.** A file in which no serial number is found is not used, and reported; if nothing else is wrong with it (it would be accepted if the serial
number were known), it is reported as corrupt. -/
theorem C76_no_serial (odd : List (List (List Nat)) → SNRead) (d : RawDisk) (e : Entry) (h : readSNOf odd (d.content e) = .raises) (rg : Bool) (v : String)
    (start : Rat) :
    (∃ x, (readOne (d.withHeaders odd).env.ops rg v e start).2 = .error x) ∧
    ∀ L, (readOne d.env.ops rg v e start).2 = .ok L → (readOne (d.withHeaders odd).env.ops rg v e start).2 = .error .corrupt := by
  have hsn : (d.withHeaders odd).env.ops.readSN e = .error .corrupt := by
    show (readSNOf odd (d.content e)).result = _
    rw [h]; rfl
  have hr : readVersioned (d.withHeaders odd).env.ops rg v e start = readVersioned d.env.ops rg v e start := rfl
  have hd : ∀ L, (d.withHeaders odd).env.ops.drift e L rg = d.env.ops.drift e L rg := fun _ => rfl
  unfold readOne
  rw [hr]
  cases (readVersioned d.env.ops rg v e start).bind (fun L => alignStart L start) with
  | error x => exact ⟨⟨x, rfl⟩, fun L hL => by simp at hL⟩
  | ok L =>
    simp only [hsn, hd]
    by_cases hc : discontinuous (L.data.map Prod.fst) = true
    · rw [if_pos hc, if_pos hc]
      exact ⟨⟨_, rfl⟩, fun L hL => by simp at hL⟩
    · rw [if_neg hc, if_neg hc]
      cases d.env.ops.drift e L rg with
      | error x => exact ⟨⟨x, rfl⟩, fun L hL => by simp at hL⟩
      | ok info => exact ⟨⟨_, rfl⟩, fun _ _ => rfl⟩

/-! ## Examples -/

/-- The header of a file of format 0.91. -/
def demoHeader : List Nat :=
  bytes "#GemCSV0.91\r\n#DmsSamp,ADC\r\n#G,msPPS,msLag,yr,mo,day,hr,min,sec,lat,lon\r\n#M,ms,batt(V),temp(C)\r\nS,059\r\n#Firmware0.951\r\nC,1,15,20,1,0,0\r\nD2067,0\r\nD2077,72\r\n"

example : FileHeader (bytes "059") ⟨1, 15, 20, 1, 0, 0⟩
    [bytes "#GemCSV0.91\r", bytes "#DmsSamp,ADC\r", bytes "#G,msPPS,msLag,yr,mo,day,hr,min,sec,lat,lon\r", bytes "#M,ms,batt(V),temp(C)\r"]
    [bytes "#Firmware0.951\r"] [13] demoHeader :=
  ⟨⟨bytes "D2067,0\r\nD2077,72\r\n", by decide +kernel⟩, by unfold CommentLine; decide +kernel, by unfold CommentLine; decide +kernel, by decide, by decide,
    Or.inr rfl⟩

example : SerialNumber (bytes "059") := by unfold SerialNumber; decide +kernel

example : readSNOf (fun _ => .raises) demoHeader = .str (bytes "059") ∧ readConfig demoHeader = ⟨1, 15, 20, 1, 0, 0⟩ := by decide +kernel

/-- A sample before the serial number. -/
example : readSNOf (fun _ => .raises) (bytes "#GemCSV0.91\n#D\n#G\nD2067,0\nS,059\n") = .raises := by decide +kernel

/-- A damaged line: the low gain is lost. -/
example : readConfig (bytes "#GemCSV0.91\n#D\n#G\nS,059\nC,1,15,20,1\n") = defaultConfig := by decide +kernel

example : ∀ l ∈ textLines (bytes "#GemCSV0.91\n#D\n#G\nS,059\nC,1,15,20,1\n"),
    (csvText l).take 2 ≠ bytes "C," ∨ (csvText l).count 44 ≠ 6 := by decide +kernel

/-- The hypotheses of `C76_recording` hold for a file of four samples, recorded at low gain. -/
example : ∃ g, readGem (demoDisk.withHeaders fun _ => .raises).env [⟨bytes "FILE0001.012", 500, .str (bytes "012")⟩] (bytes "012") [1] true = .ok g ∧
    g.specs.bitweightPa = 2 * (specsOf (7 / 10)).bitweightPa := by
  have hrec : trueRecord 1577836800 (1024 / 1000000) [demoLog] =
    [(1577836800 + 1024 / 1000000 * (0 + 893 / 100), 100), (1577836800 + 1024 / 1000000 * (10 + 893 / 100), 95),
     (1577836800 + 1024 / 1000000 * (21 + 893 / 100), 98), (1577836800 + 1024 / 1000000 * (31 + 893 / 100), 98)] := by decide +kernel
  obtain ⟨g, h1, -, h3, -⟩ := C76_recording (fun _ => .raises) demoDisk [⟨bytes "FILE0001.012", 500, .str (bytes "012")⟩] (bytes "012") [1]
    (fun _ => demoLog) 1577836800 (1024 / 1000000) ⟨bytes "FILE0001.012", 500, .str (bytes "012")⟩ [] (by decide +kernel) (fun _ _ => rfl)
    demo_clean "0.91" (by decide) ⟨_, _, rfl, congrArg LogLine.other (by decide +kernel)⟩ (by unfold SerialNumber; decide +kernel)
    (fun _ => ⟨1, 15, 20, 1, 0, 0⟩)
    (fun _ _ => ⟨[bytes "#GemCSV0.91", bytes "#DmsSamp,ADC", bytes "#G,msPPS,msLag", bytes "#M,ms,batt(V)"], [bytes "#Firmware0.951"],
      (demoLog.map Event.line).drop 7, [], by
        have : configLine ⟨1, 15, 20, 1, 0, 0⟩ = bytes "C,1,15,20,1,0,0" := by decide +kernel
        rw [this]; rfl, by unfold CommentLine; decide +kernel, by unfold CommentLine; decide +kernel, by decide, by decide, Or.inl rfl⟩)
    (Or.inr rfl) 12 (by decide +kernel) (specsOf (7 / 10)) (by decide +kernel) idealFit_reproduces idealFit_line _ rfl
    (by
      rw [List.map_singleton, hrec]
      intro r hr _
      unfold runsOf timesOf at hr
      rw [recordOf_stamped, List.map_map] at hr
      simp only [List.map_cons, List.map_nil, Function.comp] at hr
      rw [runs_single _ _ _ _ (by
        refine List.isChain_iff_getElem.mpr fun i hi => ?_
        simp only [List.length_cons, List.length_nil] at hi
        have : i = 0 ∨ i = 1 ∨ i = 2 := by omega
        rcases this with rfl | rfl | rfl <;> (rintro ⟨h | h, -⟩ <;> norm_num at h)), List.mem_singleton] at hr
      subst hr
      norm_num)
  exact ⟨g, h1, h3⟩

end Gemlog
