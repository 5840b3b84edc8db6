import Verif.Props.Parser
import Verif.Model.Readers

/-!
# Property C06: the size of the parser's buffers does not matter; C04: uninitialised memory
-/

namespace Gemlog

theorem parseChunksN_eq (n : Nat) : ∀ (cs : List (List Nat)) (idx : Nat) (st : PState) (buf : List Nat),
    parseChunksN n idx st buf cs
      = if idx + (parseChunks st buf cs).length ≤ n ∨ parseChunks st buf cs = []
        then some (parseChunks st buf cs) else none := by
  intro cs
  induction cs with
  | nil => intro idx st buf; simp [parseChunksN, parseChunks]
  | cons c cs ih =>
    intro idx st buf
    obtain ⟨r, st', h⟩ : ∃ r st', stepLine st (loadBuf buf c) = (r, st') := ⟨_, _, rfl⟩
    cases r with
    | none => simp only [parseChunksN, parseChunks, h]; exact ih idx st' _
    | some r =>
      simp only [parseChunksN, parseChunks, h]
      rw [ih]
      by_cases h1 : idx < n
      · rw [if_pos h1]
        by_cases h2 : parseChunks st' (loadBuf buf c) cs = []
        · rw [h2]; simp; omega
        · by_cases h3 : idx + 1 + (parseChunks st' (loadBuf buf c) cs).length ≤ n
          · rw [if_pos (Or.inl h3), if_pos (by left; simp; omega)]; rfl
          · rw [if_neg (by simp [h2]; omega), if_neg (by simp; omega)]; rfl
      · rw [if_neg h1, if_neg (by simp; omega)]

theorem parseGemN_eq (n : Nat) (buf0 content : List Nat) :
    parseGemN n buf0 content
      = if (parseGem buf0 content).length ≤ n then some (parseGem buf0 content) else none := by
  unfold parseGemN
  rw [parseChunksN_eq]
  unfold parseGem
  by_cases h : parseChunks .init buf0 (fgetsChunks content) = []
  · rw [h]; simp
  · simp [h]

/-- The number of rows does not depend on uninitialised memory. -/
theorem parseGem_length (buf1 buf2 content : List Nat) :
    (parseGem buf1 content).length = (parseGem buf2 content).length := by
  obtain ⟨p, hp, h1⟩ := C01_rows_are_data_lines buf1 content
  obtain ⟨q, hq, h2⟩ := C01_rows_are_data_lines buf2 content
  rw [C01_cut_unique content p q hp hq] at h1
  have := congrArg List.length (h1.trans h2.symm)
  simpa using this

/-- Documented outcome for the complete list of rows of a file. -/
def rowsOutcome (requireGps : Bool) (rows : List Row) : Except Exc (List Row) :=
  match rows with
  | [] => .error .emptyRaw
  | r :: rs => if requireGps && ((r :: rs).filter (fun r => r.kind == .G)).isEmpty then .error .noGPS
      else .ok (r :: rs)

theorem checkRows_eq (requireGps : Bool) (rows : List Row) :
    checkRows requireGps rows = rowsOutcome requireGps rows := by
  cases rows with
  | nil => simp [checkRows, rowsOutcome]
  | cons r rs =>
    unfold checkRows rowsOutcome
    rw [if_neg (by simp)]
    dsimp only
    have : (requireGps && ((r :: rs).filter (fun r => r.kind == .G)).isEmpty) = true ↔
        ((∀ x ∈ r :: rs, x.kind ≠ .G) ∧ requireGps = true) := by
      rw [Bool.and_eq_true, List.isEmpty_iff, List.filter_eq_nil_iff]
      constructor
      · rintro ⟨a, b⟩; exact ⟨fun x hx => by simpa using b x hx, a⟩
      · rintro ⟨a, b⟩; exact ⟨b, fun x hx => by simpa using a x hx⟩
    by_cases h : (requireGps && ((r :: rs).filter (fun r => r.kind == .G)).isEmpty) = true
    · rw [if_pos h, if_pos (this.mp h)]
    · rw [if_neg h, if_neg (fun h' => h (this.mpr h'))]

/-- **C06.** A file of at most 65,520,000 data lines is read completely (all rows that an unlimited parser
finds, from one of the two calls), whatever its size relative to the first buffer; a longer one is an
error; so a truncated table is never returned. -/
theorem C06_complete_or_error (buf0 buf1 : List Nat) (requireGps : Bool) (content : List Nat) :
    ((parseGem buf0 content).length ≤ 1560000 →
      readWithCython buf0 buf1 requireGps (some content) = rowsOutcome requireGps (parseGem buf0 content)) ∧
    (1560000 < (parseGem buf0 content).length → (parseGem buf0 content).length ≤ 65520000 →
      readWithCython buf0 buf1 requireGps (some content) = rowsOutcome requireGps (parseGem buf1 content)) ∧
    (65520000 < (parseGem buf0 content).length →
      readWithCython buf0 buf1 requireGps (some content) = .error .other) := by
  have hl := parseGem_length buf0 buf1 content
  refine ⟨?_, ?_, ?_⟩
  · intro h
    simp only [readWithCython, parseGemN_eq]
    rw [if_pos h]
    exact checkRows_eq _ _
  · intro h1 h2
    simp only [readWithCython, parseGemN_eq]
    rw [if_neg (by omega), if_pos (by omega)]
    exact checkRows_eq _ _
  · intro h
    simp only [readWithCython, parseGemN_eq]
    rw [if_neg (by omega), if_neg (by omega)]

/-- Both size classes occur: a file of `n` lines `D1,1` has `n` rows. -/
example (n : Nat) : (parseGem [] (List.replicate n (bytes "D1,1\n")).flatten).length = n := by
  have hb : bytes "D1,1\n" = lineD (.ofNat 1) 1 := by decide +kernel
  induction n with
  | zero => rfl
  | succ n ih =>
    rw [List.replicate_succ', List.flatten_append, hb]
    simp only [List.flatten_singleton]
    rw [C03_line_D]
    · rw [← hb, List.length_append, ih]; rfl
    · cases n with
      | zero => left; rfl
      | succ n =>
        right
        rw [List.replicate_succ', List.flatten_append]
        simp only [List.flatten_singleton]
        rw [List.getLast?_append]
        rfl
    · decide +kernel

/-! ## C04: uninitialised memory -/

theorem step_buf_indep (st : PState) (b1 b2 c : List Nat) (h : 2 ≤ c.length ∨ c = [10]) :
    stepLine st (loadBuf b1 c) = stepLine st (loadBuf b2 c) := by
  rcases h with h | h
  · have e0 : ∀ b, (loadBuf b c).getD 0 0 = c.getD 0 0 := fun b => loadBuf_get _ _ _ (by omega)
    have e1 : ∀ b, (loadBuf b c).getD 1 0 = c.getD 1 0 := fun b => loadBuf_get _ _ _ (by omega)
    have ec : ∀ b k, k ≤ 2 → cstr (loadBuf b c) k = (c.drop k).takeWhile (· ≠ 0) := by
      intro b k hk
      unfold cstr loadBuf
      rw [List.drop_append_of_le_length (by omega)]
      generalize c.drop k = l
      induction l with
      | nil => simp
      | cons x l ih => rw [List.cons_append, List.takeWhile_cons, List.takeWhile_cons, ih]
    unfold stepLine
    simp only [e0, e1, ec _ 1 (by omega), ec _ 2 (by omega)]
  · subst h
    have e : ∀ b, (loadBuf b [10]).getD 0 0 = 10 := by
      intro b; rw [loadBuf_get _ _ _ (by simp)]; simp
    unfold stepLine
    simp only [e]
    rfl

/-- **C04, partial.** If the file ends with a newline, the rows do not depend on uninitialised memory
(the initial content of the line buffer). Missing: a file whose last line is a lone `G` or `M`, see
`C04_violated_memory`. -/
theorem C04_no_uninitialised_memory_partial (buf1 buf2 content : List Nat) (h : EndsLine content) :
    parseGem buf1 content = parseGem buf2 content := by
  have hcut := chunkGo_cut content [] (by simp) (by simp)
  obtain ⟨a1, a2, _, _, a5⟩ := hcut
  have hp : ∀ c ∈ chunkGo [] content, 2 ≤ c.length ∨ c = [10] := by
    have key : ∀ c ∈ chunkGo [] content, c.getLast? = some 10 ∨ c.length = 255 := by
      rcases h with h | h
      · subst h; simp [chunkGo]
      · intro c hc
        by_cases hl : (chunkGo [] content).dropLast ++ [(chunkGo [] content).getLast (List.ne_nil_of_mem hc)]
            = chunkGo [] content
        · rw [← hl] at hc
          rcases List.mem_append.mp hc with hc | hc
          · exact a5 c hc
          · simp only [List.mem_singleton] at hc
            left
            have e := a1
            rw [← hl, List.flatten_append] at e
            simp only [List.flatten_singleton, List.nil_append] at e
            have hne : (chunkGo [] content).getLast (List.ne_nil_of_mem ‹_›) ≠ [] :=
              a2 _ (List.getLast_mem _)
            rw [← e, List.getLast?_append_of_ne_nil _ hne] at h
            rw [hc]; exact h
        · exact absurd (List.dropLast_append_getLast _) hl
    intro c hc
    rcases key c hc with k | k
    · obtain ⟨l, rfl⟩ : ∃ l, c = l ++ [10] := by
        have := List.dropLast_append_getLast? 10 k
        exact ⟨c.dropLast, this.symm⟩
      cases l with
      | nil => right; rfl
      | cons x l => left; simp
    · left; omega
  have key : ∀ (cs : List (List Nat)) (st : PState) (b1 b2 : List Nat),
      (∀ c ∈ cs, 2 ≤ c.length ∨ c = [10]) → parseChunks st b1 cs = parseChunks st b2 cs := by
    intro cs
    induction cs with
    | nil => intros; rfl
    | cons c cs ih =>
      intro st b1 b2 hc
      rw [parseChunks_cons, parseChunks_cons, step_buf_indep st b1 b2 c (hc c (by simp)),
        ih _ _ (loadBuf b2 c) (fun x hx => hc x (by simp [hx]))]
  exact key _ _ _ _ hp

/-- **C04 is violated** at the end of a file cut off right after the letter of a GPS line: the fields are
taken from whatever the line buffer held, here the end of the previous line. -/
theorem C04_violated_memory :
    parseGem [] (bytes "D100,523\nG")
      = [⟨.D, 100, 523 :: List.replicate 10 0⟩, ⟨.G, 0, 523 :: List.replicate 10 0⟩] ∧
    parseGem (bytes "??7,8,2020,1,1,1,1,1,43,-116") (bytes "G")
      = [⟨.G, 7, [8, 2020, 1, 1, 1, 1, 1, 43, -116, 0, 0]⟩] := by
  decide +kernel

end Gemlog
